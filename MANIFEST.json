{
 "claims": [
  {
   "property": "C01",
   "status": "proved",
   "theorems": [
    "Xcp.C01_transport_header"
   ],
   "note": ""
  },
  {
   "property": "C02",
   "status": "partial",
   "theorems": [
    "Xcp.C02_frame_size",
    "Xcp.C02_sizes_partial",
    "Xcp.C02_fails",
    "Xcp.C02_fails_witness"
   ],
   "note": "Upper bounds proved for every build (C02_frame_size). Lower bound proved for builds with assertions or MAX_DTO <= 255; false without assertions for MAX_DTO >= 256: the queue keeps lengths in 8 bits and sends a 256 byte packet as an empty one."
  },
  {
   "property": "C03",
   "status": "proved",
   "theorems": [
    "Xcp.C03_silent_before_connect"
   ],
   "note": ""
  },
  {
   "property": "C04",
   "status": "proved",
   "theorems": [
    "Xcp.C04_connect",
    "Xcp.C04_fails_with_max_dlc"
   ],
   "note": "proved for configurations that send short packets as they are; with XCP_ON_CAN_MAX_DLC_REQUIRED and MAX_CTO > 8 (CAN-FD) the response carries stale buffer bytes, shown by C04_fails_with_max_dlc"
  },
  {
   "property": "C05",
   "status": "partial",
   "theorems": [
    "Xcp.C05_connect_partial",
    "Xcp.C05_getId_partial",
    "Xcp.C05_getDaqClock_partial",
    "Xcp.C05_getDaqProcessorInfo_partial",
    "Xcp.C05_checksum_partial",
    "Xcp.C05_fails_motorola",
    "Xcp.C05_fails_motorola_witness"
   ],
   "note": "false for Motorola builds: responses are always little-endian; proved for Intel"
  },
  {
   "property": "C06",
   "status": "proved",
   "theorems": [
    "Xcp.C06_busy",
    "Xcp.C06_not_busy"
   ],
   "note": ""
  },
  {
   "property": "C07",
   "status": "partial",
   "theorems": [
    "Xcp.C07_one_response_partial",
    "Xcp.C07_two_responses",
    "Xcp.C07_fails_twice",
    "Xcp.C07_fails_none"
   ],
   "note": "false for two commands that answer twice and for user commands that do not answer; the partial theorem gives the exact set of exceptions"
  },
  {
   "property": "C08",
   "status": "partial",
   "theorems": [
    "Xcp.C08_offered",
    "Xcp.C08_unknown_partial",
    "Xcp.C08_fails_low_codes"
   ],
   "note": "false for codes up to 0xC6, which index outside the jump table"
  },
  {
   "property": "C09",
   "status": "partial",
   "theorems": [
    "Xcp.C09_disconnect_partial",
    "Xcp.C09_fails_still_connected",
    "Xcp.C09_fails_upload_after_disconnect"
   ],
   "note": "false: the slave stays connected after DISCONNECT"
  },
  {
   "property": "C10",
   "status": "proved",
   "theorems": [
    "Xcp.C10_upload",
    "Xcp.C10_upload_sequence"
   ],
   "note": ""
  },
  {
   "property": "C11",
   "status": "proved",
   "theorems": [
    "Xcp.C11_block_upload",
    "Xcp.C11_block_upload_complete"
   ],
   "note": ""
  },
  {
   "property": "C12",
   "status": "proved",
   "theorems": [
    "Xcp.C12_download",
    "Xcp.C12_download_upload",
    "Xcp.C12_download_max"
   ],
   "note": "the destination must not be the null pointer when assertions are on"
  },
  {
   "property": "C13",
   "status": "partial",
   "theorems": [
    "Xcp.C13_block_download_partial",
    "Xcp.C13_next_without_download",
    "Xcp.C13_fails_count_mismatch",
    "Xcp.C13_fails_witness"
   ],
   "note": "first half proved; the remaining count of DOWNLOAD_NEXT is not checked, so the second half is false"
  },
  {
   "property": "C14",
   "status": "partial",
   "theorems": [
    "Xcp.C14_short_upload",
    "Xcp.C14_short_download_partial",
    "Xcp.C14_fails_short_download_mta",
    "Xcp.C14_fails_witness"
   ],
   "note": "SHORT_UPLOAD proved; SHORT_DOWNLOAD stores the data but leaves the MTA at old MTA + n"
  },
  {
   "property": "C45",
   "status": "partial",
   "theorems": [
    "Xcp.C45_word",
    "Xcp.C45_dword_partial",
    "Xcp.C45_fails_signed_overflow",
    "Xcp.C45_fails_witness",
    "Xcp.C45_set",
    "Xcp.C45_round_trip_partial"
   ],
   "note": "32-bit values from 2^31 on overflow a signed int in Xcp_GetDWord unless signed arithmetic wraps"
  },
  {
   "property": "C16",
   "status": "partial",
   "theorems": [
    "Xcp.C16_write_hook_partial",
    "Xcp.C16_history_partial",
    "Xcp.C16_fails_download_max",
    "Xcp.C16_fails_download_next",
    "Xcp.C16_fails_modify_bits"
   ],
   "note": "false for DOWNLOAD_MAX, DOWNLOAD_NEXT (hook not asked) and MODIFY_BITS (asked about two of four bytes)"
  },
  {
   "property": "C58",
   "status": "proved",
   "theorems": [
    "Xcp.C58_step",
    "Xcp.C58_only_downloads"
   ],
   "note": ""
  },
  {
   "property": "C17",
   "status": "partial",
   "theorems": [
    "Xcp.C17_fails_locked",
    "Xcp.C17_mask_irrelevant",
    "Xcp.C17_fails_witness"
   ],
   "note": "False: no calibration command looks at the protection mask; proved that every calibration command behaves the same whatever the mask is, and that DOWNLOAD writes on a locked slave."
  },
  {
   "property": "C18",
   "status": "proved",
   "theorems": [
    "Xcp.C18_locked",
    "Xcp.C18_access_locked",
    "Xcp.C18_history"
   ],
   "note": ""
  },
  {
   "property": "C19",
   "status": "partial",
   "theorems": [
    "Xcp.C19_start_refused",
    "Xcp.C19_history",
    "Xcp.C19_commands_refused_partial",
    "Xcp.C19_fails_info"
   ],
   "note": "Proved except for GET_PGM_PROCESSOR_INFO and GET_SECTOR_INFO, which are answered while PGM is locked."
  },
  {
   "property": "C20",
   "status": "proved",
   "theorems": [
    "Xcp.C20_unlock_only",
    "Xcp.C20_unlock_sequence"
   ],
   "note": ""
  },
  {
   "property": "C21",
   "status": "proved",
   "theorems": [
    "Xcp.C21_wrong_key"
   ],
   "note": ""
  },
  {
   "property": "C22",
   "status": "partial",
   "theorems": [
    "Xcp.C22_get_status",
    "Xcp.C22_with",
    "Xcp.C22_without",
    "Xcp.C22_unlock",
    "Xcp.C22_daq",
    "Xcp.C22_pgm",
    "Xcp.C22_fails_cal"
   ],
   "note": "Proved for DAQ and PGM; false for CAL/PAG, which is reported as protected but not enforced."
  },
  {
   "property": "C23",
   "status": "partial",
   "theorems": [
    "Xcp.C23_refused_partial",
    "Xcp.C23_exclusive",
    "Xcp.C23_fails"
   ],
   "note": "False for MODIFY_BITS (writes memory), SET_MTA and GET_DAQ_EVENT_INFO; proved for all other memory and DAQ commands."
  },
  {
   "property": "C24",
   "status": "proved",
   "theorems": [
    "Xcp.C24_sequence",
    "Xcp.C24_start_running",
    "Xcp.C24_active"
   ],
   "note": ""
  },
  {
   "property": "C25",
   "status": "partial",
   "theorems": [
    "Xcp.C25_fails",
    "Xcp.C25_fails_witness"
   ],
   "note": "False: an accepted PROGRAM stores nothing (the copy is commented out)."
  },
  {
   "property": "C26",
   "status": "partial",
   "theorems": [
    "Xcp.C26_refused_partial",
    "Xcp.C26_multiple",
    "Xcp.C26_fails"
   ],
   "note": "Proved for SET_DAQ_PTR, WRITE_DAQ, WRITE_DAQ_MULTIPLE, SET_DAQ_LIST_MODE; false for FREE_DAQ and ALLOC_*."
  },
  {
   "property": "C27",
   "status": "partial",
   "theorems": [
    "Xcp.C27_sequence",
    "Xcp.C27_accepted",
    "Xcp.C27_free",
    "Xcp.C27_reachable",
    "Xcp.C27_unchanged",
    "Xcp.C27_implicit_free",
    "Xcp.C27_reset"
   ],
   "note": "Proved counting initialisation as a FREE_DAQ; a refused call changes nothing only if the reset-on-sequence-error option is off."
  },
  {
   "property": "C28",
   "status": "partial",
   "theorems": [
    "Xcp.C28_pool_partial",
    "Xcp.C28_unchanged",
    "Xcp.C28_bound",
    "Xcp.C28_fails"
   ],
   "note": "Proved for ALLOC_DAQ counts below 256; the bound holds always. ALLOC_DAQ(256) is accepted and allocates nothing."
  },
  {
   "property": "C29",
   "status": "partial",
   "theorems": [
    "Xcp.C29_layout_partial",
    "Xcp.C29_lookup",
    "Xcp.C29_fails_odt",
    "Xcp.C29_fails_entry",
    "Xcp.C29_fails_oob",
    "Xcp.C29_fails_repeat"
   ],
   "note": "First half proved; requests naming non-existing lists or ODTs are accepted and corrupt the configuration."
  },
  {
   "property": "C30",
   "status": "partial",
   "theorems": [
    "Xcp.C30_set_daq_ptr_partial",
    "Xcp.C30_fails"
   ],
   "note": "Proved for list numbers below 256; larger ones are cut to 8 bits and accepted."
  },
  {
   "property": "C31",
   "status": "partial",
   "theorems": [
    "Xcp.C31_write_daq_partial",
    "Xcp.C31_multiple_partial",
    "Xcp.C31_fails",
    "Xcp.C31_fails_oob"
   ],
   "note": "Proved for writes inside the ODT; writes past the last entry are accepted and overwrite the next pool element or leave the pool."
  },
  {
   "property": "C32",
   "status": "partial",
   "theorems": [
    "Xcp.C32_first_pid_partial",
    "Xcp.C32_partition",
    "Xcp.C32_fails"
   ],
   "note": "Proved for configurations built by requests naming existing lists and ODTs; others are accepted and corrupt the numbering."
  },
  {
   "property": "C33",
   "status": "partial",
   "theorems": [
    "Xcp.C33_event_partial",
    "Xcp.C33_fails"
   ],
   "note": "Proved while the list's packets fit in the unused rest of the queue (at most four packets after initialisation) and the mode byte shared by all lists says timestamps; a list of five ODTs loses its last packet."
  },
  {
   "property": "C34",
   "status": "partial",
   "theorems": [
    "Xcp.C34_fifo_partial",
    "Xcp.C34_fails"
   ],
   "note": "First-in first-out with overload flag proved for any operations accepting up to four packets after initialisation; the next packet is stored outside the queue."
  },
  {
   "property": "C35",
   "status": "partial",
   "theorems": [
    "Xcp.C35_between_partial",
    "Xcp.C35_fails"
   ],
   "note": "Proved for the acquisition as a whole; false for single lists, which are sampled without being selected."
  },
  {
   "property": "C36",
   "status": "partial",
   "theorems": [
    "Xcp.C36_default",
    "Xcp.C36_unassigned_partial",
    "Xcp.C36_assign_partial",
    "Xcp.C36_fails",
    "Xcp.C36_fails_event",
    "Xcp.C36_fails_list"
   ],
   "note": "False: unassigned events sample list 0, and event and list numbers of SET_DAQ_LIST_MODE are not checked. Proved for unassigned events when list 0 is missing or empty, and for existing events."
  },
  {
   "property": "C37",
   "status": "partial",
   "theorems": [
    "Xcp.C37_mode_partial",
    "Xcp.C37_fails",
    "Xcp.C37_free_keeps",
    "Xcp.C37_fails_free"
   ],
   "note": "False: all lists share one mode byte, which FREE_DAQ keeps. Proved: the flags in force are those set last."
  },
  {
   "property": "C38",
   "status": "proved",
   "theorems": [
    "Xcp.C38_cleared",
    "Xcp.C38_no_lists",
    "Xcp.C38_set_daq_ptr",
    "Xcp.C38_event",
    "Xcp.C38_pool"
   ],
   "note": ""
  },
  {
   "property": "C39",
   "status": "proved",
   "theorems": [
    "Xcp.C39_value",
    "Xcp.C39_command"
   ],
   "note": "For blocks computed in the background see C43."
  },
  {
   "property": "C40",
   "status": "proved",
   "theorems": [
    "Xcp.C40_value",
    "Xcp.C40_command"
   ],
   "note": "For blocks computed in the background see C43."
  },
  {
   "property": "C41",
   "status": "partial",
   "theorems": [
    "Xcp.C41_fails_witness",
    "Xcp.C41_fails_single_byte",
    "Xcp.C41_fails_command",
    "Xcp.C41_fails_middle_ignored",
    "Xcp.C41_table_partial",
    "Xcp.C41_empty_partial"
   ],
   "note": "False: the loop shifts the wrong way for its table and cuts the register to 16 bits. Proved for the table and for the empty block."
  },
  {
   "property": "C42",
   "status": "proved",
   "theorems": [
    "Xcp.C42_value",
    "Xcp.C42_trailing",
    "Xcp.C42_groups_cover",
    "Xcp.C42_command"
   ],
   "note": "Words are little-endian as on the modelled target; trailing bytes that do not fill a word do not count."
  },
  {
   "property": "C43",
   "status": "partial",
   "theorems": [
    "Xcp.C43_background_partial",
    "Xcp.C43_fails_short_block",
    "Xcp.C43_fails_witness",
    "Xcp.C43_fails_crc16",
    "Xcp.C43_fails_odd_chunk"
   ],
   "note": "Proved for blocks of at least two chunks with CRC_16_CITT and ADD methods; false for blocks between one and two chunks (never answered, memory behind the block is read) and for CRC_16 and CRC_32."
  },
  {
   "property": "C44",
   "status": "partial",
   "theorems": [
    "Xcp.C44_limit_partial",
    "Xcp.C44_fails_mta",
    "Xcp.C44_fails_mta_main",
    "Xcp.C44_fails_witness"
   ],
   "note": "The limit is honoured; the MTA is never advanced."
  },
  {
   "property": "C46",
   "status": "partial",
   "theorems": [
    "Xcp.C46_computes",
    "Xcp.C46_modify_bits_partial",
    "Xcp.C46_fails",
    "Xcp.C46_fails_never_sets",
    "Xcp.C46_fails_shift",
    "Xcp.C46_fails_overflow",
    "Xcp.C46_fails_witness"
   ],
   "note": "False: the code computes A & (~(~MA<<S) ^ (MX<<S)), which equals the standard's value exactly when every bit to be toggled is set in A; it can never set a bit. Shifts of 32 or more, or into the sign bit, are undefined."
  },
  {
   "property": "C54",
   "status": "proved",
   "theorems": [
    "Xcp.C54_event",
    "Xcp.C54_service"
   ],
   "note": "In every reachable state. With XCP_ON_CAN_MAX_DLC_REQUIRED the frame is padded to MAX_CTO."
  },
  {
   "property": "C55",
   "status": "proved",
   "theorems": [
    "Xcp.C55_available",
    "Xcp.C55_unavailable",
    "Xcp.C55_identification"
   ],
   "note": "The composed theorem is for configurations without slave block mode and address mapper, with a memory hook (if any) that allows the uploads."
  },
  {
   "property": "C56",
   "status": "partial",
   "theorems": [
    "Xcp.C56_statistics_partial",
    "Xcp.C56_received",
    "Xcp.C56_fails",
    "Xcp.C56_fails_witness"
   ],
   "note": "Sent and busy counters are exact. The received counter also counts packets that a disconnected slave ignores; exact when there are none."
  },
  {
   "property": "C57",
   "status": "partial",
   "theorems": [
    "Xcp.C57_complete_partial",
    "Xcp.C57_length_ignored",
    "Xcp.C57_fails",
    "Xcp.C57_fails_witness"
   ],
   "note": "False: pdu->len is never looked at, short packets are executed with bytes left over from earlier packets. Proved for packets with all bytes that a command the slave offers needs (and an UNLOCK hook that looks only at the key bytes)."
  },
  {
   "property": "C59",
   "status": "partial",
   "theorems": [
    "Xcp.C59_pids_partial",
    "Xcp.C59_small_pool",
    "Xcp.C59_fails_pool",
    "Xcp.C59_fails_write"
   ],
   "note": "Proved for configurations that represent an abstract one with at most 252 ODTs (always so for pools of at most 253 elements). False for larger pools, and false for every pool when WRITE_DAQ is sent without SET_DAQ_PTR."
  },
  {
   "property": "C47",
   "status": "partial",
   "theorems": [
    "Xcp.C47_packets_partial",
    "Xcp.C47_fails_overrun",
    "Xcp.C47_fails",
    "Xcp.C47_fails_wrap",
    "Xcp.C47_fails_timeout",
    "Xcp.C47_counter",
    "Xcp.C47_counter_unused"
   ],
   "note": "Packets that fit the buffer are recovered exactly. Every packet that does not fit makes the receiver write behind its buffer; lengths 0xFFFE/0xFFFF wrap; the wrong time-out (C48) drops packets."
  },
  {
   "property": "C48",
   "status": "partial",
   "theorems": [
    "Xcp.C48_started_partial",
    "Xcp.C48_exact",
    "Xcp.C48_fails_late",
    "Xcp.C48_fails_early",
    "Xcp.C48_only_check"
   ],
   "note": "False for every configured time: the variable holding the limit is overwritten with the start time. The callback runs only while the timer is started (proved), exactly when the elapsed time exceeds the timer value at the start."
  },
  {
   "property": "C50",
   "status": "partial",
   "theorems": [
    "Xcp.C50_copy",
    "Xcp.C50_copy_down",
    "Xcp.C50_copy_overlap",
    "Xcp.C50_set",
    "Xcp.C50_cmp_partial",
    "Xcp.C50_cmp_overread",
    "Xcp.C50_cmp_fails",
    "Xcp.C50_cmp_zero"
   ],
   "note": "MemCopy and MemSet proved. MemCmp: right result for lengths above 0, but it reads one byte behind each of two equal areas."
  },
  {
   "property": "C51",
   "status": "partial",
   "theorems": [
    "Xcp.C51_itoa_partial",
    "Xcp.C51_fails",
    "Xcp.C51_base0",
    "Xcp.C51_base1"
   ],
   "note": "Proved for bases 2 to 36 and all values, except the smallest signed number in base 10 on targets with a 32-bit long, which is a signed overflow."
  },
  {
   "property": "C52",
   "status": "partial",
   "theorems": [
    "Xcp.C52_granularity_zero",
    "Xcp.C52_unmapped_partial",
    "Xcp.C52_uninit",
    "Xcp.C52_pages",
    "Xcp.C52_mapper_partial",
    "Xcp.C52_page_partial",
    "Xcp.C52_erasePage_partial",
    "Xcp.C52_eraseBlock_partial",
    "Xcp.C52_eraseSector_exact",
    "Xcp.C52_allocated",
    "Xcp.C52_fails_open",
    "Xcp.C52_fails_back",
    "Xcp.C52_fails_sector",
    "Xcp.C52_fails_erasePage",
    "Xcp.C52_fails_allocated",
    "Xcp.C52_fails_deinit",
    "Xcp.C52_deinit_partial"
   ],
   "note": "Once storage is mapped, translation is exact and page/block erases are exact while page 0 is shown. As written, opening maps no storage so the mapper and FlsEmu_DeInit dereference null; going back to page 0 is ignored; sectors are erased at twice their offset."
  },
  {
   "property": "C49",
   "status": "partial",
   "theorems": [
    "Xcp.C49_packets_partial",
    "Xcp.C49_delivered_partial",
    "Xcp.C49_split_exact",
    "Xcp.C49_split_anywhere",
    "Xcp.C49_fails_split",
    "Xcp.C49_fails",
    "Xcp.C49_fails_oversized",
    "Xcp.C49_fails_assert",
    "Xcp.C49_fails_error",
    "Xcp.C49_fails_forgets",
    "Xcp.C49_fails_errors",
    "Xcp.C49_errors_ignored",
    "Xcp.C49_fails_data_errors",
    "Xcp.C49_fails_udp",
    "Xcp.C49_fails_udp_two"
   ],
   "note": "Proved for every segmentation that splits no header. A header split after two bytes makes the receiver take the counter for the length; oversized lengths are stored outside the buffer; recv errors count as 255 bytes, so that a connection on which recv always fails is read until the header is taken from outside of its buffer; with UDP nothing is received."
  },
  {
   "property": "C53",
   "status": "partial",
   "theorems": [
    "Xcp.C53_partial",
    "Xcp.C53_ops_partial",
    "Xcp.C53_exclusive",
    "Xcp.C53_main_locks",
    "Xcp.C53_event_locks",
    "Xcp.C53_fails",
    "Xcp.C53_fails_checksum",
    "Xcp.C53_checksum_iff",
    "Xcp.C53_fails_upload",
    "Xcp.C53_fails_serial",
    "Xcp.C53_covered"
   ],
   "note": "Deadlock freedom proved for any number of threads and all schedules without slave block mode and chunked checksums, and for all other operations otherwise. Starting a block transfer or a chunked checksum re-acquires a non-recursive mutex and hangs; on serial lines every answered command does."
  },
  {
   "property": "C60",
   "status": "partial",
   "theorems": [
    "Xcp.C60_no_fault_partial",
    "Xcp.C60_other_calls",
    "Xcp.C60_fails",
    "Xcp.C60_fails_codes",
    "Xcp.C60_fails_each",
    "Xcp.C60_fails_seed"
   ],
   "note": "False as stated: 18 commands and all codes below 0xC7 can fault (witness for each). Proved: Hazard is a complete list of the exceptions; every other packet in every reachable state, Xcp_MainFunction and the event/service packets never fault."
  },
  {
   "property": "C15",
   "status": "partial",
   "theorems": [
    "Xcp.C15_read_hook_partial",
    "Xcp.C15_fails_short_upload",
    "Xcp.C15_fails_daq",
    "Xcp.C15_checksum_reads_past"
   ],
   "note": "Non-interference over whole histories: starting from two memories that agree wherever the hook permits reading, every history sends the same frames and ends in the same fault. Excluded, because the code violates the property there: SHORT_UPLOAD of memory the hook refuses (it asks about the old MTA; counterexample), data acquisition of refused memory (it never asks; counterexample), and background checksums over more than one and less than two chunks (they read past the block; witness). Restricted to configurations without an address mapper, since the hook is asked about unmapped addresses."
  },
  {
   "property": "C61",
   "status": "partial",
   "theorems": [
    "Xcp.C61_commModeInfo",
    "Xcp.C61_daqProcessorInfo_partial",
    "Xcp.C61_prescaler_fails",
    "Xcp.C61_resolution_partial",
    "Xcp.C61_resolution_fails",
    "Xcp.C61_event",
    "Xcp.C61_event_unnamed",
    "Xcp.C61_event_refused",
    "Xcp.C61_event_name",
    "Xcp.C61_event_fails_many",
    "Xcp.C61_pgmProcessorInfo",
    "Xcp.C61_sectorInfo_partial",
    "Xcp.C61_sectorInfo_fails"
   ],
   "note": "GET_COMM_MODE_INFO, GET_DAQ_EVENT_INFO with its name by UPLOAD, and GET_PGM_PROCESSOR_INFO proved. GET_DAQ_PROCESSOR_INFO always announces the prescaler, GET_DAQ_RESOLUTION_INFO has a fixed timestamp mode, GET_SECTOR_INFO always reports 0, and with 256 event channels GET_DAQ_EVENT_INFO refuses all of them: counterexamples, the rest of these answers proved."
  },
  {
   "property": "C62",
   "status": "partial",
   "theorems": [
    "Xcp.C62_arduino",
    "Xcp.C62_diff",
    "Xcp.C62_linux_ms",
    "Xcp.C62_linux_ms_difference",
    "Xcp.C62_linux_timer_partial",
    "Xcp.C62_linux_unit_fails",
    "Xcp.C62_linux_wrap_fails",
    "Xcp.C62_linux_clock_mix_fails",
    "Xcp.C62_win_timer_partial",
    "Xcp.C62_win_ms_partial",
    "Xcp.C62_win_fails"
   ],
   "note": "Linux: the millisecond clock and its differences are proved; the DAQ clock is right for the nanosecond unit until the counter wraps, and refuted for other units, at the wrap (2^32-1) and for the mixed clock sources. Windows: right if the unit divides the counter frequency; refuted otherwise. Arduino: right."
  },
  {
   "property": "C63",
   "status": "partial",
   "theorems": [
    "Xcp.C63_socket_partial",
    "Xcp.C63_socket_exact",
    "Xcp.C63_socket_extended_fails",
    "Xcp.C63_socket_complete",
    "Xcp.C63_socket_history_partial",
    "Xcp.C63_socket_fails_fd",
    "Xcp.C63_kvaser_partial",
    "Xcp.C63_kvaser_fails",
    "Xcp.C63_kvaser_filter"
   ],
   "note": "SocketCAN: exact for standard data messages and identifiers, over whole histories; what else passes is characterised exactly (remote and extended messages with equal low bits; with an extended identifier every extended message); long CAN-FD messages overrun the buffer. Kvaser: exact for data messages; remote requests are executed."
  },
  {
   "property": "C64",
   "status": "partial",
   "theorems": [
    "Xcp.C64_start_selected",
    "Xcp.C64_stop_all_partial",
    "Xcp.C64_stop_selected_partial",
    "Xcp.C64_synch_refused",
    "Xcp.C64_select",
    "Xcp.C64_list_fails",
    "Xcp.C64_fails_stop_all",
    "Xcp.C64_fails_stop_selected"
   ],
   "note": "Selecting, starting the selected lists and the refusals proved with exact effect on every mode bit. Refuted: START_STOP_DAQ_LIST(start/stop) does nothing, stop-all leaves started flags, stop-selected leaves the acquisition running."
  },
  {
   "property": "C65",
   "status": "partial",
   "theorems": [
    "Xcp.C65_slave_id",
    "Xcp.C65_daq_id",
    "Xcp.C65_daq_id_refused",
    "Xcp.C65_unknown",
    "Xcp.C65_set_fails",
    "Xcp.C65_discovery_fails"
   ],
   "note": "All answers of a connected slave proved. Refuted: GET_SLAVE_ID is not answered before CONNECT, SET_DAQ_ID is neither executed nor answered."
  },
  {
   "property": "C66",
   "status": "partial",
   "theorems": [
    "Xcp.C66_polled_partial",
    "Xcp.C66_lost_fails",
    "Xcp.C66_remote_fails",
    "Xcp.C66_repeat_fails",
    "Xcp.C66_long_fails"
   ],
   "note": "Proved for all histories in which the main function is called after each message. Refuted otherwise: the earlier message is lost; remote requests fail an assertion or repeat the last command."
  },
  {
   "property": "C67",
   "status": "partial",
   "theorems": [
    "Xcp.C67_one_client",
    "Xcp.C67_fails",
    "Xcp.C67_fails_unlocked"
   ],
   "note": "False: C67_one_client proves that the slave behaves as if one client had sent the packets of all clients; witnesses show memory read without CONNECT and resources unlocked by another client."
  },
  {
   "property": "C68",
   "status": "partial",
   "theorems": [
    "Xcp.C68_foreign_partial",
    "Xcp.C68_own",
    "Xcp.C68_connect",
    "Xcp.C68_session",
    "Xcp.C68_one_more",
    "Xcp.C68_closed",
    "Xcp.C68_fails",
    "Xcp.C68_fails_deaf",
    "Xcp.C68_fails_redirect",
    "Xcp.C68_fails_empty",
    "Xcp.C68_fails_disconnect",
    "Xcp.C68_fails_second_client",
    "Xcp.C68_fails_close",
    "Xcp.C68_fails_length"
   ],
   "note": "Proved for UDP: non-empty datagrams that fit are ignored from strangers and executed and answered from the master; a saved connection implies CONNECT; over TCP at most one more client is accepted during a session. Refuted: strangers get the measurement data after any datagram, end the session with an empty one, stop all reception with a long one, and are obeyed after DISCONNECT; a second TCP client takes over the connection."
  },
  {
   "property": "C69",
   "status": "partial",
   "theorems": [
    "Xcp.C69_upload",
    "Xcp.C69_upload_denied",
    "Xcp.C69_short_upload",
    "Xcp.C69_download",
    "Xcp.C69_download_block",
    "Xcp.C69_download_denied",
    "Xcp.C69_short_download",
    "Xcp.C69_short_download_denied",
    "Xcp.C69_write_multiple",
    "Xcp.C69_mode",
    "Xcp.C69_seed",
    "Xcp.C69_start_stop",
    "Xcp.C69_modify_denied",
    "Xcp.C69_checksum_denied",
    "Xcp.C69_checksum_block",
    "Xcp.C69_fails_next"
   ],
   "note": "Proved for all commands named except DOWNLOAD_NEXT; a DOWNLOAD refused in block mode also ends the block in progress. Refuted for DOWNLOAD_NEXT: its length is cut to one packet, not refused. SHORT_UPLOAD is checked by the hook at the old MTA (C15)."
  },
  {
   "property": "C70",
   "status": "partial",
   "theorems": [
    "Xcp.C70_start_selected",
    "Xcp.C70_stop_all_partial",
    "Xcp.C70_stop_selected",
    "Xcp.C70_synch_refused",
    "Xcp.C70_mode_refused",
    "Xcp.C70_list_refused",
    "Xcp.C70_select",
    "Xcp.C70_list_fails",
    "Xcp.C70_mode",
    "Xcp.C70_fails_stop_all",
    "Xcp.C70_fails_sampled"
   ],
   "note": "Proved: each list has its own mode and only the named or selected lists change. Refuted: START_STOP_DAQ_LIST does not start or stop, stop-all leaves unselected lists started, lists are sampled whether or not they are started."
  },
  {
   "property": "C71",
   "status": "partial",
   "theorems": [
    "Xcp.C71_invariant",
    "Xcp.C71_write",
    "Xcp.C71_write_multiple",
    "Xcp.C71_write_multiple_long",
    "Xcp.C71_ptr_partial",
    "Xcp.C71_ptr_refused_partial",
    "Xcp.C71_fails_list"
   ],
   "note": "Proved for all histories; SET_DAQ_PTR for list numbers below 256. Refuted above: the list number is cut to 8 bits."
  },
  {
   "property": "C72",
   "status": "partial",
   "theorems": [
    "Xcp.C72_event_partial",
    "Xcp.C72_fails_wrap",
    "Xcp.C72_fails_wide"
   ],
   "note": "Proved for tables of at most 256 elements whose ODTs fit in a packet, while the packets fit in the queue. Refuted for larger tables, where indices wrap, and for ODTs wider than a packet, which are copied beyond its end (or fail an assertion)."
  },
  {
   "property": "C73",
   "status": "partial",
   "theorems": [
    "Xcp.C73_processor",
    "Xcp.C73_info_partial",
    "Xcp.C73_info_fails",
    "Xcp.C73_select_fails",
    "Xcp.C73_mode_fails",
    "Xcp.C73_fails_entries",
    "Xcp.C73_fails_fixed",
    "Xcp.C73_fails_twice"
   ],
   "note": "Counts are right. Refuted: MAX_ODT_ENTRIES is 0, the event is reported fixed, and list numbers out of range lead to accesses outside the tables."
  },
  {
   "property": "C74",
   "status": "partial",
   "theorems": [
    "Xcp.C74_disconnect_partial",
    "Xcp.C74_fails_events"
   ],
   "note": "Modes, pointer, queue and running state are reset; the event assignments survive."
  },
  {
   "property": "C75",
   "status": "partial",
   "theorems": [
    "Xcp.C75_socket_classic_partial",
    "Xcp.C75_socket_fd",
    "Xcp.C75_kvaser_partial",
    "Xcp.C75_arduino_partial",
    "Xcp.C75_set_dlc",
    "Xcp.C75_socket_fails_without_fd",
    "Xcp.C75_socket_fails",
    "Xcp.C75_kvaser_fails",
    "Xcp.C75_arduino_fails"
   ],
   "note": "Proved for SocketCAN, Kvaser and Arduino with packets of at most 8 bytes, and for SocketCAN with CAN FD up to 64. Refuted for a CAN FD build on SocketCAN without the option -f (stack overrun), on Kvaser (packet lost, lock kept) and on the Arduino (cut off or lost)."
  },
  {
   "property": "C76",
   "status": "partial",
   "theorems": [
    "Xcp.C76_unlock_only",
    "Xcp.C76_seed_then_key",
    "Xcp.C76_seed_fails",
    "Xcp.C76_replay_fails",
    "Xcp.C76_memory_open"
   ],
   "note": "Opening only with the right key, and the right key opening, are proved for all histories. Refuted: that a key seen once is useless; the seed has 16 varying bits only (macros nested the wrong way round), so seeds and keys repeat whenever the timer agrees in its low 16 bits."
  },
  {
   "property": "C77",
   "status": "partial",
   "theorems": [
    "Xcp.C77_intact_partial",
    "Xcp.C77_uninterrupted",
    "Xcp.C77_turns",
    "Xcp.C77_finishes",
    "Xcp.C77_counter_fails",
    "Xcp.C77_mixed_fails"
   ],
   "note": "Proved for every schedule with at most one sending thread per kind of buffer: all packets arrive whole and in order, no deadlock. Refuted: consecutive counters (two frames with the same counter) and intact frames when responses and event packets are sent by two threads (they share a buffer without a lock)."
  },
  {
   "property": "C78",
   "status": "partial",
   "theorems": [
    "Xcp.C78_posix_partial",
    "Xcp.C78_posix_conflict",
    "Xcp.C78_posix_end",
    "Xcp.C78_posix_grouped",
    "Xcp.C78_posix_unknown",
    "Xcp.C78_windows_partial",
    "Xcp.C78_can_partial",
    "Xcp.C78_port_fails",
    "Xcp.C78_port_overflow",
    "Xcp.C78_shown_fails",
    "Xcp.C78_windows_fails",
    "Xcp.C78_can_fails"
   ],
   "note": "Proved on POSIX and Windows for options in any order that do not contradict each other with ports up to 65535, and for CAN interface names below 16 characters; contradictions are refused. Refuted: refusal of ports above 65535 or text, the port shown, the port on Windows, contradictions on Windows, longer interface names (buffer overflow)."
  },
  {
   "property": "C79",
   "status": "proved",
   "theorems": [
    "Xcp.C79_remote_memory"
   ],
   "note": "Refinement of an abstract memory with an address pointer, by simulation; the restrictions in the quantifier are each refuted elsewhere."
  },
  {
   "property": "C80",
   "status": "proved",
   "theorems": [
    "Xcp.C80_tcp"
   ],
   "note": "Composition of C49, C67, C79 and C01 for whole sessions; the segmentations excluded are refuted in C49."
  },
  {
   "property": "C81",
   "status": "proved",
   "theorems": [
    "Xcp.C81_can",
    "Xcp.C81_can_fd"
   ],
   "note": "Composition of C63, C79 and C75; extended and remote messages are refuted in C63."
  },
  {
   "property": "C82",
   "status": "proved",
   "theorems": [
    "Xcp.C82_serial"
   ],
   "note": "Composition of C47, C79 and C01; the wrong time-out is refuted in C47 and C48."
  },
  {
   "property": "C83",
   "status": "partial",
   "theorems": [
    "Xcp.C83_measurement_partial",
    "Xcp.C83_start",
    "Xcp.C83_fails"
   ],
   "note": "Proved while at most four packets are sent since the start of the slave.  C83_fails: for every plan and every history, the slave writes outside its packet queue by the fifth event at the latest."
  },
  {
   "property": "C84",
   "status": "partial",
   "theorems": [
    "Xcp.C84_clients_partial",
    "Xcp.C84_own_answers",
    "Xcp.C84_fails_abandoned",
    "Xcp.C84_empty_ignored",
    "Xcp.C84_contact",
    "Xcp.C84_fails"
   ],
   "note": "Proved for non-empty packets and headers that arrive in one piece (C49).  C84_fails_abandoned: a client that sends an empty packet while not connected is abandoned, its later packets are never read; C84_empty_ignored: while connected the same packet does no harm."
  },
  {
   "property": "C85",
   "status": "partial",
   "theorems": [
    "Xcp.C85_udp_partial",
    "Xcp.C85_udp_exact",
    "Xcp.C85_empty",
    "Xcp.C85_zero",
    "Xcp.C85_fails_stranger",
    "Xcp.C85_fails_mixed",
    "Xcp.C85_fails_v6"
   ],
   "note": "Proved for IPv4 and packets sent as two datagrams (packets in one datagram are lost, C49).  C85_udp_exact says the same of all addresses, of which the slave knows eight bytes only.  C85_fails_v6: nothing is ever sent to an IPv6 client.  C85_fails_stranger: commands of strangers are executed, C85_fails_mixed: a header of one sender is joined with the data of another one."
  },
  {
   "property": "C86",
   "status": "partial",
   "theorems": [
    "Xcp.C86_calibration_partial",
    "Xcp.C86_fails_status"
   ],
   "note": "Proved for at most four packets with samples since the start (C83), without GET_STATUS while a measurement runs, and for the builds and requests of C79.  C86_fails_status: in every measurement GET_STATUS reports session status 0."
  },
  {
   "property": "C87",
   "status": "partial",
   "theorems": [
    "Xcp.C87_sampling_partial",
    "Xcp.C87_element",
    "Xcp.C87_quiet_partial",
    "Xcp.C87_alone",
    "Xcp.C87_fails_torn",
    "Xcp.C87_fails_shared",
    "Xcp.C87_fails_mixed",
    "Xcp.C87_fails_stopped"
   ],
   "note": "The full statement is refuted in three ways (torn elements, the shared XcpDaq_ListConfiguration, lengths read again after the check).  Proved: complete packets, every byte as it was when copied, in the order of the lists, if the other threads leave the configuration alone; the packets of C83 if nobody writes to the elements; the model of the other theorems if there are no other threads (errors included)."
  },
  {
   "property": "C88",
   "status": "partial",
   "theorems": [
    "Xcp.C88_display_partial",
    "Xcp.C88_list",
    "Xcp.C88_reads",
    "Xcp.C88_keys_partial",
    "Xcp.C88_windows",
    "Xcp.C88_system_partial",
    "Xcp.C88_fails_information",
    "Xcp.C88_fails_hidden",
    "Xcp.C88_fails_bogus",
    "Xcp.C88_fails_together"
   ],
   "note": "The full statement is refuted: ODTs are hidden or invented when lists with and without ODTs follow each other, keys that arrive together are ignored on POSIX systems, and the key i makes the example application access a null pointer because its flash memory is never opened.  Proved: the display of a list is right exactly when it has ODTs if and only if the list before has; the display of a plan where all lists have ODTs; all keys read alone are carried out (POSIX, what happens in all cases), all keys on Windows."
  },
  {
   "property": "C89",
   "status": "partial",
   "theorems": [
    "Xcp.C89_jobs_partial",
    "Xcp.C89_answered",
    "Xcp.C89_fails",
    "Xcp.C89_fails_start",
    "Xcp.C89_fails_lost",
    "Xcp.C89_main",
    "Xcp.C89_start"
   ],
   "note": "The full statement is refuted: the state of a job is set before its address and size, so that the main function can start with those of the job before, and the slave is free before the job has ended, so that a request sent right after the answer gets lost for good.  Proved for all schedules without these two encounters, with the end of every job; the accesses, one thread at a time, are the functions of C43."
  },
  {
   "property": "C90",
   "status": "partial",
   "theorems": [
    "Xcp.C90_list",
    "Xcp.C90_configuration_partial",
    "Xcp.C90_fails_configuration"
   ],
   "note": "XcpDaq_ValidateList is right for every number. The full statement is refuted for XcpDaq_ValidateConfiguration, which only asks for an ODT: it accepts configurations without entries. Proved: it accepts exactly the configurations with an ODT, in particular every useful one."
  },
  {
   "property": "C91",
   "status": "partial",
   "theorems": [
    "Xcp.C91_blocks_partial",
    "Xcp.C91_answered",
    "Xcp.C91_frames",
    "Xcp.C91_fails_twice",
    "Xcp.C91_fails_overflow",
    "Xcp.C91_fails_mixed",
    "Xcp.C91_fails_lost",
    "Xcp.C91_lock",
    "Xcp.C91_main",
    "Xcp.C91_start"
   ],
   "note": "The full statement is refuted four times: both threads run Xcp_UploadSingleBlock on the same state and buffer without a lock. Proved for all schedules in which one thread at a time builds a packet, with the end of every upload; the accesses, one thread at a time, are the functions of C11."
  },
  {
   "property": "C92",
   "status": "partial",
   "theorems": [
    "Xcp.C92_alloc",
    "Xcp.C92_allocs",
    "Xcp.C92_odts_full",
    "Xcp.C92_as_written",
    "Xcp.C92_fails_numbers",
    "Xcp.C92_fails_wraparound"
   ],
   "note": "Both property tests (commented out in the project) are proved for all numbers, the concrete tests are examples beside. Refuted: the numbers of list and ODT are not checked, so the second property test as written changes another list; the wrap-around test stores its fifth packet behind the array."
  },
  {
   "property": "C93",
   "status": "partial",
   "theorems": [
    "Xcp.C93_session_partial",
    "Xcp.C93_disconnect",
    "Xcp.C93_fails_joined",
    "Xcp.C93_fails_pieces",
    "Xcp.C93_fails"
   ],
   "note": "Proved if each datagram or segment holds exactly one packet, with arbitrary traffic of others after CONNECT. DISCONNECT is answered and releases the connection unless programming is active. Refuted for other pieces: each completed receive is taken for one packet, what follows it is dropped, and the rest of a packet that arrives later is executed as another packet with old contents of the buffer."
  },
  {
   "property": "C94",
   "status": "partial",
   "theorems": [
    "Xcp.C94_windows_partial",
    "Xcp.C94_tcp_partial",
    "Xcp.C94_udp_partial",
    "Xcp.C94_serial_partial",
    "Xcp.C94_can_partial",
    "Xcp.C94_live_partial",
    "Xcp.C94_live_tcp_partial",
    "Xcp.C94_fails"
   ],
   "note": "Proved for packets that have all bytes their command needs, one tool, and the ways of cutting packets that each transport handles (C49, C85, C93). With C86: calibration while measuring gives byte for byte the expected frames on Windows and over TCP on Linux. Refuted for short packets, which are completed with bytes of earlier ones."
  },
  {
   "property": "C95",
   "status": "partial",
   "theorems": [
    "Xcp.C95_resumes_partial",
    "Xcp.C95_slave_partial",
    "Xcp.C95_fails_early",
    "Xcp.C95_fails_stuck",
    "Xcp.C95_fails"
   ],
   "note": "Proved for the pause the code really waits for, which is longer than the time from start-up to the last octet, and for the whole slave polled this way. Refuted for the configured 100 ms: shortly after start-up shorter pauses lose octets, later no pause up to the uptime lets the receiver begin anew."
  },
  {
   "property": "C96",
   "status": "partial",
   "theorems": [
    "Xcp.C96_guarded_partial",
    "Xcp.C96_fails_seeds"
   ],
   "note": "Proved for histories without the deviations: parameters are changed only while calibration is unlocked (C17), a seed is asked for only for a locked resource and while no other seed is pending, after the end of a session only CONNECT follows (C09), seeds and keys fit in one packet, at most four packets with samples per session (C34). Refuted with two pending seeds: one key then unlocks both resources."
  },
  {
   "property": "C97",
   "status": "proved",
   "theorems": [
    "Xcp.C97_gates",
    "Xcp.C97_unlock",
    "Xcp.C97_wrong_key",
    "Xcp.C97_unknown",
    "Xcp.C97_busy",
    "Xcp.C97_silent"
   ],
   "note": ""
  },
  {
   "property": "C98",
   "status": "proved",
   "theorems": [
    "Xcp.C98_blocks"
   ],
   "note": "Refinement by simulation, as C79. Packets of a block with a wrong count are refuted in C13."
  },
  {
   "property": "C99",
   "status": "partial",
   "theorems": [
    "Xcp.C99_access_partial",
    "Xcp.C99_invalid",
    "Xcp.C99_unmapped",
    "Xcp.C99_disjoint_partial",
    "Xcp.C99_noted",
    "Xcp.C99_fails_back",
    "Xcp.C99_fails_moved",
    "Xcp.C99_fails_refused",
    "Xcp.C99_lost_select",
    "Xcp.C99_fails_for_ever",
    "Xcp.C99_fails_overlap"
   ],
   "note": "True if the page is not the one in the field that is never written, the view is placed where the old one was and pages are not larger than the allocation granularity. Refuted otherwise."
  },
  {
   "property": "C100",
   "status": "partial",
   "theorems": [
    "Xcp.C100_posix_partial",
    "Xcp.C100_windows",
    "Xcp.C100_refused",
    "Xcp.C100_close",
    "Xcp.C100_close_refused",
    "Xcp.C100_fails_short",
    "Xcp.C100_fails_leak",
    "Xcp.C100_fails_noted"
   ],
   "note": "Proved on Windows for opens that succeed, on POSIX systems for new files and files that are long enough. Refuted for shorter files on POSIX systems and for failed opens on Windows."
  },
  {
   "property": "C101",
   "status": "partial",
   "theorems": [
    "Xcp.C101_blocks_live_partial"
   ],
   "note": "Proved for at most four packets with samples in all (C83), without GET_STATUS answered while a measurement runs (C86_fails_status), and measurements set up and stopped while no block is being sent."
  },
  {
   "property": "C102",
   "status": "partial",
   "theorems": [
    "Xcp.C102_windows_partial",
    "Xcp.C102_windows_idle",
    "Xcp.C102_windows_ends",
    "Xcp.C102_posix_ends",
    "Xcp.C102_fails_posix",
    "Xcp.C102_fails_windows",
    "Xcp.C102_fails_flash",
    "Xcp.C102_exit"
   ],
   "note": "Proved on Windows when no checksum or block is under way. Refuted on POSIX systems: the program always ends by its own SIGINT, nothing is undone and the terminal stays in raw mode. Refuted on Windows with a job under way: the flash memory is unmapped while the XCP thread still reads it; and in the example application, whose flash memory is never opened: closing it is an invalid access."
  },
  {
   "property": "C103",
   "status": "partial",
   "theorems": [
    "Xcp.C103_linux_partial",
    "Xcp.C103_linux_refused",
    "Xcp.C103_windows_partial",
    "Xcp.C103_windows_first",
    "Xcp.C103_can_partial",
    "Xcp.C103_bluetooth_partial",
    "Xcp.C103_kvaser_partial",
    "Xcp.C103_fails",
    "Xcp.C103_fails_linux",
    "Xcp.C103_fails_reuse",
    "Xcp.C103_fails_port",
    "Xcp.C103_fails_windows",
    "Xcp.C103_fails_can",
    "Xcp.C103_fails_bluetooth",
    "Xcp.C103_fails_kvaser"
   ],
   "note": "Proved: when exactly each transport layer serves. Refuted: on Linux no refusal ends the program and its receiver then reads outside of a buffer, SO_REUSEADDR comes too late, Windows ignores the port, SocketCAN overlooks a refused bind and refused filters."
  },
  {
   "property": "C104",
   "status": "partial",
   "theorems": [
    "Xcp.C104_hears",
    "Xcp.C104_blocks_partial",
    "Xcp.C104_guarded_partial",
    "Xcp.C104_fails_datagrams"
   ],
   "note": "Proved for tools that send whole packets, do not split headers between TCP segments (Linux) and send header and data in two datagrams (UDP on Linux). Refuted for a tool that sends one packet per datagram, as XCP demands: on Linux it hears nothing."
  },
  {
   "property": "C105",
   "status": "partial",
   "theorems": [
    "Xcp.C105_narrow",
    "Xcp.C105_pool",
    "Xcp.C105_layout_partial",
    "Xcp.C105_lookup",
    "Xcp.C105_set_daq_ptr",
    "Xcp.C105_first_pid",
    "Xcp.C105_event_partial",
    "Xcp.C105_validate_list",
    "Xcp.C105_write_daq",
    "Xcp.C105_list_mode",
    "Xcp.C105_pids",
    "Xcp.C105_fails_unsigned",
    "Xcp.C105_fails_event",
    "Xcp.C105_fails_pid",
    "Xcp.C105_fails_validate",
    "Xcp.C105_fails_overwrite",
    "Xcp.C105_fails_first",
    "Xcp.C105_fails_missing"
   ],
   "note": "Below 256 elements the model is the one of the other properties. With 256 to 65535 elements layout, pointer, entries and packets are right; refuted: lists above 255 cannot be assigned to an event, PIDs repeat with more than 256 ODTs, ValidateList can loop forever. With 65536 elements or more the pointer checks pass for an empty pool and firstOdt is cut to 16 bits."
  },
  {
   "property": "C106",
   "status": "partial",
   "theorems": [
    "Xcp.C106_linux_partial",
    "Xcp.C106_can_partial",
    "Xcp.C106_fails_tcp",
    "Xcp.C106_fails_body",
    "Xcp.C106_fails_can",
    "Xcp.C106_fails_mac",
    "Xcp.C106_fails_mac_anyway",
    "Xcp.C106_mac_first_only"
   ],
   "note": "Linux: proved while the thread of the transport layer never handles the signal. Refuted otherwise: SA_RESTART is not set, so recv fails; the next data are stored outside of the header buffer, or a packet loses a byte; with SocketCAN the process exits with 9. macOS: refuted, the timers call exit(0) 3.6 s after the start."
  },
  {
   "property": "C107",
   "status": "partial",
   "theorems": [
    "Xcp.C107_filters_partial",
    "Xcp.C107_prompt_partial",
    "Xcp.C107_deaf",
    "Xcp.C107_fails_late",
    "Xcp.C107_fails_others",
    "Xcp.C107_fails_broadcast",
    "Xcp.C107_fails_extended"
   ],
   "note": "Proved when both identifiers are of the same kind, no message matches filters 2 to 5, and each interrupt is served before the next message. Refuted otherwise: after one late interrupt nothing is received any more; filters 2 to 5 are not set; with identifiers of different kinds broadcasts are lost or foreign messages pass. The controller (MCP2515) is modelled from its data sheet."
  },
  {
   "property": "C108",
   "status": "partial",
   "theorems": [
    "Xcp.C108_fails_long",
    "Xcp.C108_atomic",
    "Xcp.C108_late",
    "Xcp.C108_calls",
    "Xcp.C108_spaced_partial",
    "Xcp.C108_fails_torn",
    "Xcp.C108_fails_lost",
    "Xcp.C108_fails_twice"
   ],
   "note": "Proved if the program makes n + 4 steps after each message of n bytes. Refuted otherwise: a message that arrives earlier makes the slave lose the one before it, execute the new one twice, or execute a packet made of the beginning of one and the end of the other. A message longer than the command buffer is copied beyond it."
  },
  {
   "property": "C109",
   "status": "partial",
   "theorems": [
    "Xcp.C109_limits_partial",
    "Xcp.C109_walk",
    "Xcp.C109_balance",
    "Xcp.C109_current",
    "Xcp.C109_fails_order",
    "Xcp.C109_fails_negative",
    "Xcp.C109_fails_nan",
    "Xcp.C109_fails_nan_sum"
   ],
   "note": "Proved as far as comparisons tell, if the limits are in order. Refuted for limits out of order, and for a parameter that is NaN: the variables stay NaN for ever, also when the parameter is corrected."
  },
  {
   "property": "C110",
   "status": "partial",
   "theorems": [
    "Xcp.C110_within_partial",
    "Xcp.C110_fails_size",
    "Xcp.C110_small_pointers",
    "Xcp.C110_fails_can"
   ],
   "note": "Proved where a slot is not smaller than Xcp_PduType, in particular for pointers of 2 and 4 bytes and for XCP_MAX_DTO from 15 on. Refuted for pointers of 8 bytes and smaller DTOs, for example those of CAN."
  },
  {
   "property": "C111",
   "status": "proved",
   "theorems": [
    "Xcp.C111_waiting_tool",
    "Xcp.C111_answered",
    "Xcp.C111_bus"
   ],
   "note": "For a tool that waits; without waiting see C108. All messages on the bus count, because the receiver does not look at identifiers (C66)."
  },
  {
   "property": "C112",
   "status": "proved",
   "theorems": [
    "Xcp.C112_calm",
    "Xcp.C112_fault"
   ],
   "note": "For any build and any messages, also those that are not requests of a tool (C111). What happens when a message arrives too early is C108."
  },
  {
   "property": "C113",
   "status": "partial",
   "theorems": [
    "Xcp.C113_windows_partial",
    "Xcp.C113_exclusive",
    "Xcp.C113_again",
    "Xcp.C113_kvaser_short",
    "Xcp.C113_fails_kvaser"
   ],
   "note": "Refuted for Kvaser: a packet of more than 8 bytes leaves the lock of the transport layer taken, and no other thread can send any more. Proved for the other transport layers and shorter packets. The deadlocks of C53 are those of locks that are not recursive."
  },
  {
   "property": "C114",
   "status": "partial",
   "theorems": [
    "Xcp.C114_ends_partial",
    "Xcp.C114_waits",
    "Xcp.C114_fails_spin",
    "Xcp.C114_fails_busy",
    "Xcp.C114_fails_exit",
    "Xcp.C114_fails_udp"
   ],
   "note": "Proved: with TCP it returns only when both threads have ended, and it does return if they wait in the operating system and no client comes. Refuted: a second client during a session makes it wait for ever; so does a worker that is busy when the port is closed; a client that comes meanwhile ends the process with status 1; with UDP it does not wait at all."
  },
  {
   "property": "C115",
   "status": "partial",
   "theorems": [
    "Xcp.C115_triangle",
    "Xcp.C115_triangle_range",
    "Xcp.C115_new",
    "Xcp.C115_square",
    "Xcp.C115_signals",
    "Xcp.C115_spaced",
    "Xcp.C115_prompt",
    "Xcp.C115_fails_start",
    "Xcp.C115_fails_zero",
    "Xcp.C115_fails_period"
   ],
   "note": "Proved: the closed forms of the signals with the sketch's parameters and with any; events are at least 10 ms apart and the first pass after 10 ms triggers one. Refuted: a triangle with a lower limit above 0 starts at 0; one with limits 0 counts down from 65535; the event has no period of 10 ms, because the time a pass comes late is lost."
  },
  {
   "property": "C116",
   "status": "partial",
   "theorems": [
    "Xcp.C116_single",
    "Xcp.C116_command",
    "Xcp.C116_burst",
    "Xcp.C116_pair",
    "Xcp.C116_odd",
    "Xcp.C116_correct_crc32",
    "Xcp.C116_fails_crc32",
    "Xcp.C116_fails_add"
   ],
   "note": "Proved: one changed byte is noticed by all nine methods (the ADD methods: if it belongs to a whole summand), also over the command; bursts of up to 16 bits and odd numbers of changed bits by CRC_16 and CRC_16_CITT. Refuted: for CRC_32 as written any change of a byte can be hidden by its successor, which a correct CRC-32 rules out; sums do not notice exchanged summands. Checksums computed in the background are C43."
  },
  {
   "property": "C117",
   "status": "partial",
   "theorems": [
    "Xcp.C117_alike",
    "Xcp.C117_restarted",
    "Xcp.C117_restarted_call",
    "Xcp.C117_fresh_partial",
    "Xcp.C117_setMta",
    "Xcp.C117_fails_mta",
    "Xcp.C117_fails_download",
    "Xcp.C117_fails_mode"
   ],
   "note": "Proved: frames sent before, counters, statistics and the leftovers of finished jobs never influence the slave; after DISCONNECT it behaves exactly like a restarted slave that keeps application memory, the MTA, an unfinished block download, the mode bits of the DAQ lists and (only in packets of full length) old bytes of the transmit buffer. Refuted: the MTA, an unfinished block download and the time stamp bit do reach the next session."
  },
  {
   "property": "C118",
   "status": "partial",
   "theorems": [
    "Xcp.C118_asking",
    "Xcp.C118_pointing",
    "Xcp.C118_connect",
    "Xcp.C118_busy",
    "Xcp.C118_before",
    "Xcp.C118_event",
    "Xcp.C118_checksum",
    "Xcp.C118_clear",
    "Xcp.C118_fails"
   ],
   "note": "Proved for 17 commands and the other cases; GET_ID and GET_DAQ_EVENT_INFO change the MTA and nothing else (as the standard wants), so for them the statement without an exception is refuted: a GET_ID in the middle of an upload redirects the rest. CLEAR_DAQ_LIST, which ought to clear a list, leaves no trace either."
  },
  {
   "property": "C119",
   "status": "proved",
   "theorems": [
    "Xcp.C119_repeatable",
    "Xcp.C119_iff",
    "Xcp.C119_shortUpload"
   ],
   "note": "An exact classification: for each of the 15 exceptions there is a situation in which sending it twice makes a difference. SHORT_UPLOAD can be repeated when the application does not check accesses."
  },
  {
   "property": "C120",
   "status": "partial",
   "theorems": [
    "Xcp.C120_still_busy",
    "Xcp.C120_ready",
    "Xcp.C120_calls",
    "Xcp.C120_checksum",
    "Xcp.C120_proportion_partial",
    "Xcp.C120_recover",
    "Xcp.C120_fails"
   ],
   "note": "The number of calls is exact for every reachable state and any other operations in between. Time in proportion to the length is refuted for blocks of more than one and less than two chunks: the byte counter wraps and about 2^32 bytes are summed up first (67 million calls with chunks of 64)."
  },
  {
   "property": "C121",
   "status": "partial",
   "theorems": [
    "Xcp.C121_mta",
    "Xcp.C121_alloc",
    "Xcp.C121_daq",
    "Xcp.C121_repeatable",
    "Xcp.C121_prepared_partial",
    "Xcp.C121_fails",
    "Xcp.C121_not_all"
   ],
   "note": "Proved for SET_MTA with UPLOAD, SHORT_UPLOAD (without slave block mode), DOWNLOAD, DOWNLOAD_MAX, SHORT_DOWNLOAD and PROGRAM, for FREE_DAQ followed by any allocation commands (without reset on sequence errors, the default), and for every command that C119 calls repeatable. Refuted for GET_SEED with UNLOCK, for BUILD_CHECKSUM in the background, and for UPLOAD in blocks, where SYNCH itself is refused as busy. Also proved for WRITE_DAQ behind a SET_DAQ_PTR that is accepted, if the entry written is not stored over its own list or ODT (Spec.Apart). Not covered: DOWNLOAD_NEXT, which needs the whole block again."
  },
  {
   "property": "C122",
   "status": "partial",
   "theorems": [
    "Xcp.C122_measuring_partial",
    "Xcp.C122_packets_partial",
    "Xcp.C122_unless_fault",
    "Xcp.C122_fails"
   ],
   "note": "Proved for every history that runs to its end. The full statement (Spec.Unnoticed) also compares faults and is refuted: the fifth event of a list can write behind the queue (C34) while the same history without events is harmless. Commands and events are interleaved as whole operations; races inside them are the matter of C77."
  }
 ]
}