{"id": "C01", "title": "Transport header of every frame is right", "statement": "Every frame handed to the transport layer starts with a little-endian length field equal to the number of payload bytes that follow the header, then the frame counter. The n-th frame since start-up (commands responses, DAQ packets and event packets together, counted from 0) carries n modulo 256^(counter size).", "quantifier": "all configurations allowed by the preprocessor checks, and all histories of received packets, main-function calls, triggered events and hook answers", "why_tests_cant": "A test sends a few frames; wrap-around after 65536 frames and interleavings of CTO and DTO traffic are never reached.", "anchors": ["src/xcp.c:Xcp_SendCto", "src/xcp.c:Xcp_SendDto"]}
{"id": "C02", "title": "No frame exceeds the announced size", "statement": "Every response, event or service packet has 1..MAX_CTO payload bytes and every DAQ packet has at least 1 and at most MAX_DTO payload bytes, the sizes the slave announced in its CONNECT response.", "quantifier": "all configurations allowed by the preprocessor checks, and all histories of received packets, main-function calls, triggered events and hook answers", "why_tests_cant": "Needs every command in every state with every length byte.", "anchors": ["src/xcp.c:Xcp_Send8", "src/xcp.c:Xcp_Upload", "src/xcp.c:Xcp_GetSeed_Res", "src/xcp_daq.c:XcpDaq_TriggerEvent"]}
{"id": "C03", "title": "A slave that was never connected stays silent", "statement": "From start-up until the first CONNECT packet, no received packet, main-function call or triggered event makes the slave send a frame or change application memory, whatever the packets contain.", "quantifier": "all packet contents and all finite histories without a CONNECT packet", "why_tests_cant": "The set of non-CONNECT histories is infinite.", "anchors": ["src/xcp.c:Xcp_DispatchCommand", "src/xcp.c:Xcp_MainFunction"]}
{"id": "C04", "title": "CONNECT tells the truth", "statement": "A CONNECT packet, when the slave is not busy, is answered by one 8-byte positive response whose resource bits, byte order, block-mode flag, MAX_CTO, MAX_DTO and version bytes describe the configuration, and the slave is connected afterwards; repeating it changes nothing but the counters.", "quantifier": "all configurations, states and CONNECT mode bytes", "why_tests_cant": "Every configuration would need its own build.", "anchors": ["src/xcp.c:Xcp_Connect_Res"]}
{"id": "C05", "title": "Multi-byte response fields use the announced byte order", "statement": "Every WORD or DWORD in a response (MAX_DTO, identification length, checksum, timestamp, maximum block size) is sent in the byte order that CONNECT announces in COMM_MODE_BASIC, which is also the order in which request parameters are decoded.", "quantifier": "all configurations (both byte orders) and all values", "why_tests_cant": "Test builds are Intel only; values must range over all 2^32.", "anchors": ["src/xcp.c:Xcp_Connect_Res", "src/xcp.c:Xcp_GetId_Res", "src/xcp.c:Xcp_SendChecksumPositiveResponse", "src/xcp.c:Xcp_GetDaqClock_Res", "src/xcp.c:Xcp_GetWord"]}
{"id": "C06", "title": "A busy slave answers ERR_CMD_BUSY and does nothing else", "statement": "While a block upload or a background checksum is in progress, every command packet is answered by exactly one ERR_CMD_BUSY and leaves session, memory, DAQ and transfer state unchanged.", "quantifier": "all packets and all states with an operation in progress", "why_tests_cant": "Needs every command in every intermediate state of a transfer.", "anchors": ["src/xcp.c:Xcp_DispatchCommand", "src/xcp.c:Xcp_BusyResponse"]}
{"id": "C07", "title": "One command, one response", "statement": "A connected, idle slave answers every command packet it accepts with exactly one response packet, except those that start a multi-frame transfer or background job whose response comes later, and intermediate block-mode packets.", "quantifier": "all packets, all reachable states", "why_tests_cant": "Needs every parameter of every command.", "anchors": ["src/xcp.c:Xcp_ServerCommands", "src/xcp.c:Xcp_StartStopDaqList_Res", "src/xcp.c:Xcp_GetDaqListInfo_Res", "src/xcp.c:Xcp_UserCmd_Res"]}
{"id": "C08", "title": "Unsupported commands get ERR_CMD_UNKNOWN", "statement": "A connected, idle slave answers every command code that is reserved or disabled by configuration with ERR_CMD_UNKNOWN and changes nothing.", "quantifier": "all 256 command codes, all payloads, all configurations", "why_tests_cant": "Which commands exist depends on the configuration; the failing codes crash the test host.", "anchors": ["src/xcp.c:Xcp_DispatchCommand", "src/xcp.c:Xcp_ServerCommands", "src/xcp.c:Xcp_CommandNotImplemented_Res"]}
{"id": "C09", "title": "DISCONNECT ends the session", "statement": "After a DISCONNECT was answered positively the slave is disconnected: it answers nothing but CONNECT, data acquisition is stopped and freed, and the default resource protection is back.", "quantifier": "all states before the DISCONNECT and all packets after it", "why_tests_cant": "Requires all histories after the disconnect.", "anchors": ["src/xcp.c:Xcp_Disconnect_Res", "src/xcp.c:Xcp_Disconnect", "src/xcp.c:Xcp_DispatchCommand"]}
{"id": "C10", "title": "UPLOAD returns memory and advances the MTA", "statement": "UPLOAD of n bytes (1 <= n <= MAX_CTO-1) is answered by one packet FF followed by exactly the n bytes stored at the memory transfer address, which then advances by n, so a sequence of uploads reads consecutive memory; memory is not changed.", "quantifier": "all memories, addresses, lengths and sequences of lengths", "why_tests_cant": "Universally quantified over memory contents, addresses and sequences.", "anchors": ["src/xcp.c:Xcp_Upload_Res", "src/xcp.c:Xcp_Upload", "src/xcp.c:Xcp_CopyMemory"]}
{"id": "C11", "title": "Block upload delivers the whole block and ends", "statement": "With slave block mode, UPLOAD of n bytes (1 <= n <= 255) produces ceil(n/(MAX_CTO-1)) packets, the first at once and the others one per main-function call; their payloads concatenated are the n bytes of memory at the MTA; the slave is busy until the last packet and ready after it, with the MTA advanced by n.", "quantifier": "all n, memories, addresses and MAX_CTO values", "why_tests_cant": "Every n and MAX_CTO combination, and termination.", "anchors": ["src/xcp.c:Xcp_UploadSingleBlock", "src/xcp.c:Xcp_MainFunction"]}
{"id": "C12", "title": "DOWNLOAD writes exactly the given bytes", "statement": "A DOWNLOAD of n bytes (1 <= n <= MAX_CTO-2) stores exactly the n data bytes at the MTA, changes no other byte of memory, advances the MTA by n and is answered positively; uploading the same range afterwards returns the bytes that were downloaded.", "quantifier": "all memories, addresses, data", "why_tests_cant": "Universal over memory and addresses, including the frame condition on every other byte.", "anchors": ["src/xcp.c:Xcp_Download_Res", "src/xcp.c:Xcp_Download_Copy", "src/xcp.c:Xcp_DownloadMax_Res"]}
{"id": "C13", "title": "Block download writes the whole block or reports an error", "statement": "In master block mode a DOWNLOAD of n bytes followed by the right DOWNLOAD_NEXT packets stores the n bytes consecutively and is answered once, after the last packet; a DOWNLOAD_NEXT whose announced remaining count does not match is rejected with ERR_SEQUENCE and writes nothing.", "quantifier": "all n up to the block limit, all data, all remaining counts", "why_tests_cant": "Sequences of packets with arbitrary counts.", "anchors": ["src/xcp.c:Xcp_Download_Res", "src/xcp.c:Xcp_DownloadNext_Res"]}
{"id": "C14", "title": "SHORT_UPLOAD and SHORT_DOWNLOAD act on the given address", "statement": "SHORT_UPLOAD/SHORT_DOWNLOAD of n bytes transfer exactly the n bytes at the address in the packet and leave the MTA at address+n.", "quantifier": "all addresses, lengths, memories and previous MTAs", "why_tests_cant": "Universal over addresses and the previous MTA.", "anchors": ["src/xcp.c:Xcp_ShortUpload_Res", "src/xcp.c:Xcp_ShortDownload_Res"]}
{"id": "C15", "title": "Memory the access hook refuses to read is never disclosed", "statement": "With the memory-access check enabled, what the slave sends does not depend on the contents of memory ranges for which the hook refuses read access.", "quantifier": "all hooks, all pairs of memories that agree on readable ranges, all commands", "why_tests_cant": "A noninterference property over pairs of runs.", "anchors": ["src/xcp.c:XCP_CHECK_MEMORY_ACCESS", "src/xcp.c:Xcp_ShortUpload_Res", "src/xcp.c:Xcp_Upload_Res", "src/xcp.c:Xcp_BuildChecksum_Res", "src/xcp.c:Xcp_WriteDaq_Res"]}
{"id": "C16", "title": "Memory the access hook refuses to write is never written", "statement": "With the memory-access check enabled, no command changes a byte of memory inside a range for which the hook refuses write access.", "quantifier": "all hooks, memories, packets and histories", "why_tests_cant": "Universal over hooks and histories.", "anchors": ["src/xcp.c:XCP_CHECK_MEMORY_ACCESS", "src/xcp.c:Xcp_Download_Res", "src/xcp.c:Xcp_DownloadMax_Res", "src/xcp.c:Xcp_DownloadNext_Res", "src/xcp.c:Xcp_ModifyBits_Res"]}
{"id": "C17", "title": "Locked calibration cannot be used", "statement": "While the CAL/PAG resource is protected, calibration commands are refused with ERR_ACCESS_LOCKED and memory stays unchanged.", "quantifier": "all packets and histories without a successful unlock", "why_tests_cant": "Universal over histories.", "anchors": ["src/xcp.c:Xcp_Download_Res", "src/xcp.c:Xcp_IsProtected", "src/xcp.c:Xcp_DefaultResourceProtection"]}
{"id": "C18", "title": "Locked data acquisition cannot be configured or started", "statement": "While the DAQ resource is protected, every DAQ command is answered by an error and neither the DAQ configuration nor its running state changes; over a whole history without a successful unlock no DAQ packet is ever sent.", "quantifier": "all packets and histories without a successful unlock", "why_tests_cant": "Universal over histories.", "anchors": ["src/xcp.c:XCP_ASSERT_UNLOCKED", "src/xcp.c:Xcp_SetDaqPtr_Res", "src/xcp.c:Xcp_StartStopSynch_Res"]}
{"id": "C19", "title": "Locked programming cannot be started", "statement": "While the PGM resource is protected, PROGRAM_START is refused with ERR_ACCESS_LOCKED; over a whole history without a successful unlock programming never becomes active, so every other programming command is refused with ERR_SEQUENCE.", "quantifier": "all packets and histories without a successful unlock", "why_tests_cant": "Universal over histories.", "anchors": ["src/xcp.c:Xcp_ProgramStart_Res", "src/xcp.c:XCP_ASSERT_PGM_ACTIVE"]}
{"id": "C20", "title": "Protection is lifted only by an accepted key", "statement": "A resource that is protected becomes unprotected only through an UNLOCK packet whose key the unlock hook accepted, when that resource had been named in a GET_SEED since the last UNLOCK or disconnect; UNLOCK without a preceding GET_SEED is answered ERR_SEQUENCE and changes nothing.", "quantifier": "all histories and hook answers", "why_tests_cant": "An invariant over every history.", "anchors": ["src/xcp.c:Xcp_GetSeed_Res", "src/xcp.c:Xcp_Unlock_Res"]}
{"id": "C21", "title": "A wrong key costs the session's privileges", "statement": "When the unlock hook rejects a key the slave answers ERR_ACCESS_LOCKED, restores the default protection of every resource, forgets the requested seed, and stops and frees data acquisition.", "quantifier": "all states and keys", "why_tests_cant": "All states and keys.", "anchors": ["src/xcp.c:Xcp_Unlock_Res", "src/xcp.c:Xcp_Disconnect"]}
{"id": "C22", "title": "GET_STATUS reports the protection that is enforced", "statement": "The protection byte of GET_STATUS (and of a positive UNLOCK response) is exactly the set of resources whose commands are refused with ERR_ACCESS_LOCKED.", "quantifier": "all states", "why_tests_cant": "Relates one response to the behaviour of all other commands.", "anchors": ["src/xcp.c:Xcp_GetStatus_Res", "src/xcp.c:Xcp_IsProtected"]}
{"id": "C23", "title": "During programming other commands are refused", "statement": "While programming is active, every command that reads or writes memory or touches DAQ is answered ERR_PGM_ACTIVE and has no effect.", "quantifier": "all packets, all states with programming active", "why_tests_cant": "Every command in every such state.", "anchors": ["src/xcp.c:XCP_ASSERT_PGM_IDLE", "src/xcp.c:Xcp_ModifyBits_Res", "src/xcp.c:Xcp_SetMta_Res"]}
{"id": "C24", "title": "Programming commands need PROGRAM_START", "statement": "Programming commands that act on memory are answered ERR_SEQUENCE and do nothing unless a PROGRAM_START was accepted and no PROGRAM_RESET or restart happened since; PROGRAM_START is refused while data acquisition runs.", "quantifier": "all histories", "why_tests_cant": "An invariant relating state to history.", "anchors": ["src/xcp.c:Xcp_ProgramStart_Res", "src/xcp.c:Xcp_ProgramReset_Res", "src/xcp.c:XCP_ASSERT_PGM_ACTIVE"]}
{"id": "C25", "title": "PROGRAM stores the data it acknowledges", "statement": "A PROGRAM packet that is answered positively has stored its data bytes at the MTA.", "quantifier": "all states, data and addresses", "why_tests_cant": "Universal over data and addresses.", "anchors": ["src/xcp.c:Xcp_Program_Res"]}
{"id": "C26", "title": "A running acquisition cannot be reconfigured", "statement": "While data acquisition is running, commands that change the DAQ configuration are refused with ERR_DAQ_ACTIVE and change nothing.", "quantifier": "all packets, all running states", "why_tests_cant": "Every command and every running configuration.", "anchors": ["src/xcp.c:XCP_ASSERT_DAQ_STOPPED", "src/xcp.c:Xcp_FreeDaq_Res", "src/xcp.c:Xcp_AllocDaq_Res"]}
{"id": "C27", "title": "Dynamic allocation follows the XCP sequence", "statement": "A sequence of FREE_DAQ / ALLOC_DAQ / ALLOC_ODT / ALLOC_ODT_ENTRY calls is accepted exactly as long as it follows FREE, then ALLOC_DAQ, then ALLOC_ODT, then ALLOC_ODT_ENTRY, each repeatable and without going back except by FREE; an out-of-order call is answered ERR_SEQUENCE and changes nothing.", "quantifier": "all sequences of allocation calls with all parameters", "why_tests_cant": "Sequences of any length.", "anchors": ["src/xcp_daq.c:XcpDaq_AllocTransitionTable", "src/xcp_daq.c:XcpDaq_AllocValidateTransition"]}
{"id": "C28", "title": "Allocation never exceeds the pool", "statement": "The number of allocated lists, ODTs and ODT entries together is the sum of the accepted requests and never exceeds the configured pool; a request that does not fit is answered ERR_MEMORY_OVERFLOW and changes nothing.", "quantifier": "all sequences of allocation calls with all parameters, all pool sizes", "why_tests_cant": "Sequences of any length.", "anchors": ["src/xcp_daq.c:XcpDaq_Alloc", "src/xcp_daq.c:XcpDaq_AllocOdt", "src/xcp_daq.c:XcpDaq_AllocOdtEntry"]}
{"id": "C29", "title": "The configuration is what was allocated", "statement": "After any accepted allocation sequence with existing list and ODT numbers (each list given its ODTs once, each ODT its entries once), each list has exactly the requested number of ODTs and each ODT the requested number of entries, and no two lists, ODTs or entries share storage. Requests that name a non-existing list or ODT are rejected.", "quantifier": "all allocation sequences", "why_tests_cant": "A refinement statement over sequences of any length.", "anchors": ["src/xcp_daq.c:XcpDaq_AllocOdt", "src/xcp_daq.c:XcpDaq_AllocOdtEntry", "src/xcp_daq.c:XcpDaq_GetOdt", "src/xcp_daq.c:XcpDaq_GetOdtEntry"]}
{"id": "C30", "title": "SET_DAQ_PTR accepts exactly the existing entries", "statement": "SET_DAQ_PTR(list, odt, entry) is accepted if and only if that entry exists in the current configuration, and is otherwise answered ERR_OUT_OF_RANGE leaving the pointer alone.", "quantifier": "all configurations reachable by allocation, all triples", "why_tests_cant": "All configurations and all triples.", "anchors": ["src/xcp.c:Xcp_SetDaqPtr_Res", "src/xcp_daq.c:XcpDaq_ValidateOdtEntry"]}
{"id": "C31", "title": "WRITE_DAQ fills consecutive entries of one ODT and nothing else", "statement": "After SET_DAQ_PTR to entry e of an ODT with m entries, k <= m-e WRITE_DAQ packets (or the elements of one WRITE_DAQ_MULTIPLE) store their address and size in entries e..e+k-1 of that ODT and change no other part of the configuration; further writes past the last entry are refused.", "quantifier": "all configurations, pointers, sequences of writes", "why_tests_cant": "Sequences of writes over all configurations.", "anchors": ["src/xcp.c:Xcp_WriteDaqEntry", "src/xcp.c:Xcp_WriteDaqMultiple_Res", "src/xcp_daq.c:XcpDaq_GetOdtEntry"]}
{"id": "C32", "title": "First PIDs partition the PID space", "statement": "START_STOP_DAQ_LIST returns as first PID of a list the total number of ODTs of the lists before it, so the PID ranges of different lists are disjoint and cover 0..(number of ODTs - 1).", "quantifier": "all configurations reachable by allocation", "why_tests_cant": "All configurations.", "anchors": ["src/xcp_daq.c:XcpDaq_GetFirstPid", "src/xcp.c:Xcp_StartStopDaqList_Res"]}
{"id": "C33", "title": "DAQ packets carry the sampled memory", "statement": "When an event fires while acquisition runs, the slave sends for the list assigned to the event, ODT by ODT in order, one packet consisting of the ODT's PID, the timestamp (first ODT only, if the list has timestamps enabled) and the current contents of the memory of each entry in order.", "quantifier": "all configurations, memories, events", "why_tests_cant": "All configurations and memory contents.", "anchors": ["src/xcp_daq.c:XcpDaq_TriggerEvent", "src/xcp_daq.c:XcpDaq_TransmitDtos"]}
{"id": "C34", "title": "No acquired packet is lost or reordered silently", "statement": "The DAQ packet queue delivers packets first-in first-out, loses none while fewer than its capacity are pending, flags an overload otherwise, and can be used for any number of packets.", "quantifier": "all sequences of queue operations", "why_tests_cant": "Long histories; the defect needs the fifth packet.", "anchors": ["src/xcp_daq.c:XcpDaq_QueueEnqueue", "src/xcp_daq.c:XcpDaq_QueueDequeue", "src/xcp_daq.c:XcpDaq_QueueFull"]}
{"id": "C35", "title": "DAQ packets are sent only between start and stop", "statement": "A DAQ packet is sent only when an event fires after an accepted START_STOP_SYNCH(start) with no accepted START_STOP_SYNCH(stop all), disconnect, wrong key or restart in between, and only for lists that were selected for that start.", "quantifier": "all histories", "why_tests_cant": "An invariant relating DAQ traffic to history.", "anchors": ["src/xcp.c:Xcp_StartStopSynch_Res", "src/xcp_daq.c:XcpDaq_StartStopLists", "src/xcp_daq.c:XcpDaq_TriggerEvent"]}
{"id": "C36", "title": "Events without an assigned list send nothing", "statement": "An event channel to which no SET_DAQ_LIST_MODE assigned a list since the last FREE_DAQ sends no DAQ packet; SET_DAQ_LIST_MODE for a non-existing event channel or list is answered ERR_OUT_OF_RANGE.", "quantifier": "all histories, all event numbers", "why_tests_cant": "All histories; 16-bit event numbers.", "anchors": ["src/xcp.c:Xcp_SetDaqListMode_Res", "src/xcp_daq.c:XcpDaq_AddEventChannel"]}
{"id": "C37", "title": "List modes are per list", "statement": "Setting the mode (timestamp, selected, started) of one DAQ list does not affect another list, and FREE_DAQ forgets the modes.", "quantifier": "all pairs of lists and modes", "why_tests_cant": "Pairs of lists over all histories.", "anchors": ["src/xcp_daq.c:XcpDaq_GetListState", "src/xcp.c:Xcp_SetDaqListMode_Res"]}
{"id": "C38", "title": "FREE_DAQ and disconnect clear the DAQ configuration", "statement": "After FREE_DAQ, DISCONNECT or a wrong key there are no lists, ODTs or entries: every SET_DAQ_PTR is refused, events send nothing, and the whole pool is available again.", "quantifier": "all previous configurations", "why_tests_cant": "All previous configurations.", "anchors": ["src/xcp_daq.c:XcpDaq_Free", "src/xcp_daq.c:XcpDaq_Init"]}
{"id": "C39", "title": "CRC_16_CITT is the polynomial CRC", "statement": "With checksum method CRC_16_CITT, the checksum of any block is the CCITT CRC (polynomial 0x1021, initial value 0xFFFF, no reflection) of its bytes as defined by bitwise polynomial division.", "quantifier": "all blocks of any length", "why_tests_cant": "Blocks of any length; the table has 256 entries.", "anchors": ["src/xcp_checksum.c:Xcp_CalculateChecksum", "src/xcp_checksum.c:CRC_TAB"]}
{"id": "C40", "title": "CRC_16 is the polynomial CRC", "statement": "With checksum method CRC_16, the checksum of any block is the reflected CRC-16 (polynomial 0x8005, initial value 0) of its bytes.", "quantifier": "all blocks of any length", "why_tests_cant": "Blocks of any length.", "anchors": ["src/xcp_checksum.c:Xcp_CalculateChecksum", "src/xcp_checksum.c:reflect"]}
{"id": "C41", "title": "CRC_32 is the polynomial CRC", "statement": "With checksum method CRC_32, the checksum of any block is the standard CRC-32 (reflected polynomial 0x04C11DB7, initial value and final xor 0xFFFFFFFF) of its bytes.", "quantifier": "all blocks of any length", "why_tests_cant": "Blocks of any length.", "anchors": ["src/xcp_checksum.c:Xcp_CalculateChecksum"]}
{"id": "C42", "title": "ADD checksums are modular sums", "statement": "With the ADD methods the checksum is the sum of the bytes, words or double words of the block modulo 2^8, 2^16 or 2^32 as the method name says.", "quantifier": "all blocks of any length", "why_tests_cant": "Blocks of any length.", "anchors": ["src/xcp_checksum.c:Xcp_CalculateChecksum"]}
{"id": "C43", "title": "Background checksum equals direct checksum", "statement": "A BUILD_CHECKSUM that is processed in chunks by the main function eventually sends exactly one response, carrying the same checksum as a direct computation over the same block, reads only bytes of that block, and leaves the slave ready.", "quantifier": "all block sizes, memories, chunk sizes", "why_tests_cant": "All sizes relative to the chunk size.", "anchors": ["src/xcp_checksum.c:Xcp_ChecksumMainFunction", "src/xcp_checksum.c:Xcp_StartChecksumCalculation", "src/xcp.c:Xcp_BuildChecksum_Res"]}
{"id": "C44", "title": "BUILD_CHECKSUM advances the MTA and honours the size limit", "statement": "BUILD_CHECKSUM of n bytes leaves the MTA advanced by n; if n exceeds the configured maximum the answer is ERR_OUT_OF_RANGE with the maximum and nothing is computed.", "quantifier": "all sizes and addresses", "why_tests_cant": "All 2^32 sizes.", "anchors": ["src/xcp.c:Xcp_BuildChecksum_Res", "src/xcp.c:Xcp_SendChecksumOutOfRangeResponse"]}
{"id": "C45", "title": "Request parameters are decoded in the configured byte order", "statement": "WORD and DWORD parameters written into a packet in the configured byte order are decoded to the same value, for every value and offset.", "quantifier": "all values, offsets and both byte orders", "why_tests_cant": "2^32 values; the failing half is undefined behaviour that most compilers hide.", "anchors": ["src/xcp.c:Xcp_GetWord", "src/xcp.c:Xcp_GetDWord", "src/xcp.c:Xcp_SetWord", "src/xcp.c:Xcp_SetDWord"]}
{"id": "C46", "title": "MODIFY_BITS computes (A & ~(~MA << S)) ^ (MX << S)", "statement": "MODIFY_BITS replaces the 32-bit value A at the MTA by (A AND NOT(NOT(MA) << S)) XOR (MX << S) as the XCP standard defines, for every shift, mask and value, and changes no other byte.", "quantifier": "all values, masks, shifts", "why_tests_cant": "2^72 combinations.", "anchors": ["src/xcp.c:Xcp_ModifyBits_Res"]}
{"id": "C47", "title": "Serial framing recovers exactly the packets sent", "statement": "Feeding the serial receiver the concatenation of framed packets (length, counter, payload), split in any way, dispatches exactly those packets in order; no byte stream makes the receiver write outside its buffer.", "quantifier": "all packet sequences and all byte streams", "why_tests_cant": "All byte streams.", "anchors": ["src/tl/sxi/xcp_tl.c:XcpTl_FeedReceiver"]}
{"id": "C48", "title": "The transport time-out fires after the configured time", "statement": "The time-out callback runs at a check if and only if the timer was started and more than the configured time has passed since the last start or reset.", "quantifier": "all timer values and histories", "why_tests_cant": "All 2^32 timer values, including wrap-around.", "anchors": ["src/tl/xcp_tl_timeout.c:XcpTl_TimeoutCheck", "src/tl/xcp_tl_timeout.c:XcpTl_TimeoutStart"]}
{"id": "C49", "title": "Ethernet framing is independent of TCP segmentation", "statement": "However the bytes of the TCP stream are split into recv() results, the receiver extracts the same sequence of packets, and an oversized length field never makes it write outside its buffer.", "quantifier": "all streams and all segmentations", "why_tests_cant": "Segmentation is chosen by the network.", "anchors": ["src/tl/eth/common.c:XcpTl_ReadHeader", "src/tl/eth/common.c:XcpTl_ReadData", "src/tl/eth/common.c:XcpTl_RxHandler"]}
{"id": "C50", "title": "Memory utilities do what their names say", "statement": "MemCopy makes the destination equal to the source (disjoint areas) and changes nothing else, MemSet fills exactly the area, MemCmp returns true exactly when both areas are equal and reads only those areas.", "quantifier": "all memories, addresses, lengths", "why_tests_cant": "Universal over memory.", "anchors": ["src/xcp_util.c:XcpUtl_MemCopy", "src/xcp_util.c:XcpUtl_MemSet", "src/xcp_util.c:XcpUtl_MemCmp"]}
{"id": "C51", "title": "Number formatting round-trips", "statement": "Itoa writes the digits of the value in the given base (2..36), most significant first, without leading zeros and zero terminated; reading them back gives the value (signed for base 10).", "quantifier": "all 32-bit values and bases", "why_tests_cant": "2^32 values times 35 bases.", "anchors": ["src/xcp_util.c:XcpUtl_Itoa"]}
{"id": "C52", "title": "Flash emulation maps and erases only what was asked", "statement": "The memory mapper translates exactly the addresses inside a configured segment page to that segment's storage; erasing a sector, page or block sets exactly the bytes of that sector, page or block to 0xFF.", "quantifier": "all segments, addresses, pages, blocks", "why_tests_cant": "Universal over addresses and segment geometries.", "anchors": ["flsemu/common.c:FlsEmu_MemoryMapper", "flsemu/common.c:FlsEmu_EraseSector", "flsemu/common.c:FlsEmu_ErasePage", "flsemu/common.c:FlsEmu_EraseBlock", "flsemu/common.c:FlsEmu_AllocatedSize"]}
{"id": "C53", "title": "The slave never deadlocks on its own locks", "statement": "No API call acquires a non-recursive lock it already holds, and locks are taken in a consistent order, so threads calling the API cannot deadlock.", "quantifier": "all interleavings of threads calling the API", "why_tests_cant": "All schedules.", "anchors": ["src/hw/posix/hw.c:XcpHw_AcquireLock", "src/xcp.c:Xcp_SlaveBlockTransferSetActive", "src/xcp_checksum.c:Xcp_StartChecksumCalculation"]}
{"id": "C54", "title": "Event and service packets carry code and truncated data", "statement": "Sending an event (or service request) emits one packet with the event PID, the code and the first min(n, MAX_CTO-2) data bytes.", "quantifier": "all codes and data", "why_tests_cant": "All lengths and contents.", "anchors": ["src/xcp.c:Xcp_SendSpecialPacket"]}
{"id": "C55", "title": "GET_ID makes the identification readable", "statement": "GET_ID of an available type answers with the identification's length and points the MTA at it, so that uploading that many bytes returns the identification; for an unavailable type the length is 0 and the MTA is unchanged.", "quantifier": "all types, hooks, identifications", "why_tests_cant": "All identifications and upload splits.", "anchors": ["src/xcp.c:Xcp_GetId_Res"]}
{"id": "C56", "title": "Statistics count what happened", "statement": "The statistics counters equal, modulo 2^32, the number of frames sent, of commands accepted for execution and of commands rejected as busy since start-up.", "quantifier": "all configurations allowed by the preprocessor checks, and all histories of received packets, main-function calls, triggered events and hook answers", "why_tests_cant": "An invariant over every history.", "anchors": ["src/xcp.c:Xcp_SendCto", "src/xcp.c:Xcp_DispatchCommand", "src/xcp.c:Xcp_BusyResponse"]}
{"id": "C57", "title": "Only the received bytes of a packet matter", "statement": "The effect of a command depends only on the bytes of the packet actually received, not on what earlier packets left in the receive buffer; packets shorter than the command needs are rejected.", "quantifier": "all packets, lengths and previous buffer contents", "why_tests_cant": "A two-run property over all buffers.", "anchors": ["src/xcp.c:Xcp_GetByte", "src/xcp.c:Xcp_DispatchCommand"]}
{"id": "C58", "title": "Only download commands write memory", "statement": "Application memory is changed only by DOWNLOAD, DOWNLOAD_NEXT, DOWNLOAD_MAX, SHORT_DOWNLOAD and MODIFY_BITS packets (and the application itself), never by any other command, event, checksum or main-function call.", "quantifier": "all configurations allowed by the preprocessor checks, and all histories of received packets, main-function calls, triggered events and hook answers", "why_tests_cant": "An invariant over every history.", "anchors": ["src/xcp.c:Xcp_CopyMemory", "src/xcp.c:Xcp_ServerCommands"]}
{"id": "C59", "title": "DAQ PIDs never collide with response PIDs", "statement": "The first byte of a DAQ packet is never 0xFC..0xFF, so a master can always tell DAQ packets from responses, errors, events and service requests.", "quantifier": "all configurations reachable by allocation, all pool sizes", "why_tests_cant": "All configurations.", "anchors": ["src/xcp_daq.c:XcpDaq_TriggerEvent", "src/xcp_daq.c:XcpDaq_GetFirstPid"]}
{"id": "C60", "title": "No packet makes the slave access memory outside its own buffers", "statement": "For every received packet the slave stays inside its command table, receive and transmit buffers, entity pool, event table and queue, and executes no assertion failure or undefined operation.", "quantifier": "all packets in all reachable states", "why_tests_cant": "All packets, all states.", "anchors": ["src/xcp.c:Xcp_DispatchCommand", "src/xcp_daq.c:XcpDaq_AllocOdt", "src/xcp_daq.c:XcpDaq_AddEventChannel", "src/xcp_util.c:XcpUtl_MemCopy"]}
{"id": "C61", "title": "The information commands describe the configuration the slave runs with", "statement": "GET_COMM_MODE_INFO, GET_DAQ_PROCESSOR_INFO, GET_DAQ_RESOLUTION_INFO, GET_DAQ_EVENT_INFO, GET_PGM_PROCESSOR_INFO and GET_SECTOR_INFO return the values of the compiled configuration: optional features, event channels with cycle, unit, priority and name, timestamp mode, entry sizes, sectors.", "quantifier": "all configurations, states and event numbers", "why_tests_cant": "All configurations.", "anchors": ["src/xcp.c:Xcp_GetCommModeInfo_Res", "src/xcp.c:Xcp_GetDaqProcessorInfo_Res", "src/xcp.c:Xcp_GetDaqResolutionInfo_Res", "src/xcp.c:Xcp_GetDaqEventInfo_Res", "src/xcp.c:Xcp_GetPgmProcessorInfo_Res", "src/xcp.c:Xcp_GetSectorInfo_Res", "src/xcp_daq.c:XcpDaq_GetProperties"]}
{"id": "C62", "title": "The clocks show the time since start-up in the configured unit", "statement": "XcpHw_GetTimerCounter and XcpHw_GetTimerCounterMS return the time elapsed since XcpHw_Init in the configured unit, modulo the counter's range, so differences of readings are differences of times.", "quantifier": "all start and reading times, all counter frequencies", "why_tests_cant": "Needs long run times and different clock frequencies.", "anchors": ["src/hw/linux/hw.c:Timespec_Diff", "src/hw/linux/hw.c:XcpHw_GetElapsedTime", "src/hw/linux/hw.c:XcpHw_GetTimerCounter", "src/hw/linux/hw.c:XcpHw_GetTimerCounterMS", "src/hw/win/hw.c:XcpHw_GetTimerCounter", "src/hw/win/hw.c:XcpHw_GetTimerCounterMS"]}
{"id": "C63", "title": "On CAN the slave executes the messages addressed to it and no others", "statement": "A CAN message is executed as a command exactly if it is a data message with the configured (standard or extended) inbound or broadcast identifier; everything else on the bus is ignored.", "quantifier": "all identifiers, all messages, all sequences of messages", "why_tests_cant": "All identifiers and kinds of messages.", "anchors": ["src/tl/can/linux_socket_can.c:XcpTl_Init", "src/tl/can/linux_socket_can.c:XcpTl_RxHandler", "src/tl/can/kvaser.c:XcpTl_MatchingAddress", "src/tl/can/kvaser.c:Kv_Notification", "src/tl/can/kvaser.c:XcpTl_SetCANFilter", "inc/xcp.h:XCP_ON_CAN_IS_EXTENDED_IDENTIFIER"]}
{"id": "C64", "title": "Lists are selected, started and stopped as commanded", "statement": "START_STOP_DAQ_LIST starts, stops or selects the named list; START_STOP_SYNCH starts or stops the selected lists or stops all, and clears the selection; the acquisition runs exactly while a list is started.", "quantifier": "all configurations, states and list numbers", "why_tests_cant": "All states and sequences of selections.", "anchors": ["src/xcp.c:Xcp_StartStopDaqList_Res", "src/xcp.c:Xcp_StartStopSynch_Res", "src/xcp_daq.c:XcpDaq_StartStopLists"]}
{"id": "C65", "title": "The transport layer commands on CAN tell the identifiers in use", "statement": "GET_SLAVE_ID answers every master, connected or not, with the echoed or inverted characters XCP and the slave's identifier; GET_DAQ_ID answers with the identifier of the list; SET_DAQ_ID is executed or refused; others are refused.", "quantifier": "all configurations, states and arguments", "why_tests_cant": "All identifiers.", "anchors": ["src/xcp.c:Xcp_TransportLayerCmd_Res", "src/tl/can/arduino_can.cpp:XcpTl_TransportLayerCmd_Res", "src/tl/can/arduino_can.cpp:XcpTl_GetSlaveId_Res", "src/tl/can/arduino_can.cpp:XcpTl_GetDaqId_Res"]}
{"id": "C66", "title": "The Arduino receiver hands every message to the slave, once and in order", "statement": "For every sequence of received CAN messages and calls of the main function the slave executes exactly the data messages, in order, each once.", "quantifier": "all interleavings of messages and main function calls", "why_tests_cant": "Depends on the timing of interrupts.", "anchors": ["src/tl/can/arduino_can.cpp:on_receive", "src/tl/can/arduino_can.cpp:XcpTl_MainFunction", "src/tl/can/arduino_can.cpp:XcpTl_RxHandler"]}
{"id": "C67", "title": "An XCP session ends with its TCP connection", "statement": "When a TCP client closes its connection, the XCP session, the resources it unlocked and its acquisition end; the next client has to send CONNECT first.", "quantifier": "all sequences of clients and packets", "why_tests_cant": "All sequences of clients.", "anchors": ["src/tl/eth/common.c:XcpTl_MainFunction", "src/tl/eth/common.c:XcpTl_Accept", "src/tl/eth/common.c:XcpTl_RxHandler", "src/tl/eth/common.c:XcpTl_ReleaseConnection"]}
{"id": "C68", "title": "On Windows only the connected master controls the slave and gets its data", "statement": "While a master is connected over Ethernet on Windows, packets from other addresses change neither the slave nor the connection, the master's packets are executed, and all frames are sent to the master.", "quantifier": "all configurations, states and event histories", "why_tests_cant": "Depends on what strangers send and when.", "anchors": ["src/tl/eth/wineth_iocp.c:XcpTl_Feed", "src/tl/eth/wineth_iocp.c:WorkerThread", "src/tl/eth/wineth_iocp.c:AcceptorThread", "src/tl/eth/wineth_iocp.c:XcpTl_Send", "src/tl/eth/wineth_iocp.c:XcpTl_VerifyConnection"]}
{"id": "C69", "title": "Requests beyond the limits are refused without effect", "statement": "UPLOAD, SHORT_UPLOAD, DOWNLOAD, DOWNLOAD_NEXT, SHORT_DOWNLOAD, BUILD_CHECKSUM, WRITE_DAQ_MULTIPLE, SET_DAQ_LIST_MODE, START_STOP_DAQ_LIST and GET_SEED with a length or a mode that the slave does not support, and memory commands that the access hook forbids, are answered by the error code that says so and change nothing.", "quantifier": "all configurations, states and packets", "why_tests_cant": "Decides whether a wrong request can do harm.", "anchors": ["src/xcp.c:Xcp_Upload_Res", "src/xcp.c:Xcp_ShortUpload_Res", "src/xcp.c:Xcp_Download_Res", "src/xcp.c:Xcp_DownloadNext_Res", "src/xcp.c:Xcp_ShortDownload_Res", "src/xcp.c:Xcp_ModifyBits_Res", "src/xcp.c:Xcp_BuildChecksum_Res", "src/xcp.c:Xcp_WriteDaqMultiple_Res", "src/xcp.c:Xcp_SetDaqListMode_Res", "src/xcp.c:Xcp_StartStopDaqList_Res", "src/xcp.c:Xcp_GetSeed_Res"]}
{"id": "C70", "title": "Predefined lists have separate modes", "statement": "With predefined DAQ lists, SET_DAQ_LIST_MODE and START_STOP_DAQ_LIST change the mode of the named list only, START_STOP_SYNCH starts or stops exactly the lists it should, and only started lists are sampled.", "quantifier": "all configurations with predefined lists, states and packets", "why_tests_cant": "Lists of one measurement must not disturb each other.", "anchors": ["src/xcp.c:Xcp_StartStopSynch_Res", "src/xcp.c:Xcp_StartStopDaqList_Res", "src/xcp.c:Xcp_SetDaqListMode_Res", "src/xcp_daq.c:XcpDaq_StartStopLists", "src/xcp_daq.c:XcpDaq_GetListState"]}
{"id": "C71", "title": "Predefined lists cannot be altered", "statement": "WRITE_DAQ and WRITE_DAQ_MULTIPLE on a predefined list are refused as write protected and change nothing, whatever happened before; SET_DAQ_PTR is accepted exactly for the entries of the tables.", "quantifier": "all histories of a slave with predefined lists", "why_tests_cant": "The tables are constants of the application.", "anchors": ["src/xcp.c:Xcp_WriteDaq_Res", "src/xcp.c:Xcp_WriteDaqMultiple_Res", "src/xcp.c:Xcp_SetDaqPtr_Res", "src/xcp_daq.c:XcpDaq_ValidateOdtEntry", "src/xcp_daq.c:XcpDaq_Init"]}
{"id": "C72", "title": "Packets of predefined lists carry the memory of the tables", "statement": "An event sends one packet per ODT of its predefined list: PID, timestamp if the list has them, and the memory of the entries in the tables.", "quantifier": "all consistent tables, states and events", "why_tests_cant": "What the master records must be what the tables describe.", "anchors": ["src/xcp_daq.c:XcpDaq_TriggerEvent", "src/xcp_daq.c:XcpDaq_GetOdt", "src/xcp_daq.c:XcpDaq_GetOdtEntry", "src/xcp_daq.c:XcpDaq_GetFirstPid"]}
{"id": "C73", "title": "Information on predefined lists", "statement": "GET_DAQ_PROCESSOR_INFO and GET_DAQ_LIST_INFO report number, size, and properties of the predefined lists; requests for lists that do not exist are refused.", "quantifier": "all configurations with predefined lists, states and packets", "why_tests_cant": "The master sets up the measurement by this information.", "anchors": ["src/xcp.c:Xcp_GetDaqProcessorInfo_Res", "src/xcp.c:Xcp_GetDaqListInfo_Res", "src/xcp.c:Xcp_StartStopDaqList_Res", "src/xcp.c:Xcp_SetDaqListMode_Res"]}
{"id": "C74", "title": "Sessions with predefined lists are separate", "statement": "After DISCONNECT the DAQ state of a slave with predefined lists is that after start-up.", "quantifier": "all configurations with predefined lists, states and packets", "why_tests_cant": "A new master must not inherit a measurement.", "anchors": ["src/xcp.c:Xcp_Disconnect_Res", "src/xcp.c:Xcp_Disconnect", "src/xcp_daq.c:XcpDaq_Init"]}
{"id": "C75", "title": "On CAN each packet is one message", "statement": "Every packet the slave sends over CAN becomes exactly one data message with the outbound identifier, standard or extended as configured, in the same order and with exactly the bytes of the packet (with CAN FD followed by zeros up to the next possible length).", "quantifier": "all configurations, histories and outbound identifiers", "why_tests_cant": "The master recognises the slave by the identifier.", "anchors": ["src/tl/can/linux_socket_can.c:XcpTl_Send", "src/tl/can/kvaser.c:XcpTl_Send", "src/tl/can/kvaser.c:XcpTl_SetDLC", "src/tl/can/arduino_can.cpp:XcpTl_Send"]}
{"id": "C76", "title": "Seed and key of the example application", "statement": "In the example application a protected resource is opened only by an UNLOCK with the key that belongs to the last seed given out, and since then there was no other UNLOCK and no disconnect; that key always opens it; a key seen once is of no use for a later seed.", "quantifier": "all configurations and histories, all timer values", "why_tests_cant": "Seed and key protect calibration and flashing.", "anchors": ["examples/xcpsim/app_config.c:Xcp_HookFunction_GetSeed", "examples/xcpsim/app_config.c:Xcp_HookFunction_Unlock", "src/xcp.c:Xcp_GetSeed_Res", "src/xcp.c:Xcp_Unlock_Res"]}
{"id": "C77", "title": "Packets sent from different threads", "statement": "Threads may send responses, event packets and data packets at the same time: every frame on the wire is one packet, complete and with its own contents, each thread's packets leave in order, and the frame counters are consecutive.", "quantifier": "all schedules of all threads, one memory access at a time", "why_tests_cant": "The transport layer, the command processing and the sampling run in threads of their own.", "anchors": ["src/xcp.c:Xcp_SendCto", "src/xcp.c:Xcp_SendDto", "src/xcp.c:Xcp_Send8", "src/xcp.c:Xcp_SendSpecialPacket", "src/xcp_daq.c:XcpDaq_TransmitDtos", "src/tl/eth/linuxeth.c:XcpTl_Send"]}
{"id": "C78", "title": "Command line options", "statement": "The options on the command line take effect: protocol, IP version, port, interface, CAN FD; contradictions and ports that do not exist are refused.", "quantifier": "all option lists", "why_tests_cant": "They choose what the slave listens on.", "anchors": ["src/hw/options.c:parse_options", "src/tl/eth/linuxeth.c:XcpTl_Init", "src/tl/can/linux_socket_can.c:locate_interface"]}
{"id": "C79", "title": "For a tool the slave is a remote memory", "statement": "After start-up and CONNECT, for every history of CONNECT, GET_STATUS, SYNCH, GET_ID, GET_COMM_MODE_INFO, SET_MTA, UPLOAD, SHORT_UPLOAD, DOWNLOAD, DOWNLOAD_MAX, SHORT_DOWNLOAD, MODIFY_BITS, BUILD_CHECKSUM requests and of commands that are switched off, writes by the application, main function calls and events, the slave answers each request exactly like a memory with an address pointer, sends nothing else, never fails, and its memory is that of the abstract memory.", "quantifier": "all histories of such requests with at least one byte per transfer, addresses below 2^31 (any address if signed arithmetic wraps), address 0 not written in builds with assertions, SHORT_UPLOAD and DOWNLOAD_MAX only without memory hook, MODIFY_BITS that toggles only bits that are set (C46), checksums other than CRC 32 (C41) that are computed at once, an address set again after SHORT_DOWNLOAD and BUILD_CHECKSUM (C14, C44); UPLOAD of at most one packet in builds with slave block mode (longer ones: C98); all builds with Intel byte order, without resource protection and address mapper; commands switched on or off as configured", "why_tests_cant": "This is what a measurement and calibration tool relies on; the restrictions are the deviations of C05, C15, C16, C17, C43, C45.", "anchors": ["src/xcp.c:Xcp_DispatchCommand", "src/xcp.c:Xcp_Connect_Res", "src/xcp.c:Xcp_SetMta_Res", "src/xcp.c:Xcp_Upload_Res", "src/xcp.c:Xcp_ShortUpload_Res", "src/xcp.c:Xcp_Download_Res", "src/xcp.c:Xcp_DownloadMax_Res", "src/xcp.c:Xcp_GetId_Res"]}
{"id": "C80", "title": "Sessions over TCP, byte for byte", "statement": "A slave serving TCP clients one after the other sends exactly the bytes of the remote memory's answers: each with its length and the running counter, in order, nothing else, however the clients' bytes are cut into pieces; its memory is that of the remote memory.", "quantifier": "requests as in C79; all numbers of clients, all segmentations that split no header (C49), two-byte length and counter", "why_tests_cant": "This joins the receiver, the dispatcher, the command handlers and the frames to one statement about the connection.", "anchors": ["src/tl/eth/common.c:XcpTl_MainFunction", "src/tl/eth/common.c:XcpTl_RxHandler", "src/tl/eth/common.c:XcpTl_ReadHeader", "src/xcp.c:Xcp_DispatchCommand", "src/xcp.c:Xcp_SendCto"]}
{"id": "C81", "title": "Sessions on the CAN bus", "statement": "On a bus with other traffic the slave answers every request addressed to it, and only those, with one message that has the outbound identifier and carries the remote memory's answer, in order; its memory is that of the remote memory.", "quantifier": "requests as in C79; all bus traffic of standard data messages of at most the buffer's size, standard inbound and broadcast identifiers, SocketCAN, classical CAN and CAN FD", "why_tests_cant": "This joins filter, receiver, handlers and sender.", "anchors": ["src/tl/can/linux_socket_can.c:XcpTl_RxHandler", "src/tl/can/linux_socket_can.c:XcpTl_Send", "src/tl/can/linux_socket_can.c:XcpTl_Init", "src/xcp.c:Xcp_DispatchCommand"]}
{"id": "C82", "title": "Sessions on the serial line, byte for byte", "statement": "The serial receiver hands over exactly the requests in a stream of bytes, and the slave sends exactly the bytes of the remote memory's answers, each with its length and the running counter; its memory is that of the remote memory.", "quantifier": "requests as in C79; all arrival times, without the timer check of the main function (C47, C48), two-byte length and counter", "why_tests_cant": "This joins receiver, handlers and frames.", "anchors": ["src/tl/sxi/xcp_tl.c:XcpTl_FeedReceiver", "src/tl/sxi/xcp_tl.c:XcpTl_Send", "src/xcp.c:Xcp_DispatchCommand"]}
{"id": "C83", "title": "Measurements, from the plan to the samples", "statement": "For every measurement plan that fits in the slave, the slave accepts all commands that set it up, reports the packet numbers the tool expects, and then sends at each event exactly the packets asked for: packet number, timestamp, current contents of the elements; it changes no memory.", "quantifier": "all plans (lists, ODTs, elements, events), all histories of events and writes by the application, both byte orders", "why_tests_cant": "This joins allocation, DAQ pointer, writing of entries, modes, start and sampling to one statement about what the tool gets.", "anchors": ["src/xcp_daq.c:XcpDaq_Alloc", "src/xcp_daq.c:XcpDaq_AllocOdt", "src/xcp_daq.c:XcpDaq_AllocOdtEntry", "src/xcp_daq.c:XcpDaq_TriggerEvent", "src/xcp_daq.c:XcpDaq_Enqueue", "src/xcp.c:Xcp_SetDaqPtr_Res", "src/xcp.c:Xcp_WriteDaq_Res", "src/xcp.c:Xcp_SetDaqListMode_Res", "src/xcp.c:Xcp_StartStopDaqList_Res", "src/xcp.c:Xcp_StartStopSynch_Res"]}
{"id": "C84", "title": "TCP clients are served one after the other", "statement": "TCP clients that connect one after the other are each served until they close the connection; the packets of the clients are executed in the order of the connections, every answer goes to the client that asked, byte for byte the answer of the remote memory.", "quantifier": "all lists of clients, all packets, all segmentations that split no header, all histories of the application", "why_tests_cant": "A tool may crash and another one connect. Answers must not reach the wrong tool, and no tool may be shut out.", "anchors": ["src/tl/eth/common.c:XcpTl_RxHandler", "src/tl/eth/common.c:XcpTl_Accept", "src/tl/eth/common.c:XcpTl_SaveConnection", "src/tl/eth/common.c:XcpTl_ReleaseConnection", "src/tl/eth/linuxeth.c:XcpTl_Send"]}
{"id": "C85", "title": "Over UDP answers go to the tool that connected", "statement": "Over UDP on POSIX systems the packets are executed in the order they arrive, and everything the slave sends goes to the address of the tool whose CONNECT was executed last.", "quantifier": "all senders, all packets sent as header and data, all histories of the application", "why_tests_cant": "The connection is what tells tools apart on a connectionless transport.", "anchors": ["src/tl/eth/common.c:XcpTl_ReadHeader", "src/tl/eth/common.c:XcpTl_ReadData", "src/tl/eth/common.c:XcpTl_RxHandler", "src/tl/eth/common.c:XcpTl_SaveConnection", "src/tl/eth/linuxeth.c:XcpTl_Send"]}
{"id": "C86", "title": "Calibration while measuring", "statement": "In a session with any sequence of measurements, requests are answered like by the remote memory whether a measurement runs or not, every event of a running measurement produces the packets asked for with the contents of the remote memory at that time, and nothing else is sent.", "quantifier": "all sequences of measurement plans, all requests, writes by the application, main function calls and events during and between them", "why_tests_cant": "Measuring and calibrating at the same time is what the protocol is for; that the two do not disturb each other is a statement about all interleavings.", "anchors": ["src/xcp.c:Xcp_DispatchCommand", "src/xcp.c:Xcp_GetStatus_Res", "src/xcp.c:Xcp_StartStopSynch_Res", "src/xcp_daq.c:XcpDaq_TriggerEvent", "src/xcp_daq.c:XcpDaq_TransmitDtos", "src/xcp.c:Xcp_MainFunction"]}
{"id": "C87", "title": "Sampling while other threads run", "statement": "The packets of an event are complete and contain the memory at one moment of the event, whatever commands are executed and memory is written by other threads while the event is processed.", "quantifier": "all measurement plans, all interleavings of the accesses of XcpDaq_TriggerEvent with other threads", "why_tests_cant": "Events are triggered by threads of the application while commands are executed by another thread; tests rarely hit the short moments where this matters.", "anchors": ["src/xcp_daq.c:XcpDaq_TriggerEvent", "src/xcp_daq.c:XcpDaq_GetListConfiguration", "src/xcp_daq.c:XcpDaq_GetOdt", "src/xcp_daq.c:XcpDaq_GetOdtEntry", "src/xcp_daq.c:XcpDaq_GetFirstPid", "src/xcp.c:Xcp_GetDaqListInfo_Res"]}
{"id": "C88", "title": "The terminal", "statement": "The terminal of the example application carries out the keys that are typed, in order, until ESC or q; the key d displays every DAQ list with its first PID, flags, ODTs, elements and number of bytes as the tool has configured them, the key i the sizes, command groups, state, flash memory and statistics of the slave.", "quantifier": "all sequences of reads and console records, all measurement plans", "why_tests_cant": "The display is what people use to check a configuration; a wrong display of correct data costs hours, and the defect needs lists with and without ODTs to be seen.", "anchors": ["src/hw/terminal.c:XcpDaq_PrintDAQDetails", "src/hw/terminal.c:XcpTerm_Thread", "src/hw/terminal.c:getch", "src/hw/terminal.c:SystemInformation", "src/hw/terminal.c:FlsEmu_Info", "src/xcp_daq.c:XcpDaq_GetListConfiguration", "src/xcp_daq.c:XcpDaq_GetFirstPid"]}
{"id": "C89", "title": "Checksums in the background", "statement": "With the main function in a thread of its own, every BUILD_CHECKSUM that is not refused with ERR_CMD_BUSY is answered exactly once, in the order of the requests, by the checksum of its own block, however the accesses of the two threads to the job interleave.", "quantifier": "all schedules of the main function's and the command thread's accesses, all sequences of packets, all memories, blocks of at least two chunks, methods that can be continued", "why_tests_cant": "A checksum of other memory makes the tool reject or accept a calibration page by mistake; a request without answer ends in a timeout.", "anchors": ["src/xcp_checksum.c:330-388", "src/xcp.c:942-971", "src/xcp.c:1311-1342", "src/xcp.c:2223-2229", "src/hw/threads.c:90-131"]}
{"id": "C90", "title": "Checks of a configuration", "statement": "XcpDaq_ValidateConfiguration accepts a dynamic configuration exactly if some list has something to measure, and XcpDaq_ValidateList accepts exactly the lists that have something to measure.", "quantifier": "all configurations made by the DAQ commands, all list numbers", "why_tests_cant": "Applications rely on the checks before they start lists; a list that passes without entries sends empty packets.", "anchors": ["src/xcp_daq.c:392-404", "src/xcp_daq.c:419-446"]}
{"id": "C91", "title": "Block uploads with two threads", "statement": "With the main function in a thread of its own, every UPLOAD that is not refused with ERR_CMD_BUSY is sent completely and in order, with the bytes of its own block and nothing else, however the accesses of the two threads to the transfer interleave.", "quantifier": "all schedules of the main function's and the command thread's accesses, all sequences of UPLOAD and SET_MTA, all memories, all packet sizes from 2", "why_tests_cant": "Wrong or missing bytes of a block are wrong calibration data; bytes behind the block or the buffer are disclosed or overwritten memory.", "anchors": ["src/xcp.c:706-711", "src/xcp.c:863-937", "src/xcp.c:942-971", "src/xcp.c:2253-2258", "src/hw/threads.c:90-131"]}
{"id": "C92", "title": "The project's own tests of the DAQ part", "statement": "The statements of tests/test_xcpdaq.py hold: allocations after the initialisation succeed exactly if the pool suffices, out-of-order ones answer ERR_SEQUENCE, everything is counted, entries are only created in ODTs that exist, and the packet queue delivers in order also after its indices have wrapped around.", "quantifier": "all numbers of lists, ODTs and entries, all pools up to 255 entities, all earlier DAQ states; the concrete tests one by one", "why_tests_cant": "The tests are the only specification of these functions the project has; that the model satisfies them also shows that it follows the code.", "anchors": ["tests/test_xcpdaq.py:76-289", "tests/xcp_if.py:12-75", "src/xcp_daq.c:161-270", "src/xcp_daq.c:281-307", "src/xcp_daq.c:710-754"]}
{"id": "C93", "title": "Sessions on Windows", "statement": "On Windows (UDP or TCP) a tool that sends CONNECT and then legal requests gets exactly the answers of the remote memory, in numbered frames, and nobody else gets anything, whatever arrives from other addresses after CONNECT and however the packets are cut into pieces.", "quantifier": "all configurations without block mode and seed & key with two-byte length and counter, all memories, all requests, UDP and TCP, all further traffic that is neither empty nor too long", "why_tests_cant": "A TCP stream has no packet boundaries, and XCP allows several packets in one UDP datagram; losing a request stalls the tool.", "anchors": ["src/tl/eth/wineth_iocp.c:255-327", "src/tl/eth/wineth_iocp.c:352-411", "src/tl/eth/wineth_iocp.c:441-494"]}
{"id": "C94", "title": "Transparent transport layers", "statement": "On every transport layer (Windows UDP and TCP, Linux UDP, TCP and CAN, serial line) the slave does with the packets of a tool, and with everything the application does between them, exactly what it does when each packet is handed to it alone in its buffer; and the tool gets exactly the frames the slave sends.", "quantifier": "all memories, all packets, all application activity between them; configurations with two-byte length and counter where the transport has headers", "why_tests_cant": "Everything proved about the slave alone then holds for the slave on a network; in particular calibration while measuring.", "anchors": ["src/tl/eth/wineth_iocp.c:WorkerThread", "src/tl/eth/wineth_iocp.c:XcpTl_Feed", "src/tl/eth/common.c:XcpTl_RxHandler", "src/tl/can/linux_socket_can.c:XcpTl_RxHandler", "src/tl/sxi/xcp_tl.c:XcpTl_FeedReceiver", "src/xcp.c:Xcp_DispatchCommand"]}
{"id": "C95", "title": "Serial packets with pauses", "statement": "When the main function of the serial transport layer is called again and again, with or without an octet, every packet whose octets follow each other without the configured pause is dispatched exactly once and unchanged; a packet that breaks off is dropped after the pause and the packets after it arrive.", "quantifier": "all packets that fit the buffer, all cuts, all calls with and without octets, all clock values", "why_tests_cant": "A lost octet must not cost more than the packet it belongs to.", "anchors": ["src/tl/sxi/xcp_tl.c:XcpTl_MainFunction", "src/tl/sxi/xcp_tl.c:XcpTl_FeedReceiver", "src/tl/sxi/xcp_tl.c:XcpTl_ResetSM", "src/tl/xcp_tl_timeout.c:XcpTl_TimeoutCheck"]}
{"id": "C96", "title": "Sessions with seed and key", "statement": "A slave with seed and key behaves, over whole histories of sessions, like a remote memory with locks: a resource is unlocked by an accepted key for the seed asked for last and by nothing else, a wrong key or DISCONNECT closes the session and locks everything that is protected again, commands of a locked resource are refused with ACCESS_LOCKED, and everything else is answered as without locks.", "quantifier": "all configurations with seed and key, all histories of sessions, seeds, keys, requests, measurements and other events", "why_tests_cant": "Locks are only worth something if no order of commands opens them.", "anchors": ["src/xcp.c:Xcp_GetSeed_Res", "src/xcp.c:Xcp_Unlock_Res", "src/xcp.c:Xcp_Disconnect_Res", "src/xcp.c:Xcp_Connect_Res", "src/xcp.c:Xcp_DefaultResourceProtection", "src/xcp.c:Xcp_GetStatus_Res"]}
{"id": "C97", "title": "Gates with predefined lists", "statement": "With predefined lists, a DAQ command is refused without any effect while it may not be executed: with DAQ_ACTIVE if it configures a list while a measurement runs, else with PGM_ACTIVE during a flash session (also DISCONNECT and UNLOCK), else with ACCESS_LOCKED while measurement is locked. WRITE_DAQ_MULTIPLE with too many elements for a packet is excepted. An accepted key takes exactly the locks away for which seeds were asked for; a wrong key restores the locks, stops the measurement and clears the modes of all lists.", "quantifier": "all configurations with predefined lists, states and packets", "why_tests_cant": "A refusal must name its reason and leave the measurement alone.", "anchors": ["src/xcp.c:Xcp_SetDaqPtr_Res", "src/xcp.c:Xcp_WriteDaq_Res", "src/xcp.c:Xcp_SetDaqListMode_Res", "src/xcp.c:Xcp_StartStopDaqList_Res", "src/xcp.c:Xcp_StartStopSynch_Res", "src/xcp.c:Xcp_Disconnect_Res", "src/xcp.c:Xcp_Unlock_Res"]}
{"id": "C98", "title": "Sessions with block transfers", "statement": "Over whole histories, a slave with slave and master block mode behaves like a remote memory with block transfers: an UPLOAD of more bytes than fit in a packet is sent in full packets, the first one at once and one for each call of the main function, with the memory as it is when a packet is sent, and until then every request is refused as busy and has no effect; a DOWNLOAD may be spread over several packets and is answered once, after the last one; a DOWNLOAD_NEXT that belongs to no block is refused with SEQUENCE; blocks that are too long are refused. Nothing else is sent, and the memory is that of the remote memory.", "quantifier": "all configurations as in C79 with and without either block mode, at most 255 packets in a block; all histories of requests as in C79, UPLOADs of any length and blocks whose packets announce what is still to come (C13), with requests between the packets of a block, writes by the application, calls of the main function and events in between", "why_tests_cant": "Block transfers are what tools use for large parameters and flash contents; they interleave with the application and with other requests.", "anchors": ["src/xcp.c:Xcp_Upload_Res", "src/xcp.c:Xcp_UploadSingleBlock", "src/xcp.c:Xcp_Download_Res", "src/xcp.c:Xcp_DownloadNext_Res", "src/xcp.c:Xcp_MainFunction", "src/xcp.c:Xcp_DispatchCommand", "src/xcp.c:Xcp_BusyResponse"]}
{"id": "C99", "title": "Windows: pages of the flash emulation", "statement": "On Windows, when the memory mapper reports an address as mapped, the address it hands out shows exactly the requested byte of the requested page of the segment, different pages never share a byte, and the other segments and all stored bytes stay as they are.", "quantifier": "all configurations of segments with open storage, addresses, pages and placements of views by the system", "why_tests_cant": "The system chooses where views are placed; a test sees one placement.", "anchors": ["flsemu/win/flsemu.c:FlsEmu_SelectPage", "flsemu/win/flsemu.c:FlsEmu_MapAddress", "flsemu/common.c:FlsEmu_MemoryMapper"]}
{"id": "C100", "title": "Opening the storage of the flash emulation", "statement": "Opening the storage of a segment reports whether the file is new, keeps every byte the file held, and gives storage in which every byte of the size asked for can be used; a failed open leaves nothing open.", "quantifier": "all files (none, too short, long enough), sizes and outcomes of the system calls", "why_tests_cant": "The result depends on files left by earlier runs, with other configurations.", "anchors": ["flsemu/posix/flsemu.c:FlsEmu_OpenCreatePersitentArray", "flsemu/win/flsemu.c:FlsEmu_OpenCreatePersitentArray", "flsemu/win/flsemu.c:FlsEmu_Close"]}
{"id": "C101", "title": "Block transfers while measuring", "statement": "After start-up and CONNECT, in every session of requests with block transfers in both directions, application writes, main function calls and measurements, where blocks may be open while a measurement runs: requests are answered and blocks are sent as without the measurement, every event of a running measurement produces its packets (also between the packets of a block) with the contents of the memory at that time, the slave never fails, sends nothing else, and its memory is what the requests and the application wrote.", "quantifier": "for all configurations with the default mapper and without seed & key, all remote descriptions, all histories of requests, application writes, main function calls and events, all measurement plans that fit", "why_tests_cant": "C86 and C98 exclude each other; here samples and block packets interleave, as in a real calibration session", "anchors": ["src/xcp.c:Xcp_DispatchCommand", "src/xcp.c:Xcp_MainFunction", "src/xcp.c:Xcp_UploadSingleBlock", "src/xcp_daq.c:XcpDaq_TriggerEvent"]}
{"id": "C102", "title": "End of the simulator", "statement": "When the user quits, the simulator closes the flash files, removes its locks, closes its socket, restores the terminal and ends with exit status 0; it does not end before.", "quantifier": "for all schedules of the main thread, the user interface, the transport layer thread and the XCP thread, both operating systems, any checksum or block under way", "why_tests_cant": "otherwise the terminal is left in raw mode, or the program crashes at its end", "anchors": ["src/hw/threads.c:XcpThrd_RunThreads", "src/hw/threads.c:XcpThrd_ShutDown", "src/hw/terminal.c:XcpTerm_Thread", "examples/xcpsim/main.c:main"]}
{"id": "C103", "title": "Setting up the server socket", "statement": "After XcpTl_Init the slave serves at the port, with the address family and the protocol of the options; if the operating system refuses one of the calls this needs, the program reports it and ends with a failure.", "quantifier": "for all options and all answers of the operating system to WSAStartup, getaddrinfo, socket, bind, listen and setsockopt; likewise for Bluetooth, SocketCAN and Kvaser", "why_tests_cant": "a slave that seems to run but serves nowhere, or executes frames of other devices, is worse than one that does not start", "anchors": ["src/tl/eth/linuxeth.c:XcpTl_Init", "src/tl/eth/wineth.c:XcpTl_Init", "src/tl/bt/winbt.c:XcpTl_Init", "src/tl/can/linux_socket_can.c:XcpTl_Init", "src/tl/can/kvaser.c:XcpTl_Init"]}
{"id": "C104", "title": "Sessions with block transfers and with seed and key over the wire", "statement": "What the slave says in a session, with block transfers while it measures or with seed and key, the tool at the other end of TCP, UDP or the serial line hears byte for byte, in frames with consecutive numbers, and the memory ends up the same.", "quantifier": "for all plain configurations with a header of four bytes, all legal sessions of C96 and C101, all segmentations, timings and events in between; Windows TCP and UDP, Linux TCP and UDP, serial", "why_tests_cant": "the sessions were proved against the slave alone; the tool sees the transport layer", "anchors": ["src/tl/eth/wineth_iocp.c:WorkerThread", "src/tl/eth/common.c:XcpTl_RxHandler", "src/tl/sxi/xcp_tl.c:XcpTl_FeedReceiver", "src/xcp.c:Xcp_DispatchCommand"]}
{"id": "C105", "title": "DAQ pools with 256 elements and more", "statement": "The dynamic DAQ lists work with pools of every size: the pool holds what was asked for, list numbers above 255 included, the pointer designates exactly the entries that exist, and an event sends the packets of the list assigned to it, with a PID for each ODT.", "quantifier": "for all configurations with dynamic lists, all histories of allocation requests, all list, ODT and entry numbers", "why_tests_cant": "XCP_DAQ_ENTITY_TYPE is 8, 16 or 32 bits wide depending on the size of the pool; places that keep 8 bits or change signedness break silently", "anchors": ["src/xcp_daq.c:XcpDaq_Alloc", "src/xcp_daq.c:XcpDaq_AllocOdt", "src/xcp_daq.c:XcpDaq_AllocOdtEntry", "src/xcp_daq.c:XcpDaq_ValidateOdtEntry", "src/xcp_daq.c:XcpDaq_ValidateList", "src/xcp_daq.c:XcpDaq_AddEventChannel", "src/xcp_daq.c:XcpDaq_TriggerEvent", "src/xcp.c:Xcp_StartStopDaqList_Res"]}
{"id": "C106", "title": "What start-up leaves running leaves the slave alone", "statement": "The timers that XcpHw_Init starts in the background on Linux and macOS do not disturb the slave: packets are received as without them, and the process does not end.", "quantifier": "for all sequences of packets or frames and timer signals with every choice of the thread that handles a signal; on macOS for all orders of the timers' handlers and for the order of their due times", "why_tests_cant": "a signal handled by the wrong thread interrupts a blocking call; errors of that call must not be taken for data", "anchors": ["src/hw/linux/hw.c:XcpHw_Init", "src/hw/macos/hw.c:XcpHw_Init", "src/tl/eth/common.c:XcpTl_RxHandler", "src/tl/can/linux_socket_can.c:XcpTl_RxHandler"]}
{"id": "C107", "title": "The Seeed CAN shield receives what is addressed to the slave", "statement": "With the Seeed CAN shield the program receives exactly the messages that carry the inbound or the broadcast identifier, each once and in order.", "quantifier": "for all identifiers, all messages on the bus, all contents of the filters that are not set, and all histories of messages, served interrupts and calls of the main function", "why_tests_cant": "acceptance masks and filters must be paired as the controller pairs them, and an interrupt on an edge must empty the controller", "anchors": ["src/tl/can/arduino_can.cpp:XcpTl_Init", "src/tl/can/arduino_can.cpp:on_receive", "src/tl/can/arduino_can.cpp:filter_mask", "src/tl/can/arduino_can.cpp:XcpTl_MainFunction"]}
{"id": "C108", "title": "Messages on the Arduino are executed intact", "statement": "A message that arrives while the Arduino program is handling another one does not change what is executed: each message is executed once, in order, with its own bytes.", "quantifier": "for all configurations, all messages that fit into the buffers, and all histories of interrupts and single steps of the program", "why_tests_cant": "the receive buffer is shared between the interrupt and the main function without a lock", "anchors": ["src/tl/can/arduino_can.cpp:XcpTl_MainFunction", "src/tl/can/arduino_can.cpp:XcpTl_RxHandler", "src/tl/can/arduino_can.cpp:on_receive", "src/xcp_util.c:XcpUtl_MemCopy"]}
{"id": "C109", "title": "The example's application keeps its limits", "statement": "After each call of the task the variables of the example's application are within the calibrated limits: the temperature between its two limits, the heat not negative, the sum of errors between 0 and its limit.", "quantifier": "for every arithmetic in which no number is less than itself, all histories of calls, random numbers and calibrations in between", "why_tests_cant": "the application is calibrated over XCP while it runs, so its limits must hold for every value of the parameters", "anchors": ["examples/xcpsim/appl1.c:environment", "examples/xcpsim/appl1.c:plant", "examples/xcpsim/appl1.c:controller", "examples/xcpsim/appl1.c:AppTask", "examples/xcpsim/appl1.c:randomSlope"]}
{"id": "C110", "title": "Clearing the DAQ queue stays within the queue", "statement": "When the DAQ processor is initialised the queue is cleared slot by slot, and no byte outside of the queue is written.", "quantifier": "for all sizes of pointers, all sizes of DTOs and all contents of the queue", "why_tests_cant": "the queue lies among the other variables of the slave, and it is cleared with the size of another type", "anchors": ["src/xcp_daq.c:XcpDaq_QueueInit", "src/xcp_util.c:XcpUtl_MemSet"]}
{"id": "C111", "title": "A tool that waits for each answer is served by the Arduino sketch", "statement": "If a tool sends CONNECT and then requests, each one after the answer to the one before it, and the sketch calls the main function, writes its variables and triggers events in between, then wherever the interrupts of the messages fall the program never fails, the messages it sends are the answers of the remote memory, and twelve steps after the last message all requests are answered.", "quantifier": "for all builds without the restrictions of C79, all histories of messages, steps of the program and other doings of the sketch in which the tool waits", "why_tests_cant": "the receive interrupt can fall anywhere in the program (C108); a tool that waits must not notice", "anchors": ["tools/arduino/hello_xcp/hello_xcp.ino:loop", "src/tl/can/arduino_can.cpp:XcpTl_MainFunction", "src/tl/can/arduino_can.cpp:XcpTl_RxHandler", "src/tl/can/arduino_can.cpp:on_receive"]}
{"id": "C112", "title": "Interrupts that do not overtake each other are invisible to the Arduino slave", "statement": "If no message arrives while one is being handled, that is from its interrupt until the slave has executed it, and the messages fit in the buffers, then wherever else the interrupts fall the slave of the sketch is in the state of a slave that executes each message once, in order and intact, together with what the sketch does, in order; and the program fails only as that slave does.", "quantifier": "for all configurations, all histories of interrupts, steps of the program and other doings of the sketch that are calm in this sense", "why_tests_cant": "every property of the slave holds for the Arduino sketch only if the receiver with its interrupts is no more than a queue of length one", "anchors": ["src/tl/can/arduino_can.cpp:XcpTl_MainFunction", "src/tl/can/arduino_can.cpp:XcpTl_RxHandler", "src/tl/can/arduino_can.cpp:on_receive", "tools/arduino/hello_xcp/hello_xcp.ino:loop"]}
{"id": "C113", "title": "On Windows the slave never deadlocks on its own locks", "statement": "The locks of the Windows build are critical sections, which their owner may enter again. Any number of threads that execute operations of the slave, also inside of the serial receiver, never wait for each other in a circle: every schedule can be continued until all are done, after as many steps as there is to do, and no lock is owned by two threads.", "quantifier": "for all configurations, all numbers of threads, all operations and schedules", "why_tests_cant": "with the locks of POSIX the slave hangs in block mode and in chunked checksums (C53); the same code is used on Windows", "anchors": ["src/hw/win/hw.c:XcpHw_AcquireLock", "src/hw/win/hw.c:XcpHw_ReleaseLock", "src/hw/win/hw.c:XcpHw_InitLocks", "src/xcp.c:Xcp_SlaveBlockTransferSetActive", "src/xcp_checksum.c:Xcp_StartChecksumCalculation", "src/tl/can/kvaser.c:XcpTl_Send"]}
{"id": "C114", "title": "The transport layer with a completion port ends cleanly", "statement": "When the Ethernet transport layer of Windows that uses a completion port is shut down, it returns once its worker and its acceptor thread have ended, and the process goes on.", "quantifier": "for all orders of the steps of the three threads, connected or not, TCP and UDP, whatever the threads do at that time", "why_tests_cant": "quitting the simulator waits for these threads: if one never ends the program hangs, if one goes on it uses handles that are closed", "anchors": ["src/tl/eth/wineth_iocp.c:XcpTl_DeInit", "src/tl/eth/wineth_iocp.c:XcpTl_PostQuitMessage", "src/tl/eth/wineth_iocp.c:WorkerThread", "src/tl/eth/wineth_iocp.c:AcceptorThread"]}
{"id": "C115", "title": "The signals of the Arduino sketch", "statement": "The variables the Arduino sketch offers for measurement are a triangle between its limits and square waves that compare this triangle, delayed by the given number of ticks, with a level; the event the sketch announces with a cycle of 10 ms comes every 10 ms.", "quantifier": "for all numbers of ticks, limits, levels and delays; for the event: all times at which loop() runs, also when the millisecond counter wraps", "why_tests_cant": "the sketch is the first thing users measure: wrong signals look like a wrong slave", "anchors": ["tools/arduino/hello_xcp/hello_xcp.ino:TriangleWave", "tools/arduino/hello_xcp/hello_xcp.ino:SquareWave", "tools/arduino/hello_xcp/hello_xcp.ino:loop"]}
{"id": "C116", "title": "Checksums notice changed memory", "statement": "If one byte of the block is changed, BUILD_CHECKSUM answers another value, whatever the method; the CRC methods also notice every change of two neighbouring bytes, and the 16-bit ones every change within 16 consecutive bits and every change of an odd number of bits.", "quantifier": "for all blocks, positions, changes and checksum methods", "why_tests_cant": "a tool compares checksums to decide whether the slave's memory is what it expects", "anchors": ["src/xcp_checksum.c:Xcp_CalculateChecksum", "src/xcp.c:Xcp_BuildChecksum_Res"]}
{"id": "C117", "title": "Sessions do not influence each other", "statement": "After DISCONNECT the next session is like the first one after program start, except that application memory keeps what was written: every later history leads to the same packets (apart from length and counter fields), the same memory and the same faults.", "quantifier": "for all configurations, histories before and after, and environments; CONNECTED, not busy, programming not active", "why_tests_cant": "a master that connects to a slave used by another one before relies on finding it in the state the standard describes", "anchors": ["src/xcp.c:Xcp_Disconnect", "src/xcp.c:Xcp_Disconnect_Res", "src/xcp_daq.c:XcpDaq_Init"]}
{"id": "C118", "title": "Asking leaves no trace", "statement": "A command that only asks for information, tests the connection or is refused as busy leaves no trace: whatever comes after it leads to the same packets (apart from length and counter fields), the same memory and the same faults as without it. So does CONNECT during a session, any other packet before CONNECT, an event packet, and a checksum that is answered at once.", "quantifier": "for all configurations without XCP_ON_CAN_MAX_DLC_REQUIRED, all states, packets, environments and later histories", "why_tests_cant": "masters poll the status and read the description of the slave in the middle of transfers and measurements", "anchors": ["src/xcp.c:Xcp_GetStatus_Res", "src/xcp.c:Xcp_GetId_Res", "src/xcp.c:Xcp_GetDaqEventInfo_Res", "src/xcp.c:Xcp_Connect_Res", "src/xcp.c:Xcp_ClearDaqList_Res", "src/xcp.c:Xcp_BuildChecksum_Res"]}
{"id": "C119", "title": "Which commands can be repeated", "statement": "A command that is sent twice in a row is answered twice in the same way, and whatever comes after it leads to the same packets (apart from length and counter fields), the same memory and the same faults as when it was sent once. This holds for every command except exactly UNLOCK, UPLOAD, SHORT_UPLOAD, BUILD_CHECKSUM, DOWNLOAD, DOWNLOAD_NEXT, DOWNLOAD_MAX, SHORT_DOWNLOAD, WRITE_DAQ, WRITE_DAQ_MULTIPLE, ALLOC_DAQ, ALLOC_ODT, ALLOC_ODT_ENTRY, PROGRAM and PROGRAM_RESET.", "quantifier": "for all configurations without XCP_ON_CAN_MAX_DLC_REQUIRED, all states, packets, environments and later histories", "why_tests_cant": "a master whose timeout has run out sends a command again without knowing whether it was executed", "anchors": ["src/xcp.c:Xcp_DispatchCommand", "src/xcp.c:Xcp_ShortUpload_Res", "src/xcp.c:Xcp_ShortDownload_Res", "src/xcp.c:Xcp_ModifyBits_Res", "src/xcp.c:Xcp_AllocDaq_Res", "src/xcp_daq.c:XcpDaq_StartStopLists"]}
{"id": "C120", "title": "A busy slave becomes ready again", "statement": "A slave busy with a checksum or a block upload becomes ready after an exactly known number of calls of Xcp_MainFunction: one per chunk or packet. Nothing else that happens ends the work earlier or delays it. A checksum keeps the slave busy in proportion to its length. From every state it can be in, enough calls and then CONNECT, PROGRAM_RESET and DISCONNECT bring the slave back to the beginning.", "quantifier": "all configurations with a chunk size of at least 1, all reachable states, all histories", "why_tests_cant": "A slave that stays busy, or that cannot be brought back, needs a power cycle; a tool has to know how long to wait.", "anchors": ["src/xcp.c:Xcp_MainFunction", "src/xcp.c:Xcp_UploadSingleBlock", "src/xcp_checksum.c:Xcp_ChecksumMainFunction", "src/xcp_checksum.c:Xcp_StartChecksumCalculation", "src/xcp.c:Xcp_ProgramReset_Res"]}
{"id": "C121", "title": "A command whose answer was lost can be tried again", "statement": "After a timeout a master sends SYNCH, the command that prepares the lost one, and the lost one again. SYNCH is answered with ERR_CMD_SYNCH, the others are answered as the first time, and everything after that (packets, memory, faults) is as if they had been sent once. So it is for commands that read or write at the MTA behind SET_MTA, for the allocation of DAQ lists from FREE_DAQ on, and for the commands that need no preparation.", "quantifier": "all configurations without padding to the full packet length, all ready states, all packets, all later histories", "why_tests_cant": "A retry that doubles an effect, or that is answered in another way than the lost command, defeats the error handling of the standard.", "anchors": ["src/xcp.c:Xcp_Synch_Res", "src/xcp.c:Xcp_SetMta_Res", "src/xcp.c:Xcp_Download_Res", "src/xcp.c:Xcp_Upload_Res", "src/xcp.c:Xcp_Program_Res", "src/xcp_daq.c:XcpDaq_Free", "src/xcp_daq.c:XcpDaq_AllocOdt", "src/xcp.c:Xcp_Unlock_Res"]}
{"id": "C122", "title": "Measuring leaves everything else as it is", "statement": "Take the events that trigger measurements out of a history: every other operation sends the same packets as before, byte for byte, and the memory ends up the same. Events send DAQ packets only and everything else sends none, so the master receives the same packets without the DAQ packets.", "quantifier": "all configurations, all states, all histories in which no event stops the slave", "why_tests_cant": "Measurement runs from the application's own tasks between the commands of the master; if it changed the MTA, a block transfer or an answer, calibration while measuring would be unsafe.", "anchors": ["src/xcp_daq.c:XcpDaq_TriggerEvent", "src/xcp_daq.c:XcpDaq_TransmitDtos", "src/xcp_daq.c:XcpDaq_CopyMemory", "src/xcp.c:Xcp_DispatchCommand", "src/xcp.c:Xcp_MainFunction"]}
