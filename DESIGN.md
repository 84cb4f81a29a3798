# A Lean model of cxcp

The subject is the XCP slave in `/repo` (C).  This file says what is modelled,
how each property of `properties.jsonl` is stated and proved, what is trusted,
and where the code and the expected property disagree.

## 1. Trusted base

* Lean 4.33.0's kernel.  No theorem uses an axiom besides `propext`,
  `Classical.choice` and `Quot.sound` (most use fewer).  No `sorry`,
  no `native_decide`, no `bv_decide`, no own axioms.
* The hand translation of the C text into the definitions under
  `lean/Verif/Model`.  Each definition cites file and lines in `/repo`.
* The target assumptions of section 2.

## 2. Target assumptions

* 32-bit `int`, 32-bit pointers, little-endian machine.  (`Xcp_Download_Copy`
  casts a pointer to `uint32_t`, which is only meaningful with 32-bit pointers.)
* Dynamic DAQ lists (`XCP_DAQ_ENABLE_PREDEFINED_LISTS` off), STIM off,
  interleaved mode off, entity pool below 256 so that list/ODT/entry/entity
  integers are `uint8_t`.  Larger pools: C105 (`Model/DaqWide`); predefined lists:
  C70 to C73 and C97 (`Model/Predef`).
* The application memory that commands read and write is disjoint from the
  slave's own variables and buffers.
* One API call runs to completion before the next (calls are the atomic steps
  of a history).  Interleavings inside calls are treated in a separate model of
  the lock discipline (C53).

## 3. Shape of the model

* `Verif/Model/*`: the code.  Bytes are `UInt8`; lengths, counters and
  addresses are `Nat` with explicit `% 2^k` where the C type wraps.
* Memory is `UInt32 -> UInt8`, so addresses wrap at 2^32.
* Undefined or aborting behaviour is an explicit outcome: handlers return
  `Except Fault St`, and `Fault` names the reason (index out of the command
  table, assertion, entity/event/queue index out of range, buffer overrun,
  signed overflow, over-wide shift).  Nothing is assumed away.
* The configuration (`Cfg`) is a record with one field per preprocessor switch
  that changes behaviour, so theorems quantify over configurations.
* Application hooks (memory check, seed, unlock, identification, timer, address
  mapper) are arguments of each step (`Env`), so theorems quantify over
  arbitrary, even inconsistent, hook behaviour.
* `step cfg env s op` with `op` a received packet, a main-function call, a
  triggered event, an application event/service packet, an application write to
  memory or an API disconnect; `run` folds it over a history and stops at the
  first fault.
* Every frame handed to the transport layer is appended to the log `tx`.
  That log is the observable behaviour.  The fixed transmit buffer keeps its
  old contents, as in C.
* `Verif/Spec/*`: small specifications independent of the model (polynomial
  CRC, allocation grammar, abstract DAQ configuration, FIFO, packet framing).
* `Verif/Proofs/*`: helper lemmas.  `Verif/Props/*`: the property theorems with
  examples showing that the hypotheses are met.

Where the code violates a property, the full property is refuted on a concrete
reachable witness (theorem name `..._fails...` / `not_...`) and the part that
does hold is proved with suffix `_partial`.

## 4. Properties

| id | modelled | proof |
|----|----------|-------|
| C01 | SendCto/SendDto, all handlers | invariant over histories on the frame log |
| C02 | Send8, upload, seed, special packets, TriggerEvent | invariant over histories |
| C03 | DispatchCommand, MainFunction, TriggerEvent | invariant over histories without CONNECT |
| C04 | Connect_Res | direct computation, all configurations |
| C05 | Connect/GetId/BuildChecksum/GetDaqClock responses | positive for Intel, refuted for Motorola |
| C06 | DispatchCommand, BusyResponse | frame theorem |
| C07 | all handlers | case split on the command, exceptions refuted by witnesses |
| C08 | command table | decision logic; refuted for codes below 0xC7 |
| C09 | Disconnect_Res | refuted (connected flag stays set); partial: DAQ and protection reset |
| C10 | Upload without block mode | induction over the sequence of uploads |
| C11 | UploadSingleBlock, MainFunction | induction on the remaining count |
| C12 | Download, DownloadMax, Download_Copy | frame and round trip |
| C13 | Download, DownloadNext | induction over the chunks; count check refuted |
| C14 | ShortUpload, ShortDownload | direct; MTA of SHORT_DOWNLOAD refuted |
| C15 | memory-check macro, read commands | two-run noninterference; SHORT_UPLOAD refuted |
| C16 | memory-check macro, write commands | frame; DOWNLOAD_MAX/NEXT/MODIFY_BITS refuted |
| C17 | IsProtected, calibration commands | refuted |
| C18 | UNLOCKED gate, DAQ commands | decision logic and invariant over histories |
| C19 | PGM gate | decision logic and invariant over histories |
| C20 | GetSeed, Unlock | invariant over histories with ghost set of requested seeds |
| C21 | Unlock, Disconnect | direct |
| C22 | GetStatus, gates | equivalence |
| C23 | PGM_IDLE gate | decision logic; exceptions refuted |
| C24 | PGM_ACTIVE gate | decision logic and history invariant |
| C25 | Program_Res | refuted |
| C26 | DAQ_STOPPED gate | decision logic; FREE/ALLOC refuted |
| C27 | alloc transition table | equivalence with a grammar, by induction |
| C28 | Alloc/AllocOdt/AllocOdtEntry | invariant by induction |
| C29 | same | refinement to an abstract tree configuration |
| C30 | ValidateOdtEntry | equivalence with the abstract configuration |
| C31 | WriteDaqEntry | induction over writes; overrun refuted |
| C32 | GetFirstPid | sum over abstract configuration |
| C33 | TriggerEvent | equality of emitted frames with a specification |
| C34 | queue | refinement to a FIFO; index overrun refuted |
| C35 | StartStopSynch, TriggerEvent | history invariant; per-list selection refuted |
| C36 | SetDaqListMode, TriggerEvent | refuted |
| C37 | GetListState | refuted |
| C38 | Free, Init | direct |
| C39 | CalculateChecksum (CITT) | table equals bitwise division, induction over bytes |
| C40 | CalculateChecksum (CRC16) | same with reflection |
| C41 | CalculateChecksum (CRC32) | refuted |
| C42 | CalculateChecksum (ADD) | induction |
| C43 | chunked checksum | induction over chunks; small sizes refuted |
| C44 | BuildChecksum | MTA refuted; limit proved |
| C45 | Get/SetWord/DWord | round trip; signed overflow refuted |
| C46 | ModifyBits | refuted; exact condition proved |
| C47 | FeedReceiver | induction over packets; buffer overrun refuted |
| C48 | time-out | refuted |
| C49 | ReadHeader/ReadData | refuted for split headers; unsplit proved |
| C50 | MemCopy/MemSet/MemCmp | induction; over-read refuted |
| C51 | Itoa | digits round trip |
| C52 | FlsEmu | mapper and erase frames; EraseSector refuted |
| C53 | lock skeleton of every API function | decision over lock traces; self-deadlock refuted |
| C54 | SendSpecialPacket | direct |
| C55 | GetId + Upload | composition with C10 |
| C56 | statistics | invariant over histories |
| C57 | receive buffer | refuted; independence beyond the buffer proved |
| C58 | all handlers | invariant over histories |
| C59 | GetFirstPid, TriggerEvent | invariant; pools of 254 and more refuted |
| C60 | all handlers | safety theorem for the commands that are safe; others refuted |
| C61 | information commands | direct; three answers refuted |
| C62 | hw clocks (Linux, Windows) | arithmetic; units, wrap and clock source refuted |
| C63 | SocketCAN and Kvaser receivers | bit masks; extended identifiers refuted |
| C64 | StartStopDaqList, StartStopSynch | direct; three effects refuted |
| C65 | transport layer commands | direct; discovery and SET_DAQ_ID refuted |
| C66 | Arduino CAN receiver | induction over histories; lost messages refuted |
| C67 | TCP clients + slave | composition with C49; refuted |
| C68 | Windows Ethernet + slave | step lemmas, invariant over histories; refuted in full |
| C69 | limits and access denials | refusal theorems per command; refuted for DOWNLOAD_NEXT |
| C70 | modes of predefined lists | frame and bit theorems; three refutations |
| C71 | predefined lists are read-only | invariant over histories, refusal theorems, SET_DAQ_PTR iff in the tables |
| C72 | packets of predefined lists | one packet per ODT (queue room, small tables); index wrap refuted |
| C73 | information on predefined lists | answers; refutations incl. accesses outside the tables |
| C74 | sessions with predefined lists | reset theorem; surviving event assignments |
| C75 | one CAN message per packet | histories composed with C02, three drivers; refutations for packets above 8 bytes |
| C76 | seed and key of the example | histories of slave plus hook variable; replay refuted |
| C77 | packets sent from different threads | all interleavings of memory accesses; counters and mixed frames refuted |
| C78 | command line options | option lists to settings; ports, Windows, long interface names refuted |
| C79 | for a tool the slave is a remote memory | refinement of `Spec/Remote` by simulation |
| C80 | sessions over TCP, byte for byte | bytes in any pieces to bytes of the remote memory's answers |
| C81 | sessions on the CAN bus | bus traffic to messages with the remote memory's answers |
| C82 | sessions on the serial line | bytes to bytes of the remote memory's answers |
| C83 | measurements, from the plan to the samples | commands of a plan, then events, to packets with PID, timestamp and memory |
| C84 | TCP clients one after the other | lists of clients with their segments to packets executed and the socket of each answer |
| C85 | UDP on POSIX | datagrams of any senders to packets executed and the address of each answer |
| C86 | calibration while measuring | sequences of measurements with requests and events between their commands, to answers and samples in order |
| C87 | sampling while other threads run | one access of the sampling thread at a time, other threads arbitrary between them |
| C88 | the terminal | all reads and console records; all plans in the slave |
| C89 | checksums in the background | all schedules of accesses, packets and memories |
| C90 | checks of a configuration | all configurations and list numbers |
| C91 | block uploads with two threads | all schedules of accesses, packets and memories |
| C92 | the project's own DAQ tests | all numbers and pools; concrete tests as examples |
| C93 | Windows Ethernet + slave, whole sessions | induction over histories; refuted for other segmentations |
| C94 | all transport layers + slave | simulation: any history over a transport equals the history of the slave alone; C86 lifted to the wire |
| C95 | serial receiver polled by its main function | octets with pauses, broken packets, recovery; lifted to the slave |
| C96 | sessions with seed and key | histories of sessions, locks, requests and measurements against a guarded remote memory |
| C97 | gates with predefined lists | order and error codes of the three checks |
| C98 | sessions with block transfers | simulation with a remote memory that has blocks in both directions |
| C99 | Windows: pages of the flash emulation | addresses and views; the system places views |
| C100 | opening the storage of the flash emulation | both systems, all files |
| C101 | block transfers while measuring | C86 and C98 together |
| C102 | the end of the simulator | all schedules of its threads, both systems |
| C103 | setting up the server socket | an operating system that may refuse every call |
| C104 | block transfers and seed & key over the wire | composes C94 with C96 and C101 |
| C105 | DAQ pools with 256 elements and more | 16- and 32-bit entity types |
| C106 | What start-up leaves running leaves the slave alone | timers of XcpHw_Init on Linux and macOS |
| C107 | The Seeed CAN shield receives what is addressed to the slave | filters, edge-triggered interrupt |
| C108 | Messages on the Arduino are executed intact | main function step by step with interrupts |
| C109 | The example's application keeps its limits | every arithmetic; NaN |
| C110 | Clearing the DAQ queue stays within the queue | bytes of the array |
| C111 | A tool that waits for each answer is served by the Arduino sketch | interrupts between any two steps |
| C112 | Interrupts that do not overtake each other are invisible to the Arduino slave | any build, any messages |
| C113 | On Windows the slave never deadlocks on its own locks | recursive locks; Kvaser refuted for packets of more than 8 bytes |
| C114 | The transport layer with a completion port ends cleanly | four ways it does not |
| C115 | The signals of the Arduino sketch | the event is not periodic; triangles start at 0 whatever their lower limit |
| C116 | Checksums notice changed memory | CRC_32 as written misses changes of two neighbouring bytes |
| C117 | Sessions do not influence each other | MTA, unfinished block download and DAQ mode bits are carried over |
| C118 | Asking leaves no trace | GET_ID and GET_DAQ_EVENT_INFO set the MTA; CLEAR_DAQ_LIST does nothing |
| C119 | Which commands can be repeated | exact: 15 commands cannot |
| C120 | A busy slave becomes ready again | exact number of calls; refuted in proportion for blocks between one and two chunks |
| C121 | A command whose answer was lost can be tried again | holds behind SET_MTA and FREE_DAQ; refuted for UNLOCK and while the slave is busy |
| C122 | Measuring leaves everything else as it is | every answer and the memory are the same with and without the events; refuted as to faults |

## 5. What is modelled and what is not

| part of /repo | model file | remarks |
|---|---|---|
| src/xcp.c (all functions except the ones below) | Send, Std, Cal, DaqCmd, Dispatch | every command handler, the jump table, statistics, gates |
| src/xcp_daq.c | Daq | dynamic lists |
| src/xcp_checksum.c | Checksum, Std | all nine methods, background job |
| src/xcp_util.c | Util | with the addresses read and written |
| src/tl/xcp_tl_timeout.c | Timeout | |
| src/tl/sxi/xcp_tl.c | Sxi | receiver |
| src/tl/eth/common.c | Eth | receiver: ReadHeader, ReadData, RxHandler |
| src/tl/can/arduino_can.cpp:228-297 | Std | transport layer commands |
| flsemu/common.c, flsemu/posix/flsemu.c:178-201 | Fls | |
| src/hw/posix/hw.c:100-131, critical sections of all files | Locks | lock operations only |
| src/hw/linux/hw.c, src/hw/win/hw.c: clocks | Clock | readings of the operating system's clocks are arguments |
| src/tl/can/linux_socket_can.c, src/tl/can/kvaser.c | Can | receivers and filters; the kernel's and CANlib's filter rules are assumed as documented |
| src/tl/can/arduino_can.cpp:120-175 | Can | MKR Zero variant of the receiver; not interrupted inside the main function |
| src/tl/eth/common.c: Accept, MainFunction | Tcp | clients one after the other |
| src/tl/eth/wineth_iocp.c | Iocp | operations of the operating system succeed at once; one receive at a time uses the buffer |
| src/xcp_daq.c, src/xcp.c | Predef | the slave with `XCP_DAQ_ENABLE_PREDEFINED_LISTS` instead of dynamic lists: tables, commands, sampling |
| src/tl/can/*: XcpTl_Send | CanTx | sending side of the CAN transport layers (SocketCAN, Kvaser with its lock, Arduino) |
| examples/xcpsim/app_config.c | Hooks | the seed, key and memory hooks of the example application |
| src/xcp.c: Xcp_SendPdu and the transport layers | Conc | sending as single memory accesses of several threads |
| src/hw/options.c | Options | the command line options |
| src/tl/eth/common.c, linuxeth.c: connections | Posix | connections: accept, read until closed, saved and current address, destination of frames |
| src/xcp_daq.c: XcpDaq_TriggerEvent | Sampler | an event as single accesses to shared variables |
| src/hw/terminal.c | Term | arguments of `printf` instead of text; the state is constant during a display |
| src/xcp_checksum.c, src/hw/threads.c | Jobs | accesses to the job and the busy flag one at a time; memory constant; sending is one step |
| src/xcp_daq.c | Validate | the two checks offered to applications |
| flsemu/posix/flsemu.c, common.c | Fls | closing; freed pointers are null |
| src/xcp.c, src/hw/threads.c | Blocks | accesses to the block transfer one at a time; memory constant; sending is one step |
| flsemu/win/flsemu.c, opening of both systems | FlsWin | the rules of `MapViewOfFile` and `CreateFileMapping` are assumed as documented |
| src/hw/threads.c, examples/xcpsim/main.c | Process | threads as a schedule; SIGINT ends the process when it is sent (Linux); thread affinity left out |
| src/tl/eth/linuxeth.c, wineth.c, src/tl/bt/winbt.c, src/tl/can/linux_socket_can.c, kvaser.c: XcpTl_Init | Setup | the answers of the operating system are arguments; standard input is not a socket |
| src/xcp_daq.c, src/xcp.c (DAQ commands) | Model/DaqWide | every width of XCP_DAQ_ENTITY_TYPE |
| src/hw/linux/hw.c, src/hw/macos/hw.c (XcpHw_Init) | Model/Startup | who handles the signal is arbitrary |
| src/tl/can/arduino_can.cpp (Seeed variant) | Seeed | with the MCP2515's filters and receive buffers; no remote requests |
| src/tl/can/arduino_can.cpp: XcpTl_MainFunction | InoIrq | one step per access; the dispatcher is one step; the interrupt is not interrupted |
| examples/xcpsim/appl1.c | Plant | the arithmetic is arbitrary; the parameters are constant during a call |
| src/xcp_daq.c: XcpDaq_QueueInit | QueueMem | the array as bytes; Daq.queueInit is the queue as the rest of the model sees it |
| tools/arduino/hello_xcp/hello_xcp.ino: loop | InoLoop | between calls of XcpTl_MainFunction the sketch may call Xcp_MainFunction, write variables and trigger events in any order |
| src/hw/win/hw.c: locks | WinLocks | critical sections as documented: recursive, no fairness |
| src/tl/eth/wineth_iocp.c: XcpTl_DeInit | IocpEnd | one step per call; failed receives left out |
| tools/arduino/hello_xcp/hello_xcp.ino: TriangleWave, SquareWave, loop | Waves | the missing templates Queue and Observers are taken as their names say; SineWave left out |

Not modelled:

* The rest of the Windows, Arduino, FreeRTOS and SDL back ends (modelled: the Windows clocks, the Windows flash emulation, the
  Windows Ethernet receiver, the Arduino CAN receivers with interrupts), the GUI and the command-line front ends;
  failures of the system calls of the POSIX flash emulation.
* STIM, interleaved mode, PAG commands and
  SET_REQUEST/READ_DAQ (declared in the command table but not defined in the
  repository).
* Address extension and bit offset members of ODT entries (refused by `#error`, inc/xcp.h:71-93, like STIM, alternating
  lists and prioritization) and the prescaler (stored, never used).

The models of the receivers (Sxi, Eth) end with the packet handed to
`Xcp_DispatchCommand`; the model of the slave (`step`) begins there.

## 6. Axioms

`#print axioms` on every theorem named in MANIFEST.json lists at most `propext`,
`Classical.choice` and `Quot.sound`.  Closed witnesses are checked with
`decide +kernel`: the kernel evaluates the decision procedure itself.

## 7. Findings

Places where the code does not do what its documentation, its names or the XCP
standard promise.  Each was found while trying to prove a property; the theorem
in brackets shows it on the model.

Memory safety and undefined behaviour

1. Command codes below 0xC7 index outside `Xcp_ServerCommands`
   (src/xcp.c:959) [C08_fails_low_codes, C60_fails_codes].
2. `XcpDaq_QueueDTOs` has 4 elements, the queue indices run from 0 to 4: the
   fifth packet is written behind the array (src/xcp_daq.c:44, 141, 728-754)
   [C34_fails, C33_fails].
3. The queue keeps the packet length in a `uint8_t`: without assertions a DTO of
   256 bytes is sent as an empty one [C02_fails].
4. ALLOC_ODT and ALLOC_ODT_ENTRY do not check the list and ODT numbers: they
   overwrite other elements or leave the pool (src/xcp_daq.c:208-261)
   [C29_fails_odt, C29_fails_entry, C29_fails_oob].
5. WRITE_DAQ does not stop at the end of the ODT [C31_fails, C31_fails_oob], and
   works without SET_DAQ_PTR, also after FREE_DAQ [C59_fails_write].
6. SET_DAQ_LIST_MODE does not check the event number: the assignment is stored
   outside of `XcpDaq_ListForEvent` (src/xcp_daq.c:477-481) [C36_fails_event].
7. `Xcp_GetDWord` multiplies a promoted `uint16_t` by 0x10000: signed overflow
   for values from 0x80000000 on (src/xcp.c:2164-2176) [C45_fails_signed_overflow].
8. MODIFY_BITS shifts an `int` by the byte from the packet
   [C46_fails_shift, C46_fails_overflow].
9. Nothing compares with the received length: short packets are executed with
   bytes of earlier packets [C57_fails].
10. GET_DAQ_LIST_INFO and START_STOP_DAQ_LIST go on after the out-of-range
    error; the first reads outside of the pool [C60_fails_each, C07_fails_twice].
11. A lost-length hazard in the serial receiver: it stores every octet without
    a bound, and a length of 0xFFFE/0xFFFF wraps [C47_fails_overrun, C47_fails_wrap].
12. The Ethernet receiver stores a packet of any announced length into its
    buffer [C49_fails_oversized] and counts the error result -1 as 255 or 65535
    bytes [C49_fails_error].
13. `XcpUtl_MemCmp` reads one byte behind both areas [C50_cmp_overread].
14. `XcpUtl_Itoa` divides by zero for base 0, does not end for base 1, and
    negates the smallest number (32-bit `long`) [C51_base0, C51_base1, C51_fails].
15. The flash emulation's open loop runs zero times, so the first use of the
    mapper dereferences a null pointer [C52_fails_open], and so does the key i of the
    simulator's terminal, which displays the segments [C88_fails_information]; `FlsEmu_EraseSector` doubles
    the offset [C52_fails_sector].
16. `XcpUtl_MemCopy` asserts a length above 0: UPLOAD(0), an empty seed and ODT
    entries of length 0 abort the program; so does a download to mapped address 0
    [C60_fails_each, C60_fails_seed].

Access control

17. No calibration command looks at the protection mask [C17_fails_locked,
    C22_fails_cal].
18. SHORT_UPLOAD asks the access hook about the old MTA [C15_fails_short_upload].
    Data acquisition never asks [C15_fails_daq].  DOWNLOAD_MAX and DOWNLOAD_NEXT
    do not ask, MODIFY_BITS asks about two of its four bytes
    [C16_fails_download_max, C16_fails_download_next, C16_fails_modify_bits].
19. A background checksum of a block between one and two chunks underflows its
    size, is never answered, and reads memory behind the block
    [C43_fails_short_block, C15_checksum_reads_past].
20. GET_PGM_PROCESSOR_INFO and GET_SECTOR_INFO are answered while PGM is locked
    [C19_fails_info].
21. GET_SEED accumulates resources: one key unlocks everything asked for since
    the last UNLOCK [example in C20].
22. MODIFY_BITS works during programming [C23_fails].

Protocol

23. DISCONNECT does not disconnect [C09_fails_still_connected].
24. Two commands answer twice after an error, user commands never answer
    [C07_fails_twice, C07_fails_none].
25. Responses are little-endian although CONNECT announces Motorola
    [C05_fails_motorola].
26. On CAN-FD with the maximal DLC required, `Xcp_Send8` sends old buffer contents
    [C04_fails_with_max_dlc].
27. SHORT_DOWNLOAD advances the old MTA [C14_fails_short_download_mta];
    BUILD_CHECKSUM does not advance it [C44_fails_mta].
28. The count in DOWNLOAD_NEXT is not compared with what remains
    [C13_fails_count_mismatch].
29. PROGRAM acknowledges data it does not store [C25_fails].
30. FREE_DAQ and ALLOC_* are accepted while the acquisition runs [C26_fails].
    ALLOC_DAQ is accepted after initialisation without FREE_DAQ
    [C27_implicit_free].
31. 16-bit list numbers and counts are cut to 8 bits [C28_fails, C30_fails].
32. A list's events: an event without a list samples list 0 [C36_fails]; all
    lists share one mode byte, which FREE_DAQ keeps [C37_fails, C37_fails_free];
    a list is sampled whether it was started or not [C35_fails].
33. More than 252 ODTs reach the PIDs reserved for responses [C59_fails_pool].
34. MODIFY_BITS computes `A & (~(~MA<<S) ^ (MX<<S))` and can never set a bit
    [C46_fails, C46_fails_never_sets].
35. CRC_32 is not a CRC: bytes in the middle do not matter
    [C41_fails_middle_ignored].  CRC_16 and CRC_32 over several chunks differ
    from the direct value [C43_fails_crc16].
36. `ctosReceived` counts packets a disconnected slave ignores [C56_fails].

Transport and scheduling

37. The time-out variable holds the limit and the start time [C48_fails_late,
    C48_fails_early]; the serial receiver drops good packets because of it
    [C47_fails_timeout].
38. A TCP header split after two bytes: the counter is taken for the length
    [C49_fails_split].  UDP never delivers a packet, because reading the header
    discards the datagram [C49_fails_udp].  An empty packet ends the receiver.
39. Chunked BUILD_CHECKSUM and UPLOAD with slave block mode lock a
    non-recursive mutex twice; on the serial line every answered command does
    [C53_fails_checksum, C53_fails_upload, C53_fails_serial].
40. `FlsEmu_SelectPage` never updates the current page, so page 0 cannot be
    selected again [C52_fails_back]; `FlsEmu_AllocatedSize` is at most one
    granule because of operator precedence [C52_fails_allocated].
41. GET_DAQ_PROCESSOR_INFO always announces the prescaler (`CONFIG_TYPE_NONE` is 3,
    src/xcp_daq.c:579) [C61_prescaler_fails]; GET_DAQ_RESOLUTION_INFO has a fixed
    timestamp mode [C61_resolution_fails]; GET_SECTOR_INFO always reports 0
    [C61_sectorInfo_fails].
42. The Linux DAQ clock ignores the unit, wraps at 2^32-1, and subtracts readings of
    two different clocks [C62_linux_unit_fails, C62_linux_wrap_fails,
    C62_linux_clock_mix_fails]; the Windows clock divides by frequency/unit,
    which may be inexact or 0 [C62_win_fails].
43. SocketCAN: the filter for an extended identifier is `CAN_EFF_FLAG` alone, so every
    extended message on the bus is executed [C63_socket_extended_fails]; with
    standard identifiers remote requests and extended messages with the same low
    11 bits are executed [C63_socket_exact]; a CAN-FD message longer than the
    buffer overruns it [C63_socket_fails_fd].  Kvaser executes remote requests
    [C63_kvaser_fails].
44. START_STOP_DAQ_LIST(start) and (stop) are acknowledged and do nothing
    [C64_list_fails]; "stop all" leaves lists started that are not selected
    [C64_fails_stop_all]; after stopping the only started list it is still sampled
    [C64_fails_stop_selected].
45. GET_SLAVE_ID is not answered before CONNECT [C65_discovery_fails]; SET_DAQ_ID is
    ignored without an answer [C65_set_fails].
46. The Arduino receiver has one buffer: a second message before the main function runs
    replaces the first [C66_lost_fails].  Remote requests fail an assertion or
    repeat the last command [C66_remote_fails, C66_repeat_fails].
47. When a TCP client closes its connection the XCP session goes on: the next client
    inherits it, with unlocked resources, without CONNECT [C67_one_client,
    C67_fails, C67_fails_unlocked].
48. Windows Ethernet: measurement data go to the sender of the last datagram, even if it was ignored
    (src/tl/eth/wineth_iocp.c:302-309) [C68_fails_redirect]; an empty datagram from
    anybody ends the session (lines 379-385) [C68_fails_empty]; after a datagram that is longer than
    the buffer no receive is started again (lines 399-407) [C68_fails_deaf];
    the acceptor thread, already waiting in `accept`, lets a second TCP client replace the first
    during its session (lines 268-290) [C68_fails_second_client]; when one TCP client closes its connection,
    the session of another ends and its socket is closed (lines 380-385) [C68_fails_close].
49. DOWNLOAD_NEXT accepts any length: it is cut to the payload of a packet, and the remaining count wraps
    below zero (src/xcp.c:1400-1420) [C69_fails_next, C13_fails_count_mismatch].
50. With predefined lists SET_DAQ_LIST_MODE, START_STOP_DAQ_LIST(select) and GET_DAQ_LIST_INFO for a list that does not exist
    access memory outside the tables; for SET_DAQ_LIST_MODE and select it is a write (src/xcp.c:1655-1668, 1680-1690, 1770-1784)
    [C73_info_fails, C73_select_fails, C73_mode_fails].
51. GET_DAQ_LIST_INFO reports MAX_ODT_ENTRIES 0 and a fixed event that is not fixed (src/xcp.c:1776-1784) [C73_fails_entries, C73_fails_fixed].
52. Indices into the predefined tables are cut to 8 bits although the tables have 16-bit indices (src/xcp_daq.c:309-329, 617-632) [C72_fails_wrap].
53. With predefined lists the event assignments survive DISCONNECT (src/xcp_daq.c:281-307) [C74_fails_events].
54. A CAN FD build on SocketCAN that is started without `-f` copies packets of more than 8 bytes into an 8 byte frame on the stack
    (src/tl/can/linux_socket_can.c:211-215) [C75_socket_fails_without_fd].
55. Kvaser: a packet of more than 8 bytes is dropped and the critical section is never left, other threads then wait for ever
    (src/tl/can/kvaser.c:271-276) [C75_kvaser_fails].
56. The example's seed is meant to be the four bytes of the timer, but the macros are nested the wrong way round: the first two
    bytes are always zero, a recorded key works again (examples/xcpsim/app_config.c:101-104) [C76_seed_fails, C76_replay_fails].
57. The frame counter and the buffer for responses and event packets are shared between threads without a lock; counters repeat and
    frames get mixed (src/xcp.c:732-788, 808-856, 2262-2283) [C77_counter_fails, C77_mixed_fails].
58. The port option accepts any text: 71091 becomes 5555, a word becomes 0 (src/hw/options.c:162); the start-up message always
    shows 5555 (src/tl/eth/common.c:235-242); on Windows the port cannot be chosen [C78_port_fails, C78_shown_fails, C78_windows_fails].
59. A CAN interface name of 16 characters or more overruns a stack array, of 64 or more the options
    (src/tl/can/linux_socket_can.c:69, src/hw/options.c:169) [C78_can_fails].
60. **No measurement survives five events (C83).** Whatever the plan, the fifth event at the latest makes `XcpDaq_Enqueue` write behind the packet queue (`C83_fails`, for all plans and histories); C34 is the cause.
61. **A TCP client can shut itself out (C84).** An empty packet (length 0) before CONNECT or after DISCONNECT makes `XcpTl_RxHandler` return to `accept` without closing the socket (common.c:173-175, 190-216); the client is never served again.
62. **UDP: everybody is served (C85).** The POSIX receiver never calls a check of the sender; a stranger's DISCONNECT or DOWNLOAD is executed and answered to the connected tool, and a header of one sender is joined with the data of another.
63. **UDP over IPv6 does not work (C85).** `from_len = sizeof(&...)` (common.c:85, 120) is the size of a pointer; `recvfrom` cuts the address after eight bytes, and the answers go to `::`. The variable is moreover a `uint16_t` handed over as `socklen_t *`.
64. **GET_STATUS never reports a running measurement (C86).** The session status byte is the constant 0 (src/xcp.c:1056), so the DAQ_RUNNING bit is never set; a tool that polls it thinks the measurement has stopped.
65. **A question about one list spoils the packets of another (C87).** `XcpDaq_GetListConfiguration` returns a pointer to one static variable. GET_DAQ_LIST_INFO (src/xcp.c:1774), START_STOP_DAQ_LIST, SET_DAQ_PTR and WRITE_DAQ overwrite it while another thread is in `XcpDaq_TriggerEvent`, which has no lock. The event then has too few packets, or elements of the other list, or ends in an assertion.
66. **Elements are read byte by byte without a lock (C87).** An element of two or four bytes can be half old and half new.
67. **The length of an element is read again after it was checked (C87).** A tool that stops a measurement and writes a longer element while the last event is processed makes the slave copy beyond the packet.
68. **The display of the DAQ lists hides or invents ODTs (C88).** `XcpDaq_PrintDAQDetails` keeps a pointer to the static list configuration and then calls `XcpDaq_GetFirstPid`, which overwrites it with the list before (src/hw/terminal.c:320, 323). A list with ODTs behind one without is shown empty; a list without ODTs behind one with is shown with an ODT #0 that does not exist.
69. **Keys typed quickly are lost (C88).** `getch` in src/hw/terminal.c:171-186 reads up to 256 bytes but accepts only a single one.
70. **Background checksums race with the commands (C89).** `Xcp_StartChecksumCalculation` sets the state of the job before its address and size, without a lock the main function would take (src/xcp_checksum.c:345-347): the main function can start with the address of the job before, 0 after start-up (`C89_fails_start`, `C89_fails`).  `Xcp_ChecksumMainFunction` frees the slave and sends the answer before it sets the job to idle (lines 384-386): a BUILD_CHECKSUM in between passes the busy test, is not started, and is never answered (`C89_fails_lost`).
71. **A configuration without entries passes the check (C90).** `XcpDaq_ValidateConfiguration` compares three counters with 0 and never looks at entries (src/xcp_daq.c:392-404).
72. **The simulator crashes when it ends (C52).** `FlsEmu_DeInit` flushes segments that were never opened: `persistentArray` is null (flsemu/posix/flsemu.c:87; `C52_fails_deinit`, `C102_fails_flash`).
73. **Block uploads race with the main function (C91).** `Xcp_Upload` sets the transfer active and then calls `Xcp_UploadSingleBlock`, which the main function's thread may execute at the same time, without a lock (src/xcp.c:706-711, 914-937).  The counter falls below 0 and memory behind the block is sent (`C91_fails_twice`), more bytes than the buffer has are copied into it (`C91_fails_overflow`), an answer ERR_CMD_BUSY replaces a block (`C91_fails_mixed`), and an upload stays incomplete (`C91_fails_lost`).  Line 708 tests the address of `Xcp_SlaveBlockTransferIsActive` instead of calling it; harmless, as line 876 tests again.
74. **Two of the project's tests rely on accesses that are wrong (C92).** `test_daq_queue_enq_deq_with_wraparound` passes only because the fifth packet, stored behind the array `XcpDaq_QueueDTOs`, hits memory nobody checks (`C92_fails_wraparound`).  `test_free_ok4` and the commented-out `test_hy_alloc_odt_entities` allocate entries in an ODT that does not exist and expect success; the call changes another list (`C92_fails_numbers`).
75. **The Windows transport layer takes each receive for one packet (C93).** `XcpTl_Feed` (src/tl/eth/wineth_iocp.c:474-494) executes the packet at the start of the buffer and forgets the rest; it does not compare the length in the header with the number of bytes received.  Two packets in one TCP segment or UDP datagram: the second is lost (`C93_fails_joined`).  A packet in two segments: both pieces are executed as packets, with contents left in the buffer by earlier ones (`C93_fails_pieces`).
76. **Serial receiver waits for its uptime.** The pause after which a broken packet is dropped is compared with the time of the last octet and not with 100 ms: after an hour of operation the receiver recovers from a lost octet only after another hour of silence, and in the first milliseconds every pause between octets drops the packet (`C95_fails_stuck`, `C95_fails_early`).
77. **One key for two resources.** Requests for seeds add up: after GET_SEED for calibration and GET_SEED for measurement a single accepted key unlocks both (`C96_fails_seeds`); the hook is passed both bits at once.
78. `Xcp_GetDaqEventInfo_Res` compares the event number with the number of channels cut to a byte: a build with 256 channels refuses all of them, while `Xcp_GetDaqProcessorInfo_Res` reports 256 and `Xcp_SetDaqListMode_Res` accepts them (C61).
79. **recv errors.** `XcpTl_ReadHeader` keeps the result of recv in a `uint8_t`, so that -1 counts as 255 bytes and the error is never seen: with a connection that was reset the loop spins, and at the 252nd failure the header is read behind its buffer (`C49_fails_errors`); in the middle of a packet old buffer contents are executed after enough failures (`C49_fails_data_errors`).
80. **Windows: views that move.** `FlsEmu_MemoryMapper` reads the pointer before `FlsEmu_SelectPage` maps the page anew; if Windows places the view elsewhere, the address handed out is the old one (`C99_fails_moved`).
81. **Windows: failed views.** If a page cannot be mapped, the address is reported as mapped all the same, the handle is closed, and no later selection maps a page again (`C99_fails_refused`, `C99_fails_for_ever`).
82. **Windows: noted page.** `persistentArray->currentPage` is compared, but `segment->currentPage` is written, and the open does not set the former: the page with the number that `malloc` left there cannot be selected (`C99_fails_back`, `C100_fails_noted`).
83. **POSIX: short files.** An existing file that is shorter than the segment is mapped without being made longer: the open succeeds and accesses behind the end of the file are bus errors (`C100_fails_short`).
84. **Windows: handle leak.** `FlsEmu_OpenCreatePersitentArray` does not close the file if the mapping fails (`C100_fails_leak`).
85. **POSIX: quitting.** `XcpThrd_RunThreads` sends SIGINT to threads of its own process, for which no handler is installed: on POSIX systems quitting kills the program before `FlsEmu_DeInit`, `XcpHw_Deinit` and `XcpTl_DeInit`, and the terminal stays in raw mode (`C102_fails_posix`).
86. **POSIX: cancellation.** `XcpThrd_EnableAsyncCancellation` disables cancellation, so that `pthread_cancel` of the transport layer has no effect on Ethernet (Model/Process).
87. **Windows: quitting.** `Xcp_Thread` is neither asked to end nor awaited: the flash memory is unmapped and the locks are deleted while it runs (`C102_fails_windows`).
88. **POSIX: affinity.** `XcpThrd_CreateThread` passes the address of the thread id, not the id, to `XcpThrd_SetAffinity` (not modelled).
89. **Linux: refused sockets.** After a failed `bind` (port in use) `XcpTl_Init` only returns: `boundSocket` stays 0 (standard input), `accept` fails, `recv` on socket -1 fails, its result -1 counts as 255 bytes, and after 252 rounds the header is read outside of its buffer (`C103_fails_linux`).
90. **SO_REUSEADDR after bind.** The option is set when the socket is bound already, so that restarting the slave fails while old connections linger (`C103_fails_reuse`). `setsockopt` is given the address of one `char` and the size of an `int` (not modelled).
91. **SocketCAN: unchecked calls.** The result of `bind` is not looked at (the socket is compared with -1 once more), nor that of setting the filters: the slave then hears nothing, or executes every frame on the bus (`C103_fails_can`).
92. **Lists above 255 are assigned as another list (C105).** `XcpDaq_ListForEvent` (src/xcp_daq.c:146) is an array of `uint8_t` although list numbers are 16 bits wide in a pool of 256 elements or more: SET_DAQ_LIST_MODE for list 256 is accepted and the event measures list 0.
93. **PIDs repeat with more than 256 ODTs (C105).** First PIDs are computed as wide as ODT numbers, but `Xcp_Send8` and the packets carry a byte; nothing limits the number of ODTs to the 252 PIDs XCP has.
94. **`XcpDaq_ValidateList` can loop forever (C105).** Its loop variable is a `uint8_t` (src/xcp_daq.c:435) while the number of ODTs has 16 bits in larger pools; two ALLOC_ODT requests for one list reach 256.
95. **Unsigned underflow in the checks of large pools (C105).** With 65536 elements or more `numOdts - 1` is computed in `unsigned int`; for a count of 0 every number passes. SET_DAQ_PTR is accepted with nothing allocated and WRITE_DAQ overwrites the list itself.
96. **`firstOdt` keeps 16 bits (C105).** With more than 65536 elements the index of the first ODT is cut and ALLOC_ODT_ENTRY overwrites another element.
97. **The timer of `XcpHw_Init` can interrupt the receiver (C106).** On Linux a timer sends a signal every second, with a handler installed without `SA_RESTART` (src/hw/linux/hw.c:204) and unblocked in every thread. POSIX leaves open which thread handles it. If it is the one blocked in `recv`, the result -1 is taken for 255 bytes and the next data are stored outside of the header buffer; in the middle of a packet one byte is lost and the stream is out of step. The SocketCAN layer aborts the process.
98. **The macOS port ends by itself (C106).** The demonstration timers of `XcpHw_Init` (src/hw/macos/hw.c:108-157) count to 20 and then call `exit(0)`: 3.6 seconds after the start.
99. **The Seeed shield goes deaf (C107).** The interrupt is attached to the falling edge (src/tl/can/arduino_can.cpp:81), and `on_receive` reads one message. If a second message is in the controller by then, its line stays low, no edge follows, and nothing is received any more.
100. **Filters 2 to 5 of the MCP2515 are not set (C107).** Mask 1 applies to them, not to filter 1, so `XcpTl_Init` gives the broadcast identifier a mask that has no effect on it, and whatever filters 2 to 5 contain is accepted: with the library's zeros, messages with identifier 0 are executed as commands (`on_receive` does not look at the identifier).
101. **Identifiers of different kinds on the Seeed shield (C107).** Filter 1 (broadcast) is used with the mask of the inbound identifier: with an extended inbound and a standard broadcast identifier, broadcasts pass only if their first two bytes are 0; the other way round every extended message with the same upper 11 bits passes.
102. **Torn packets on the Arduino (C108).** `XcpTl_MainFunction` clears `XcpTl_FrameReceived` and then copies `XcpTl_Buffer` with interrupts enabled (src/tl/can/arduino_can.cpp:125-130, 172). A message that arrives in between overwrites the buffer: the slave executes a packet that nobody sent, e.g. SET_MTA with half of each address, and then the second message once more in full. The MKR variant accepts every identifier, so any traffic on the bus can do it.
103. **A NaN calibrated once stays (C109).** `environment`, `plant` and `controller` keep their state in static variables and limit it with `<` and `>` (examples/xcpsim/appl1.c:51-56, 76, 92-97). Comparisons with NaN are false, so a NaN written to `prmStepSize` or `prmSetpoint` for one call makes the state NaN until the program ends.
104. **`AppTask` is never called (C109).** examples/xcpsim/main.c:37 only declares it; the values a master measures of this application never change.
105. **Clearing the queue writes outside of it (C110).** `XcpDaq_QueueInit` clears each slot with `sizeof(Xcp_PduType)` (src/xcp_daq.c:710-718), but a slot is an `XcpDaq_OdtType` of 1 + XCP_MAX_DTO bytes. With pointers of 8 bytes that is 16 against 9 on CAN: on a 64-bit host each initialisation writes 7 zero bytes behind the queue. With larger DTOs only the beginning of each slot is cleared.
106. **The Arduino sketch does not compile.** `loop` uses `triangle`, `square0`, `square1` and `sin0`, whose definitions are between `#if 0` and `#endif` (tools/arduino/hello_xcp/hello_xcp.ino:178-183, 190-196). The classes `Observers` and `Queue` are defined nowhere in the project. `AbstractWave` has a deleted constructor without parameters beside one whose parameters all have defaults (lines 42-49). Its copy of the slave, tools/arduino/hello_xcp/xcp.h, differs from src in two functions: `XcpDaq_TriggerEvent` declares `data[k]` with an undeclared `k` (line 5061), and the serial receiver resets the length before it hands it over (lines 5636-5641), which has no effect because nobody looks at it (C57_length_ignored).
107. **Shutting down the completion port.** `XcpTl_DeInit` of src/tl/eth/wineth_iocp.c closes the port right after posting the quit message: a worker that is busy never gets it and prints errors for ever (C114_fails_busy). The acceptor spins on `xcpConnected` after a second client connected, and never ends (C114_fails_spin). With UDP the handle of the acceptor is null, so `WaitForMultipleObjects` fails at once and the worker may still run (C114_fails_udp). Not modelled: `WSARecvFrom` gets the address of the local variable `addrLen` (lines 446, 460-464), which the system writes when the receive completes, long after `XcpTl_TriggerRecv` has returned.
108. **The Arduino sketch.** `loop` sets `startTime` to the current time instead of adding 10 ms, so the event announced as "EVT 10ms" comes late and never catches up (C115_fails_period). The calibration parameters `triangle_min` and `triangle_max` (hello_xcp.ino:35-36) are not used: writing them over XCP changes nothing. `Queue` and `Observers` are defined nowhere in the repository.
109. **Documented options without effect.** docs/options.rst documents XCP_DAQ_DTO_BUFFER_SIZE, XCP_DAQ_LIST_TYPE, XCP_DAQ_ODT_TYPE and XCP_DAQ_ODT_ENTRY_TYPE, which no file of src, inc or flsemu uses; the queue has a fixed size (finding 2). XCP_DAQ_ENABLE_WRITE_THROUGH only gets a default (inc/xcp.h:237-239): DTO buffering cannot be switched off. No theorem: the model has no such options.
110. **CRC_32 misses changes.** Besides giving wrong values (C41), CRC_32 loses the protection it is chosen for: to every change of a byte there is a change of the next byte that leaves the checksum as it was, wherever in the block (C116_fails_crc32). On the pattern of tests/test_checksum.py the other eight methods give the values printed in the XCP standard.
111. **Three things outlive a session.** `Xcp_Disconnect` resets protection and data acquisition but not the MTA, not an unfinished block download and not the mode bits of the DAQ lists. An UPLOAD without SET_MTA reads where the master before left off, a DOWNLOAD_NEXT finishes that master's block download, and DAQ packets can carry time stamps nobody in the session asked for (C117_fails_mta, C117_fails_download, C117_fails_mode). Nothing else is carried over (C117_restarted).
112. **CLEAR_DAQ_LIST does nothing.** It is acknowledged, but no later history can tell whether it was sent (C118_clear). A master that clears a list to reuse it goes on measuring the old entries.
113. **SHORT_UPLOAD and SHORT_DOWNLOAD cannot be repeated, MODIFY_BITS can.** The first two bring their address along, so sending them again ought to be harmless. But SHORT_UPLOAD asks the access check about the MTA, which the first one moved, and SHORT_DOWNLOAD advances the old MTA each time. MODIFY_BITS can be repeated only because it does not toggle bits (C46). DISCONNECT can be repeated because it does not disconnect (C119_iff).
114. **No command ends a runaway checksum.** BUILD_CHECKSUM over more than one and less than two chunks keeps the slave busy for about 2^32/chunk calls of `Xcp_MainFunction` (C120_checksum). Until then CONNECT, SYNCH and DISCONNECT are refused as busy and `Xcp_Disconnect` does not stop the job either (C120_still_busy).
115. **SYNCH does not resynchronise a busy slave, and UNLOCK cannot be retried.** While a background checksum or a block upload runs, SYNCH is answered with ERR_CMD_BUSY instead of ERR_CMD_SYNCH. If the answer to UNLOCK is lost, the retry prescribed by the standard (SYNCH, GET_SEED, UNLOCK) gets an empty seed and then ERR_SEQUENCE, although the resource is unlocked (C121_fails).

## 8. Tests against wrong programs

`seeded/LOG.jsonl` has one line per edit of the model: what was edited, the claim it
breaks, the theorems that no longer prove, and the theorems tightened because
they still did.
