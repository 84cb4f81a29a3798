import Verif.Props.C01_Transport
import Verif.Props.C02_Size
import Verif.Props.C03_Silent
import Verif.Props.C04_Connect
import Verif.Props.C05_ByteOrder
import Verif.Props.C06_Busy
import Verif.Props.C07_OneResponse
import Verif.Props.C08_Unknown
import Verif.Props.C09_Disconnect
import Verif.Props.C100_Storage
import Verif.Props.C101_BlocksLive
import Verif.Props.C102_Quit
import Verif.Props.C103_Setup
import Verif.Props.C104_Wire
import Verif.Props.C105_Pools
import Verif.Props.C106_Startup
import Verif.Props.C107_Shield
import Verif.Props.C108_Torn
import Verif.Props.C109_Plant
import Verif.Props.C10_Upload
import Verif.Props.C110_QueueInit
import Verif.Props.C111_Sketch
import Verif.Props.C112_Calm
import Verif.Props.C113_WindowsLocks
import Verif.Props.C114_IocpEnd
import Verif.Props.C115_Waves
import Verif.Props.C116_Detect
import Verif.Props.C117_Session
import Verif.Props.C118_Queries
import Verif.Props.C119_Again
import Verif.Props.C11_BlockUpload
import Verif.Props.C120_ReadyAgain
import Verif.Props.C121_Retry
import Verif.Props.C121_RetryDaq
import Verif.Props.C122_Measuring
import Verif.Props.C12_Download
import Verif.Props.C13_BlockDownload
import Verif.Props.C14_Short
import Verif.Props.C15_ReadHook
import Verif.Props.C16_WriteHook
import Verif.Props.C17_LockedCal
import Verif.Props.C18_LockedDaq
import Verif.Props.C19_LockedPgm
import Verif.Props.C20_Unlock
import Verif.Props.C21_WrongKey
import Verif.Props.C22_Status
import Verif.Props.C23_PgmActive
import Verif.Props.C24_PgmSequence
import Verif.Props.C25_Program
import Verif.Props.C26_Running
import Verif.Props.C27_AllocSequence
import Verif.Props.C28_Pool
import Verif.Props.C29_Layout
import Verif.Props.C30_SetDaqPtr
import Verif.Props.C31_WriteDaq
import Verif.Props.C32_FirstPid
import Verif.Props.C33_Dto
import Verif.Props.C34_Queue
import Verif.Props.C35_StartStop
import Verif.Props.C36_Unassigned
import Verif.Props.C37_Modes
import Verif.Props.C38_Clear
import Verif.Props.C39_Citt
import Verif.Props.C40_Crc16
import Verif.Props.C41_Crc32
import Verif.Props.C42_Add
import Verif.Props.C43_Background
import Verif.Props.C44_BuildChecksum
import Verif.Props.C45_Params
import Verif.Props.C46_ModifyBits
import Verif.Props.C47_Serial
import Verif.Props.C48_Timeout
import Verif.Props.C49_Ethernet
import Verif.Props.C50_Util
import Verif.Props.C51_Itoa
import Verif.Props.C52_Fls
import Verif.Props.C53_Covered
import Verif.Props.C53_Locks
import Verif.Props.C54_Special
import Verif.Props.C55_GetId
import Verif.Props.C56_Statistics
import Verif.Props.C57_Received
import Verif.Props.C58_OnlyDownloads
import Verif.Props.C59_Pid
import Verif.Props.C60_NoFault
import Verif.Props.C61_Info
import Verif.Props.C62_Clock
import Verif.Props.C63_Can
import Verif.Props.C64_Selection
import Verif.Props.C65_TlCmd
import Verif.Props.C66_Arduino
import Verif.Props.C67_Tcp
import Verif.Props.C68_Windows
import Verif.Props.C69_Limits
import Verif.Props.C70_PredefModes
import Verif.Props.C71_PredefWrite
import Verif.Props.C72_PredefSample
import Verif.Props.C73_PredefInfo
import Verif.Props.C74_PredefSession
import Verif.Props.C75_CanTx
import Verif.Props.C76_SeedKey
import Verif.Props.C77_Threads
import Verif.Props.C78_Options
import Verif.Props.C79_Remote
import Verif.Props.C80_EndToEnd
import Verif.Props.C81_CanSession
import Verif.Props.C82_SerialSession
import Verif.Props.C83_Measurement
import Verif.Props.C84_Clients
import Verif.Props.C85_Udp
import Verif.Props.C86_Live
import Verif.Props.C87_Sampling
import Verif.Props.C88_Terminal
import Verif.Props.C89_Jobs
import Verif.Props.C90_Validate
import Verif.Props.C91_Blocks
import Verif.Props.C92_Tests
import Verif.Props.C93_WindowsSessions
import Verif.Props.C94_Transparent
import Verif.Props.C95_Polled
import Verif.Props.C96_Guarded
import Verif.Props.C97_PredefGates
import Verif.Props.C98_BlockSessions
import Verif.Props.C99_FlsWin
