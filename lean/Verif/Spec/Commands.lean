import Verif.Model.Cfg
/-
The command codes of the XCP standard (ASAM MCD-1 XCP part 2), independent of the jump
table of the code.
-/
set_option autoImplicit false
namespace Xcp.Spec

/-- The command code of each command. -/
def cmdCode : Cmd → UInt8
  | .connect => 0xFF
  | .disconnect => 0xFE
  | .getStatus => 0xFD
  | .synch => 0xFC
  | .getCommModeInfo => 0xFB
  | .getId => 0xFA
  | .setRequest => 0xF9
  | .getSeed => 0xF8
  | .unlock => 0xF7
  | .setMta => 0xF6
  | .upload => 0xF5
  | .shortUpload => 0xF4
  | .buildChecksum => 0xF3
  | .transportLayerCmd => 0xF2
  | .userCmd => 0xF1
  | .download => 0xF0
  | .downloadNext => 0xEF
  | .downloadMax => 0xEE
  | .shortDownload => 0xED
  | .modifyBits => 0xEC
  | .setCalPage => 0xEB
  | .getCalPage => 0xEA
  | .getPagProcessorInfo => 0xE9
  | .getSegmentInfo => 0xE8
  | .getPageInfo => 0xE7
  | .setSegmentMode => 0xE6
  | .getSegmentMode => 0xE5
  | .copyCalPage => 0xE4
  | .clearDaqList => 0xE3
  | .setDaqPtr => 0xE2
  | .writeDaq => 0xE1
  | .setDaqListMode => 0xE0
  | .getDaqListMode => 0xDF
  | .startStopDaqList => 0xDE
  | .startStopSynch => 0xDD
  | .getDaqClock => 0xDC
  | .readDaq => 0xDB
  | .getDaqProcessorInfo => 0xDA
  | .getDaqResolutionInfo => 0xD9
  | .getDaqListInfo => 0xD8
  | .getDaqEventInfo => 0xD7
  | .freeDaq => 0xD6
  | .allocDaq => 0xD5
  | .allocOdt => 0xD4
  | .allocOdtEntry => 0xD3
  | .programStart => 0xD2
  | .programClear => 0xD1
  | .program => 0xD0
  | .programReset => 0xCF
  | .getPgmProcessorInfo => 0xCE
  | .getSectorInfo => 0xCD
  | .programPrepare => 0xCC
  | .programFormat => 0xCB
  | .programNext => 0xCA
  | .programMax => 0xC9
  | .programVerify => 0xC8
  | .writeDaqMultiple => 0xC7

end Xcp.Spec
