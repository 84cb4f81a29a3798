import Verif.Model.Base
/-
The simulator as a process: its threads, and how it ends when the user quits (src/hw/threads.c, examples/xcpsim/main.c).
-/
set_option autoImplicit false
namespace Xcp

/-- The system the simulator is built for. -/
inductive Os where
  | posix | windows
deriving DecidableEq, Repr

/-- What is done at the end: `FlsEmu_DeInit` (flsemu/common.c:83-91), `XcpHw_Deinit` (src/hw/posix/hw.c:96-101, src/hw/win/hw.c:129-131),
`XcpTl_DeInit` (src/tl/eth/linuxeth.c:118-120, src/tl/eth/wineth.c:173-176, src/tl/can/linux_socket_can.c:126-128), and the handlers
registered with `atexit`: `bye` (src/hw/threads.c:173-175) and `reset_terminal_mode` (src/hw/terminal.c:135-137). -/
inductive Undo where
  | flash | locks | transport | goodbye | terminal
deriving DecidableEq, Repr

/-- How the process ends: with an exit status, by the signal SIGINT, with an invalid memory access. -/
inductive Ending where
  | code (n : Nat)
  | interrupt
  | violation
deriving DecidableEq, Repr

/-- What the main thread does after the threads are started: `XcpThrd_RunThreads` src/hw/threads.c:107-116, then
examples/xcpsim/main.c:45-48. -/
inductive MainAct where
  /-- `pthread_join`/`WaitForSingleObject` for the user interface -/
  | join
  /-- `XcpThrd_ShutDown`, src/hw/threads.c:147-167 -/
  | shutDown
  /-- `pthread_kill(threads[TL_THREAD], SIGINT)` -/
  | killTl
  /-- `pthread_kill(threads[XCP_THREAD], SIGINT)` -/
  | killXcp
  | undo (u : Undo)
  /-- `return 0` from `main` -/
  | leave
deriving DecidableEq, Repr

/-- The actions of the main thread, src/hw/threads.c:107-116 and examples/xcpsim/main.c:45-48. -/
def mainActs : Os → List MainAct
  | .posix => [.join, .shutDown, .killTl, .killXcp, .undo .flash, .undo .locks, .undo .transport, .leave]
  | .windows => [.join, .shutDown, .undo .flash, .undo .locks, .undo .transport, .leave]

/-- The thread of the user interface: before `set_raw_terminal_mode` (src/hw/terminal.c:191), in its loop, after `XcpThrd_Exit`. -/
inductive UiPc where
  | fresh | loop | left
deriving DecidableEq, Repr

/-- The process.  `job`: the accesses that `Xcp_Thread` still has to make to the flash memory, for a checksum or a block under way.
`cancel`: the thread of the transport layer can be cancelled (it can on CAN; on Ethernet it calls `XcpThrd_EnableAsyncCancellation`
(src/hw/threads.c:134-145), which disables that); `asked`: it was asked for.  Simplification: other jobs of the threads, and new packets, are
left out, as is `XcpThrd_SetAffinity`; `TerminateThread` and `pthread_cancel` succeed.  `opened`: the segments of the flash memory were
opened (`FlsEmu_Init` of this version does not, C52). -/
structure Proc where
  os : Os
  opened : Bool
  acts : List MainAct
  ui : UiPc
  tl : Bool
  cancel : Bool
  asked : Bool
  shutting : Bool
  job : Nat
  raw : Bool
  handlers : List Undo
  mapped : Bool
  undone : List Undo
  ended : Option Ending
deriving DecidableEq, Repr

/-- After the threads are started, src/hw/threads.c:102-106; `bye` is registered before.  `raw`: the mode of the terminal. -/
def Proc.start (os : Os) (cancel : Bool) (job : Nat) (opened : Bool) : Proc :=
  { os, opened, acts := mainActs os, ui := .fresh, tl := true, cancel, asked := false, shutting := false, job, raw := false, handlers := [.goodbye],
    mapped := true, undone := [], ended := none }

/-- One of the actions that undo the initialisation.  -/
def Proc.undo (p : Proc) (u : Undo) : Proc :=
  { p with
    undone := p.undone ++ [u]
    mapped := p.mapped && u != .flash
    raw := p.raw && u != .terminal }

/-- `exit`, C11 7.22.4.4: the handlers are called in reverse order of their registration. -/
def Proc.exit (p : Proc) (n : Nat) : Proc := { p.handlers.foldr (fun u q => q.undo u) p with ended := some (.code n) }

/-- One action of the main thread.  No handler for SIGINT is installed (src/hw/linux/hw.c:179-185), so that the signal ends the process;
Linux does that as soon as the signal is sent.  A signal to a thread that has ended does nothing.  `FlsEmu_DeInit` of segments
that are not open dereferences a null pointer (flsemu/posix/flsemu.c:87, flsemu/win/flsemu.c:104). -/
def Proc.act (p : Proc) : MainAct → Proc
  | .join => p
  | .shutDown =>
    if p.shutting then p
    else { p with tl := p.tl && p.os != .windows, asked := p.asked || p.os != .windows, shutting := true }
  | .killTl => if p.tl then { p with ended := some .interrupt } else p
  | .killXcp => { p with ended := some .interrupt }
  | .undo u => if u = .flash ∧ p.opened = false then { p with ended := some .violation } else p.undo u
  | .leave => p.exit 0

/-- The main thread. -/
def Proc.mainStep (p : Proc) : Proc :=
  match p.acts with
  | [] => p
  | .join :: as => if p.ui = .left then { p with acts := as } else p
  | a :: as => { p.act a with acts := as }

/-- The user interface, src/hw/terminal.c:68-133 and 188-213; `quit`: the user presses q or ESC. -/
def Proc.uiStep (p : Proc) (quit : Bool) : Proc :=
  match p.ui with
  | .fresh =>
    match p.os with
    | .posix => { p with ui := .loop, raw := true, handlers := p.handlers ++ [.terminal] }
    | .windows => { p with ui := .loop }
  | .loop => if quit then { p with ui := .left } else p
  | .left => p

/-- The transport layer: it ends when it was cancelled and can be. -/
def Proc.tlStep (p : Proc) : Proc := if p.asked && p.cancel then { p with tl := false } else p

/-- `Xcp_Thread` (src/hw/threads.c:126-132) calls `Xcp_MainFunction` for ever. -/
def Proc.xcpStep (p : Proc) : Proc :=
  match p.job with
  | 0 => p
  | n + 1 => if p.mapped then { p with job := n } else { p with ended := some .violation }

/-- Who makes the next step. -/
inductive Who where
  | main
  | ui (quit : Bool)
  | tl
  | xcp
deriving DecidableEq, Repr

def Proc.step (p : Proc) (w : Who) : Proc :=
  if p.ended.isSome then p
  else match w with
    | .main => p.mainStep
    | .ui quit => p.uiStep quit
    | .tl => p.tlStep
    | .xcp => p.xcpStep

def Proc.run (p : Proc) (ws : List Who) : Proc := ws.foldl Proc.step p

end Xcp
