import Verif.Model.Std
/-
The background checksum while commands and main function run in different threads (`Xcp_Thread` and `XcpTl_Thread`,
src/hw/threads.c:96-115, 125-131), one access to the shared variables at a time.  Only on Windows the threads get
that far: with the POSIX locks `Xcp_StartChecksumCalculation` waits for itself (C53).
-/
set_option autoImplicit false
namespace Xcp

/-- Where `Xcp_ChecksumMainFunction` (src/xcp_checksum.c:356-388) stands.  `st` is the state it has read.
Simplification: it reads the state once (the code up to three times; nobody but itself changes a state other than
`idle`); an update such as `size -= n` is one access. -/
inductive MainPc where
  /-- before reading the state, lines 357-377 -/
  | poll
  /-- before `interimChecksum = Xcp_CalculateChecksum(…)`, lines 360, 367, 380 -/
  | sum (st : CkState)
  /-- before `size -= XCP_CHECKSUM_CHUNK_SIZE`, lines 363, 372 -/
  | size (st : CkState)
  /-- before `mta.address += XCP_CHECKSUM_CHUNK_SIZE`, lines 364, 373 -/
  | addr (st : CkState)
  /-- before the new state is set, lines 365, 374-376 -/
  | next (st : CkState)
  /-- before `Xcp_SetBusy(XCP_FALSE)`, line 384 -/
  | free
  /-- before `Xcp_SendChecksumPositiveResponse`, line 385 -/
  | send
  /-- before `state = XCP_CHECKSUM_STATE_IDLE`, line 386 -/
  | last
deriving DecidableEq, Repr

/-- Where the thread that executes commands stands: between two packets, or in `Xcp_StartChecksumCalculation`
(src/xcp_checksum.c:338-350) for `n` bytes at `a`. -/
inductive CmdPc where
  | wait
  /-- before the test, line 340 -/
  | test (a : UInt32) (n : Nat)
  /-- before `Xcp_SetBusy(XCP_TRUE)`, line 344; the lock is held from here on -/
  | busy (a : UInt32) (n : Nat)
  /-- before the state is set, line 345 -/
  | state (a : UInt32) (n : Nat)
  /-- before the address is stored, line 347 -/
  | addr (a : UInt32) (n : Nat)
  /-- before the size is stored, line 348 -/
  | size (a : UInt32) (n : Nat)
deriving DecidableEq, Repr

/-- The command thread is inside of the critical section. -/
def CmdPc.holds : CmdPc → Bool
  | .wait | .test .. => false
  | _ => true

/-- Packets received: BUILD_CHECKSUM of more than one chunk (`n` bytes at the MTA `a`), and any other command that is
answered at once. -/
inductive JobReq where
  | build (a : UInt32) (n : Nat)
  | other
deriving DecidableEq, Repr

/-- Answers sent: ERR_CMD_BUSY, the answer of another command, a checksum. -/
inductive JobAns where
  | busy
  | other
  | value (v : Nat)
deriving DecidableEq, Repr

/-- Both threads and what they share.  `taken` keeps the requests for checksums that were not answered with
ERR_CMD_BUSY.  Simplifications: the memory does not change meanwhile; a packet is sent at once (see Conc). -/
structure JobSys where
  mem : Mem
  busy : Bool
  job : CkJob
  main : MainPc
  cmd : CmdPc
  todo : List JobReq
  taken : List (UInt32 × Nat)
  out : List JobAns

/-- After start-up (`Xcp_ChecksumInit`, src/xcp_checksum.c:330-336) and CONNECT, with packets `todo` to come. -/
def JobSys.init (mem : Mem) (todo : List JobReq) : JobSys :=
  { mem, busy := false, job := ⟨.idle, 0, 0, 0⟩, main := .poll, cmd := .wait, todo, taken := [], out := [] }

/-- The next access of the thread that calls `Xcp_MainFunction` (src/xcp_checksum.c:356-388).  `Xcp_SetBusy`
(src/xcp.c:2223-2227) waits for the lock. -/
def JobSys.mainStep (cfg : Cfg) (x : JobSys) : JobSys :=
  match x.main with
  | .poll => if x.job.state = .idle then x else { x with main := .sum x.job.state }
  | .sum .initial =>
    { x with main := .size .initial
             job := { x.job with interim := calcChecksum cfg.ckMethod (x.mem.read x.job.addr cfg.chunkSize) 0 true } }
  | .sum .final =>
    { x with main := .free
             job := { x.job with interim := calcChecksum cfg.ckMethod (x.mem.read x.job.addr x.job.size) x.job.interim false } }
  | .sum st =>
    { x with main := .size st
             job := { x.job with interim := calcChecksum cfg.ckMethod (x.mem.read x.job.addr cfg.chunkSize) x.job.interim false } }
  | .size st => { x with main := .addr st, job := { x.job with size := sub32 x.job.size cfg.chunkSize } }
  | .addr st => { x with main := .next st, job := { x.job with addr := x.job.addr + UInt32.ofNat cfg.chunkSize } }
  | .next .initial => { x with main := .poll, job := { x.job with state := .remaining } }
  | .next _ => { x with main := .poll, job := { x.job with state := if x.job.size ≤ cfg.chunkSize then .final else x.job.state } }
  | .free => if x.cmd.holds then x else { x with main := .send, busy := false }
  | .send => { x with main := .last, out := x.out ++ [.value x.job.interim] }
  | .last => { x with main := .poll, job := { x.job with state := .idle } }

/-- The next access of the thread that executes commands: `Xcp_DispatchCommand` src/xcp.c:942-971,
`Xcp_BuildChecksum_Res` src/xcp.c:1311-1342 (the call of line 1339), `Xcp_StartChecksumCalculation`
src/xcp_checksum.c:338-350. -/
def JobSys.cmdStep (x : JobSys) : JobSys :=
  match x.cmd with
  | .wait =>
    match x.todo with
    | [] => x
    | r :: rest =>
      if x.busy then { x with todo := rest, out := x.out ++ [.busy] }
      else match r with
        | .other => { x with todo := rest, out := x.out ++ [.other] }
        | .build a n => { x with todo := rest, cmd := .test a n, taken := x.taken ++ [(a, n)] }
  | .test a n => if x.job.state ≠ .idle ∨ x.busy then { x with cmd := .wait } else { x with cmd := .busy a n }
  | .busy a n => { x with cmd := .state a n, busy := true }
  | .state a n => { x with cmd := .addr a n, job := { x.job with state := .initial } }
  | .addr a n => { x with cmd := .size a n, job := { x.job with addr := a } }
  | .size _ n => { x with cmd := .wait, job := { x.job with size := n } }

/-- The threads. -/
inductive JobThread where
  | main | cmd
deriving DecidableEq, Repr

def JobSys.step (cfg : Cfg) (x : JobSys) : JobThread → JobSys
  | .main => x.mainStep cfg
  | .cmd => x.cmdStep

/-- A schedule: which thread makes the next access. -/
def JobSys.run (cfg : Cfg) (x : JobSys) (sched : List JobThread) : JobSys := sched.foldl (JobSys.step cfg) x

end Xcp
