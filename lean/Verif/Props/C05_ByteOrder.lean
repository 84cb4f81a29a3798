import Verif.Proofs.Answer
import Verif.Props.C04_Connect
/-
C05: multi-byte response fields are sent in the announced byte order.

The property holds for Intel builds (`C05_*_partial`: the Motorola case is missing) and
fails for Motorola builds (`C05_fails_motorola`): every response is little-endian.
-/
set_option autoImplicit false
namespace Xcp
open Spec

/-- Value of a byte string in the byte order announced by bit 0 of COMM_MODE_BASIC. -/
def Spec.ordVal (motorola : Bool) (bs : List UInt8) : Nat :=
  leVal (if motorola then bs.reverse else bs)

theorem ordVal_le {m : Bool} (hm : m = false) (n v : Nat) : ordVal m (leBytes n v) = v % 256 ^ n := by
  subst hm; exact leVal_leBytes n v

/-- C05, MAX_DTO in the CONNECT response. -/
theorem C05_connect_partial {cfg : Cfg} (hs : ShortOk cfg) (hm : cfg.motorola = false) (env : Env) {s : St}
    (hb : s.busy = false) {p : Pdu} (hp : code p = some 0xFF) :
    ∃ (s' : St) (a b c : UInt8) (field : List UInt8), step cfg env s (.cmd p) = .ok s' ∧ field.length = 2 ∧
      Answers cfg s s' ([0xFF, a, b, c] ++ field ++ [1, 1]) ∧
      ordVal cfg.motorola field = cfg.maxDto % 65536 := by
  have hstep : step cfg env s (.cmd p) = connectRes cfg (bumpReceived cfg s) := by
    by_cases hc : s.connected
    · rw [step_cmd env hc hb hp (c := .connect) rfl]; rfl
    · simp [step, dispatch, byte_of_code hp, hc]
  exact ⟨_, _, _, _, leBytes 2 cfg.maxDto, hstep, leBytes_length .., send8_answers hs (by simp [leBytes_length]) (by simp),
    ordVal_le hm ..⟩

/-- C05, length in the GET_ID response. -/
theorem C05_getId_partial {cfg : Cfg} (hs : ShortOk cfg) (hm : cfg.motorola = false) (env : Env) {s : St}
    (hr : Ready s) (hsup : cfg.supports .getId = true) {p : Pdu} (hp : code p = some 0xFA) {ty : UInt8}
    (hty : p.buf[1]? = some ty) {a : UInt32} {n : Nat} (hn : n < 2 ^ 32)
    (hid : (if ty = 0 then some cfg.id0 else if ty = 1 then some cfg.id1
      else if cfg.getIdHook then env.getId ty else none) = some (a, n)) :
    ∃ (s' : St) (field : List UInt8), step cfg env s (.cmd p) = .ok s' ∧ field.length = 4 ∧
      Answers cfg s s' ([0xFF, 0, 0, 0] ++ field) ∧ ordVal cfg.motorola field = n := by
  refine ⟨send8 cfg { bumpReceived cfg s with mta := ⟨0, a⟩ } ([0xFF, 0, 0, 0] ++ leBytes 4 n),
    leBytes 4 n, ?_, leBytes_length .., ?_, ?_⟩
  · rw [hr.step env hp (c := .getId) rfl hsup]
    simp only [handler, getIdRes, byte_eq hty, ok_bind, getIdLookup, hid]
    rfl
  · exact send8_answers hs (by simp [leBytes_length]) (by simp)
  · rw [ordVal_le hm]; exact Nat.mod_eq_of_lt (by omega)

/-- C05, timestamp in the GET_DAQ_CLOCK response. -/
theorem C05_getDaqClock_partial {cfg : Cfg} (hs : ShortOk cfg) (hm : cfg.motorola = false) (env : Env) {s : St}
    (hr : Ready s) (hsup : cfg.supports .getDaqClock = true) {p : Pdu} (hp : code p = some 0xDC)
    (hpg : s.pgm ≠ .active) (hul : isProtected cfg s RES_DAQ = false) :
    ∃ (s' : St) (field : List UInt8), step cfg env s (.cmd p) = .ok s' ∧ field.length = 4 ∧
      Answers cfg s s' ([0xFF, 0, 0, 0] ++ field) ∧ ordVal cfg.motorola field = env.timer.toNat := by
  refine ⟨send8 cfg (bumpReceived cfg s) ([0xFF, 0, 0, 0] ++ leBytes 4 env.timer.toNat),
    leBytes 4 env.timer.toNat, ?_, leBytes_length .., ?_, ?_⟩
  · rw [hr.step env hp (c := .getDaqClock) rfl hsup]
    have : isProtected cfg (bumpReceived cfg s) RES_DAQ = false := by simpa [isProtected] using hul
    simp [handler, getDaqClockRes, assertPgmIdle, hpg, assertUnlocked, this]
  · exact send8_answers hs (by simp [leBytes_length]) (by simp)
  · rw [ordVal_le hm]; exact Nat.mod_eq_of_lt (by have := env.timer.toNat_lt; omega)

/-- C05, counts in the GET_DAQ_PROCESSOR_INFO response. -/
theorem C05_getDaqProcessorInfo_partial {cfg : Cfg} (hs : ShortOk cfg) (hm : cfg.motorola = false) (env : Env)
    {s : St} (hr : Ready s) (hsup : cfg.supports .getDaqProcessorInfo = true) {p : Pdu}
    (hp : code p = some 0xDA) (hpg : s.pgm ≠ .active) (hul : isProtected cfg s RES_DAQ = false) :
    ∃ (s' : St) (props : UInt8) (f1 f2 : List UInt8), step cfg env s (.cmd p) = .ok s' ∧
      f1.length = 2 ∧ f2.length = 2 ∧
      Answers cfg s s' ([0xFF, props] ++ f1 ++ f2 ++ [0, 0]) ∧
      ordVal cfg.motorola f1 = s.daq.listCount % 65536 ∧
      ordVal cfg.motorola f2 = cfg.numEvents % 65536 := by
  refine ⟨send8 cfg (bumpReceived cfg s) ([0xFF, daqProperties cfg] ++ leBytes 2 s.daq.listCount ++
      leBytes 2 cfg.numEvents ++ [0, 0]), daqProperties cfg, leBytes 2 s.daq.listCount,
    leBytes 2 cfg.numEvents, ?_, leBytes_length .., leBytes_length .., ?_, ordVal_le hm .., ordVal_le hm ..⟩
  · rw [hr.step env hp (c := .getDaqProcessorInfo) rfl hsup]
    have : isProtected cfg (bumpReceived cfg s) RES_DAQ = false := by simpa [isProtected] using hul
    simp [handler, getDaqProcessorInfoRes, assertPgmIdle, hpg, assertUnlocked, this]
  · exact send8_answers hs (by simp [leBytes_length]) (by simp)

/-- C05, checksum in the response, when the background job ends (the direct response uses
the same function, see C43 and C44 for the values). -/
theorem C05_checksum_partial {cfg : Cfg} (hs : ShortOk cfg) (hm : cfg.motorola = false) {s : St} (c : Nat) :
    ∃ field : List UInt8, field.length = 4 ∧
      Answers cfg s (checksumResponse cfg s c) ([0xFF, cfg.ckMethod.code, 0, 0] ++ field) ∧
      ordVal cfg.motorola field = c % 2 ^ 32 :=
  ⟨leBytes 4 c, leBytes_length .., send8_answers hs (by simp [leBytes_length]) rfl, ordVal_le hm ..⟩

/-- C05 fails for every Motorola build: CONNECT announces Motorola byte order and sends
MAX_DTO with the least significant byte first. -/
theorem C05_fails_motorola {cfg : Cfg} (hs : ShortOk cfg) (hm : cfg.motorola = true) (hd : cfg.maxDto < 256)
    (hd0 : 0 < cfg.maxDto) (env : Env) {s : St} (hb : s.busy = false) {p : Pdu} (hp : code p = some 0xFF) :
    ∃ (s' : St) (a b c : UInt8) (field : List UInt8), step cfg env s (.cmd p) = .ok s' ∧ field.length = 2 ∧
      Answers cfg s s' ([0xFF, a, b, c] ++ field ++ [1, 1]) ∧ b &&& 1 = 1 ∧
      ordVal cfg.motorola field ≠ cfg.maxDto := by
  have hstep : step cfg env s (.cmd p) = connectRes cfg (bumpReceived cfg s) := by
    by_cases hc : s.connected
    · rw [step_cmd env hc hb hp (c := .connect) rfl]; rfl
    · simp [step, dispatch, byte_of_code hp, hc]
  refine ⟨_, _, commModeBasic cfg, _, leBytes 2 cfg.maxDto, hstep, leBytes_length ..,
    send8_answers hs (by simp [leBytes_length]) (by simp), ?_, ?_⟩
  · unfold commModeBasic
    have h1 : ∀ z : UInt8, 1 ||| (z &&& 1) = 1 := forall_u8 (by decide +kernel)
    simp only [hm, if_true, UInt8.or_assoc]
    rw [UInt8.and_comm, u8_and_or, UInt8.and_comm 1 (_ ||| _)]
    exact h1 _
  · rw [leBytes_two, hm]
    simp [ordVal, leVal]
    omega

/-- A Motorola build of the simulator announces Motorola (bit 0 of byte 2) and MAX_DTO
0x4000 instead of 0x0040; the timestamp is little-endian too. -/
theorem C05_fails_motorola_witness :
    Ex.frames { Ex.sim with motorola := true } [Ex.c [0xFF], Ex.c [0xDC]] =
      some [[8, 0, 0, 0, 0xFF, 0x15, 0x81, 64, 64, 0, 1, 1], [8, 0, 1, 0, 0xFF, 0, 0, 0, 0x78, 0x56, 0x34, 0x12]] := by
  decide +kernel

/-- The simulator itself is an Intel build and meets the hypotheses. -/
example : Ex.sim.motorola = false ∧ ShortOk Ex.sim ∧ Ex.frames Ex.sim [Ex.c [0xFF], Ex.c [0xDC]] =
      some [[8, 0, 0, 0, 0xFF, 0x15, 0x80, 64, 64, 0, 1, 1], [8, 0, 1, 0, 0xFF, 0, 0, 0, 0x78, 0x56, 0x34, 0x12]] :=
  ⟨rfl, Or.inl rfl, by decide +kernel⟩

end Xcp
