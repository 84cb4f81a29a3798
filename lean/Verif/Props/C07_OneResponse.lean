import Verif.Proofs.Busy
import Verif.Model.Example
/-
C07: one command, one response.

It fails for USER_CMD and SET_DAQ_ID (no response) and for START_STOP_DAQ_LIST and
GET_DAQ_LIST_INFO of a non-existing list (two responses).  `C07_one_response_partial`
covers everything else.
-/
set_option autoImplicit false
namespace Xcp
open Spec

/-- The packets for which the property fails. -/
inductive Spec.Irregular (cfg : Cfg) (s : St) (p : Pdu) : Cmd → Prop
  | userCmd : Irregular cfg s p .userCmd
  | setDaqId : cfg.canSetDaqId = true → p.buf[1]? = some 0xFD → Irregular cfg s p .transportLayerCmd
  | startStop {n} : p.word cfg.motorola 2 = .ok n → s.daq.listCount ≤ n % 256 →
      Irregular cfg s p .startStopDaqList
  | listInfo {n} : p.word cfg.motorola 2 = .ok n → s.daq.listCount ≤ n % 256 →
      Irregular cfg s p .getDaqListInfo

/-- One packet, or none because a background checksum or a block download has begun or
goes on. -/
def Spec.OneOrPending (s s' : St) : Prop :=
  OnePacket s s' ∨ (Silent s s' ∧ (s'.ck.state = .initial ∨ s'.masterBlk.active = true))

theorem apiDisconnect_one {cfg : Cfg} {s s' : St} (h : OnePacket s s') : OnePacket s (apiDisconnect cfg s') := by
  simpa [OnePacket] using h

theorem handler_one {cfg : Cfg} (env : Env) {s : St} (p : Pdu) (c : Cmd) (hb : s.busy = false)
    (hck : s.ck.state = .idle) (hx : ¬ Irregular cfg s p c) :
    Post (handler cfg env s p c) (OneOrPending s) := by
  cases c
  all_goals unfold_handlers
  all_goals post
  all_goals first
    | exact Or.inl ⟨_, rfl, rfl⟩
    | exact Or.inr ⟨rfl, Or.inl rfl⟩
    | exact Or.inr ⟨rfl, Or.inr rfl⟩
    | exact Or.inl (apiDisconnect_one ⟨_, rfl, rfl⟩)
    | skip
  case buildChecksum => rename_i h; simp [hck, hb] at h
  case transportLayerCmd =>
    rename_i b hb1 _ _ h
    refine absurd (Irregular.setDaqId h.1 ?_) hx
    unfold Pdu.byte at hb1
    split at hb1
    · rename_i b' hb'; cases hb1; rw [hb', h.2]
    · cases hb1
  case userCmd => exact absurd .userCmd hx
  case downloadNext => exact Or.inr ⟨rfl, Or.inr (by rename_i h _ _ _; simpa using h)⟩
  all_goals first
    | exact absurd (Irregular.startStop (by assumption) (by assumption)) hx
    | exact absurd (Irregular.listInfo (by assumption) (by assumption)) hx

/-- C07 for all packets that are not irregular. -/
theorem C07_one_response_partial {cfg : Cfg} {mem : Mem} {h : List (Env × Op)} {s s' : St}
    (hr : run cfg (St.init cfg mem) h = .ok s) (hrd : Ready s) {env : Env} {p : Pdu} {b : UInt8} {c : Cmd}
    (hp : code p = some b) (hc : cmdTable[0xFF - b.toNat]? = some c)
    (hx : cfg.supports c = true → ¬ Irregular cfg s p c)
    (hs : step cfg env s (.cmd p) = .ok s') : OneOrPending s s' := by
  have hI := run_busy hr
  have hck : s.ck.state = .idle := by
    cases h : s.ck.state with
    | idle => rfl
    | _ => have := hI.iff.mpr (Or.inr (by simp [h])); simp [hrd.idle] at this
  rw [step_cmd env hrd.conn hrd.idle hp hc] at hs
  have : Post (tableEntry cfg env (bumpReceived cfg s) p c) (OneOrPending (bumpReceived cfg s)) := by
    apply Post.tableEntry
    · intro hsup
      refine handler_one env p c (by simpa using hrd.idle) (by simpa using hck) ?_
      intro hi
      apply hx hsup
      cases hi with
      | userCmd => exact .userCmd
      | setDaqId h1 h2 => exact .setDaqId h1 h2
      | startStop h1 h2 => exact .startStop h1 (by simpa using h2)
      | listInfo h1 h2 => exact .listInfo h1 (by simpa using h2)
    · intro _; exact Or.inl ⟨_, rfl, rfl⟩
  simpa [OneOrPending, OnePacket, Silent] using this s' hs

/-- A START_STOP_DAQ_LIST that names no existing list is answered twice: an error and
then, for the legal modes, a positive response. -/
theorem C07_two_responses {cfg : Cfg} (hss : ShortOk cfg) {s : St} (hrd : Ready s) (env : Env)
    (hd : cfg.daq = true) (hpg : s.pgm ≠ .active) (hul : isProtected cfg s RES_DAQ = false) {p : Pdu}
    {mode : UInt8} (hp : code p = some 0xDE) (hm : p.buf[1]? = some mode) (hmode : mode = 0 ∨ mode = 1)
    {n : Nat} (hn : p.word cfg.motorola 2 = .ok n) (hn' : s.daq.listCount ≤ n % 256) :
    ∃ s1 s', step cfg env s (.cmd p) = .ok s' ∧ Answers cfg s s1 [0xFE, 0x22] ∧
      Answers cfg s1 s' [0xFF, 0, 0, 0, 0, 0, 0, 0] := by
  have hul' : isProtected cfg (bumpReceived cfg s) RES_DAQ = false := by simpa [isProtected] using hul
  refine ⟨send8 cfg (bumpReceived cfg s) [0xFE, ERR_OUT_OF_RANGE],
    send8 cfg (send8 cfg (bumpReceived cfg s) [0xFE, ERR_OUT_OF_RANGE]) [0xFF, 0, 0, 0, 0, 0, 0, 0], ?_,
    send8_answers hss (by simp) (by simp), send8_answers hss (by simp) rfl⟩
  rw [hrd.step env hp (c := .startStopDaqList) rfl (by simp [Cfg.supports, Cmd.group, Cmd.mandatory, hd])]
  rcases hmode with h | h <;> subst h <;>
    simp [handler, startStopDaqListRes, byte_eq hm, hn, assertPgmIdle, hpg, assertUnlocked, hul', hn',
      startStopDaqListBody, startStopDaqListEnd, getFirstPid]

/-- C07 fails: on the simulator, START_STOP_DAQ_LIST of list 0 with no list allocated is
answered twice, GET_DAQ_LIST_INFO as well. -/
theorem C07_fails_twice :
    Ex.frames Ex.sim [Ex.c [0xFF], Ex.c [0xDE, 1, 0, 0], Ex.c [0xD8, 0, 0, 0]] =
      some [[8, 0, 0, 0, 0xFF, 0x15, 0x80, 64, 64, 0, 1, 1], [2, 0, 1, 0, 0xFE, 0x22],
        [8, 0, 2, 0, 0xFF, 0, 0, 0, 0, 0, 0, 0], [2, 0, 3, 0, 0xFE, 0x22], [2, 0, 4, 0, 0xFE, 0x21]] := by
  decide +kernel

/-- C07 fails: USER_CMD and SET_DAQ_ID are not answered at all. -/
theorem C07_fails_none :
    Ex.frames { Ex.can with on := fun c => Ex.can.on c || c == .userCmd, canSetDaqId := true }
        [Ex.c [0xFF], Ex.c [0xF1, 1], Ex.c [0xF2, 0xFD, 0, 0]] =
      some [[0xFF, 0x15, 0xC0, 8, 8, 0, 1, 1]] := by
  decide +kernel

/-- A session to which the theorem applies: every packet gets one response. -/
example : (Ex.frames Ex.sim [Ex.c [0xFF], Ex.c [0xFD], Ex.c [0xF6, 0, 0, 0, 16, 0, 0, 0], Ex.c [0xF5, 4],
    Ex.c [0xD6], Ex.c [0xD5, 0, 1, 0], Ex.c [0xDE, 2, 0, 0], Ex.c [0xC9]]).map List.length = some 8 := by
  decide +kernel

end Xcp
