import Verif.Props.C79_Remote
import Verif.Props.C75_CanTx
/-
C81: a tool on the CAN bus gets the answers of the remote memory.
-/
set_option autoImplicit false
namespace Xcp
open Spec

/-- A message of classical CAN with an answer: a data message with the identifier; with the option for a fixed length the
answer is followed by other bytes. -/
def Spec.AnswerMsg (cfg : Cfg) (outb : UInt32) (a : List UInt8) (m : CanMsg) : Prop :=
  Addressed outb m ∧ m.data.take a.length = a ∧ m.data.length = if cfg.maxDlc then cfg.maxCto else a.length

/-- A message of CAN FD with an answer. -/
def Spec.AnswerMsgFd (outb : UInt32) (a : List UInt8) (m : CanMsg) : Prop := Addressed outb m ∧ m.data.take a.length = a

theorem oneEach_map {c d : List UInt8 → CanMsg → Prop} {ps qs : List (List UInt8)} {ms : List CanMsg} (h : OneEach c ps ms)
    (hl : ps.length = qs.length) (hcd : ∀ (i : Nat) p q m, ps[i]? = some p → qs[i]? = some q → c p m → d q m) : OneEach d qs ms := by
  refine ⟨by rw [h.1, hl], fun i q m hq hm => ?_⟩
  have hi : i < ps.length := by
    have := (List.getElem?_eq_some_iff.mp hq).1
    omega
  exact hcd i _ q m (List.getElem?_eq_getElem hi) hq (h.2 i _ m (List.getElem?_eq_getElem hi) hm)

/-- The messages for the slave: addressed to it or to all slaves, and not empty. -/
def Spec.forSlave (inb bc : UInt32) (ms : List (Env × CanMsg)) : List (Env × CanMsg) :=
  ms.filter fun m => decide ((Addressed inb m.2 ∨ Addressed bc m.2) ∧ m.2.data ≠ [])

theorem can_session {cfg : Cfg} (hp : Plain cfg) {k : About} {inb bc : UInt32} (hi : inb.toNat < 2 ^ 11)
    (hbc : bc.toNat < 2 ^ 11) {ms : List (Env × CanMsg)} {buf : List UInt8}
    (hm : ∀ m ∈ ms, MsgOk m.2 ∧ m.2.ext = false ∧ m.2.rtr = false ∧ m.2.data.length ≤ buf.length)
    (hd : Describes k cfg ((forSlave inb bc ms).map Prod.fst)) {mem : Mem} {mode : UInt8} {qs : List Req}
    (hq : (forSlave inb bc ms).map (·.2.data) = (Req.connect mode :: qs).map Req.bytes)
    (hleg : AllLegal cfg k ⟨mem, 0, 0, true⟩ (qs.map .request)) :
    ∃ x h, socketRun cfg inb bc ⟨St.init cfg mem, buf⟩ ms = .ok x ∧ run cfg (St.init cfg mem) h = .ok x.s ∧
      CarryAll cfg x.s.tx (Remote.answers k ⟨mem, 0, 0, true⟩ (.request (.connect mode) :: qs.map .request)) ∧
      x.s.mem = (Remote.final k ⟨mem, 0, 0, true⟩ (qs.map .request)).mem := by
  obtain ⟨ps, h1, h2⟩ := C63_socket_history_partial (cfg := cfg) hi hbc ms ⟨St.init cfg mem, buf⟩ hm
  have e1 : ps.map Prod.fst = (forSlave inb bc ms).map Prod.fst := by
    have := congrArg (List.map Prod.fst) h1
    simpa [List.map_map, Function.comp_def, forSlave] using this
  have e2 : (ps.map fun p => p.2.buf.take p.2.len) = (Req.connect mode :: qs).map Req.bytes := by
    have := congrArg (List.map Prod.snd) h1
    rw [← hq]
    simpa [List.map_map, Function.comp_def, forSlave] using this
  obtain ⟨s, k1, k2, k3⟩ := packets_session hp (by rw [e1]; exact hd) e2 hleg
  rw [k1] at h2
  cases hx : socketRun cfg inb bc ⟨St.init cfg mem, buf⟩ ms with
  | error f => rw [hx] at h2; cases h2
  | ok x =>
    rw [hx] at h2
    cases h2
    exact ⟨x, _, rfl, k1, k2, k3⟩

/-- C81, classical CAN. -/
theorem C81_can {cfg : Cfg} (hp : Plain cfg) (hk : CanCfg cfg 8) {k : About} {inb bc outb : UInt32} (hi : inb.toNat < 2 ^ 11)
    (hbc : bc.toNat < 2 ^ 11) (ho : IdOk outb) {ms : List (Env × CanMsg)} {buf : List UInt8}
    (hm : ∀ m ∈ ms, MsgOk m.2 ∧ m.2.ext = false ∧ m.2.rtr = false ∧ m.2.data.length ≤ buf.length)
    (hd : Describes k cfg ((forSlave inb bc ms).map Prod.fst)) {mem : Mem} {mode : UInt8} {qs : List Req}
    (hq : (forSlave inb bc ms).map (·.2.data) = (Req.connect mode :: qs).map Req.bytes)
    (hleg : AllLegal cfg k ⟨mem, 0, 0, true⟩ (qs.map .request)) :
    ∃ x out, socketRun cfg inb bc ⟨St.init cfg mem, buf⟩ ms = .ok x ∧ socketSendAll false outb x.s.tx = .ok out ∧
      OneEach (AnswerMsg cfg outb) (Remote.answers k ⟨mem, 0, 0, true⟩ (.request (.connect mode) :: qs.map .request)) out ∧
      x.s.mem = (Remote.final k ⟨mem, 0, 0, true⟩ (qs.map .request)).mem := by
  obtain ⟨x, h, h1, h2, h3, h4⟩ := can_session hp hi hbc hm hd hq hleg
  obtain ⟨out, g1, g2⟩ := C75_socket_classic_partial hp.ok hk ho mem h x.s h2
  obtain ⟨c1, c2⟩ := carryAll_get h3
  refine ⟨x, out, h1, g1, ?_, h4⟩
  refine oneEach_map g2 (by rw [List.length_map]; exact c1) ?_
  rintro i p q m hp' hq' ⟨ha, hdt⟩
  rw [List.getElem?_map, Option.map_eq_some_iff] at hp'
  obtain ⟨f, hf, rfl⟩ := hp'
  obtain ⟨-, f1, f2⟩ := c2 i f q hf hq'
  simp only [payload, hk.noLen, hk.noCtr, List.drop_zero, Nat.add_zero] at f1 f2
  exact ⟨ha, by rw [hdt]; exact f1, by rw [hdt]; exact f2⟩

/-- C81, CAN FD (started with the option for it). -/
theorem C81_can_fd {cfg : Cfg} (hp : Plain cfg) (hk : CanCfg cfg 64) {k : About} {inb bc outb : UInt32} (hi : inb.toNat < 2 ^ 11)
    (hbc : bc.toNat < 2 ^ 11) (ho : IdOk outb) {ms : List (Env × CanMsg)} {buf : List UInt8}
    (hm : ∀ m ∈ ms, MsgOk m.2 ∧ m.2.ext = false ∧ m.2.rtr = false ∧ m.2.data.length ≤ buf.length)
    (hd : Describes k cfg ((forSlave inb bc ms).map Prod.fst)) {mem : Mem} {mode : UInt8} {qs : List Req}
    (hq : (forSlave inb bc ms).map (·.2.data) = (Req.connect mode :: qs).map Req.bytes)
    (hleg : AllLegal cfg k ⟨mem, 0, 0, true⟩ (qs.map .request)) :
    ∃ x out, socketRun cfg inb bc ⟨St.init cfg mem, buf⟩ ms = .ok x ∧ socketSendAll true outb x.s.tx = .ok out ∧
      OneEach (AnswerMsgFd outb) (Remote.answers k ⟨mem, 0, 0, true⟩ (.request (.connect mode) :: qs.map .request)) out ∧
      x.s.mem = (Remote.final k ⟨mem, 0, 0, true⟩ (qs.map .request)).mem := by
  obtain ⟨x, h, h1, h2, h3, h4⟩ := can_session hp hi hbc hm hd hq hleg
  obtain ⟨out, g1, g2⟩ := C75_socket_fd hp.ok hk ho mem h x.s h2
  obtain ⟨c1, c2⟩ := carryAll_get h3
  refine ⟨x, out, h1, g1, ?_, h4⟩
  refine oneEach_map g2 (by rw [List.length_map]; exact c1) ?_
  rintro i p q m hp' hq' ⟨ha, ⟨z, hdt⟩, -⟩
  rw [List.getElem?_map, Option.map_eq_some_iff] at hp'
  obtain ⟨f, hf, rfl⟩ := hp'
  obtain ⟨-, f1, f2⟩ := c2 i f q hf hq'
  simp only [payload, hk.noLen, hk.noCtr, List.drop_zero, Nat.add_zero] at f1 f2
  refine ⟨ha, ?_⟩
  have hl : q.length ≤ f.bytes.length := by
    have := congrArg List.length f1
    rw [List.length_take] at this
    omega
  rw [hdt, List.take_append_of_le_length hl, f1]

/-- The slave of the examples on CAN, without slave block mode. -/
def Ex.canPlain : Cfg := { Ex.can with slaveBlock := false }

example : Plain Ex.canPlain ∧ CanCfg Ex.canPlain 8 :=
  ⟨⟨⟨by constructor <;> decide, Or.inl rfl, rfl, rfl, by decide, Or.inl rfl⟩, rfl⟩, by constructor <;> decide⟩

/-- CONNECT, a message for somebody else, SET_MTA as a broadcast, UPLOAD of two bytes, an empty message. -/
def Ex.bus : List (Env × CanMsg) :=
  [(Ex.env, ⟨0x102, false, false, [0xFF, 0]⟩), (Ex.env, ⟨0x200, false, false, [0xFE]⟩),
   (Ex.env, ⟨0x103, false, false, [0xF6, 0, 0, 0, 0x34, 0x12, 0, 0]⟩), (Ex.env, ⟨0x102, false, false, [0xF5, 2]⟩),
   (Ex.env, ⟨0x102, false, false, []⟩)]

example : (forSlave 0x102 0x103 Ex.bus).map (·.2.data) = (Req.connect 0 :: [.setMta 0 0x1234, .upload 2]).map Req.bytes := by decide

example : ((socketRun Ex.canPlain 0x102 0x103 ⟨St.init Ex.canPlain Ex.mem, List.replicate 8 0⟩ Ex.bus).toOption.bind fun x =>
      (socketSendAll false 0x101 x.s.tx).toOption) =
    some [⟨0x101, false, false, [0xFF, 0x15, 0x80, 8, 8, 0, 1, 1]⟩, ⟨0x101, false, false, [0xFF]⟩, ⟨0x101, false, false, [0xFF, 0x34, 0x35]⟩] := by
  decide +kernel

end Xcp
