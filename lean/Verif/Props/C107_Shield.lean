import Verif.Model.Seeed
import Verif.Props.C63_Can
import Verif.Props.C66_Arduino
/-
C107: with the Seeed CAN shield the program receives exactly the messages addressed to the slave.

True if inbound and broadcast identifier are of the same kind, no message matches the filters 2 to 5 (which `XcpTl_Init`
does not set), and every interrupt is served before the next message arrives.  Without the last condition the receiver is deaf from then on: the
interrupt is attached to the falling edge of a line that stays low.
-/
set_option autoImplicit false
namespace Xcp
open Spec

/-- Every message is followed by its interrupt. -/
def Spec.Prompt : List SeeedOp → Prop
  | [] => True
  | .main _ :: os => Prompt os
  | .isr :: os => Prompt os
  | .arrive _ :: .isr :: os => Prompt os
  | .arrive _ :: _ => False

/-- What the program should see: the messages addressed to the slave, and the calls of the main function. -/
def Spec.addressedOps (inb bc : UInt32) : List SeeedOp → List InoOp
  | [] => []
  | .main env :: os => .main env :: addressedOps inb bc os
  | .isr :: os => addressedOps inb bc os
  | .arrive m :: os => if Addressed inb m ∨ Addressed bc m then .receive m :: addressedOps inb bc os else addressedOps inb bc os

/-- The messages of a history. -/
def Spec.onBus : List SeeedOp → List CanMsg := List.filterMap fun | .arrive m => some m | _ => none

/-- The calls of the main function. -/
def Spec.onlyMain : List SeeedOp → List InoOp := List.filterMap fun | .main env => some (.main env) | _ => none

theorem mask_std {i : UInt32} (h : canIsExt i = false) : McpReg.write false (inoFilterMask i) = ⟨2 ^ 11 - 1, 0, false⟩ := by
  unfold inoFilterMask
  rw [h]
  decide

theorem mask_ext {i : UInt32} (h : canIsExt i = true) : McpReg.write true (inoFilterMask i) = ⟨2 ^ 11 - 1, 2 ^ 18 - 1, true⟩ := by
  unfold inoFilterMask
  rw [h]
  decide

theorem addressed_ext {i : UInt32} {m : CanMsg} (h : Addressed i m) : m.ext = canIsExt i := by
  have := h.2.2
  rw [canIsExt_eq]
  by_cases hh : 2 ^ 31 ≤ i.toNat
  · rw [this.mpr hh]; exact (decide_eq_true hh).symm
  · rw [decide_eq_false hh]
    cases he : m.ext with
    | false => rfl
    | true => exact absurd (this.mp he) hh

theorem accepts_std {i : UInt32} (hi : IdOk i) (hs : canIsExt i = false) {m : CanMsg} (hm : MsgOk m) (hr : m.rtr = false) :
    McpReg.accepts ⟨2 ^ 11 - 1, 0, false⟩ (.write false i) m = true ↔ Addressed i m := by
  have hlt : i.toNat < 2 ^ 11 := by
    rw [canIsExt_eq] at hs
    have := of_decide_eq_false hs
    rcases hi with h | h
    · exact h
    · omega
  unfold McpReg.accepts McpReg.write Addressed CanMsg.mcp
  unfold MsgOk at hm
  cases he : m.ext with
  | true => simp; intro _ _; omega
  | false =>
    rw [he] at hm
    simp only [Bool.false_eq_true, if_false] at hm
    simp only [Bool.false_eq_true, if_false, Nat.and_two_pow_sub_one_eq_mod, Nat.and_zero, BEq.rfl, Bool.true_and, Bool.and_true, false_iff, hr,
      true_and, beq_iff_eq]
    omega

theorem accepts_ext {i : UInt32} (hi : IdOk i) (hs : canIsExt i = true) {m : CanMsg} (hm : MsgOk m) (hr : m.rtr = false) :
    McpReg.accepts ⟨2 ^ 11 - 1, 2 ^ 18 - 1, true⟩ (.write true i) m = true ↔ Addressed i m := by
  have hlt : 2 ^ 31 ≤ i.toNat ∧ i.toNat < 2 ^ 31 + 2 ^ 29 := by
    rw [canIsExt_eq] at hs
    have := of_decide_eq_true hs
    rcases hi with h | h
    · omega
    · exact h
  unfold McpReg.accepts McpReg.write Addressed CanMsg.mcp
  unfold MsgOk at hm
  cases he : m.ext with
  | false => simp; intro _ _; omega
  | true =>
    rw [he] at hm
    simp only [if_true] at hm
    simp only [if_true, Nat.and_two_pow_sub_one_eq_mod, BEq.rfl, Bool.true_and, Bool.and_eq_true, true_iff, hr, true_and, beq_iff_eq]
    omega

/-- Filters 0 and 1 let pass exactly what is addressed to the slave. -/
theorem first_iff {inb bc : UInt32} (hi : IdOk inb) (hb : IdOk bc) (hk : canIsExt inb = canIsExt bc) (others : List McpReg) {m : CanMsg}
    (hm : MsgOk m) (hr : m.rtr = false) : (Mcp.init inb bc others).first m = true ↔ Addressed inb m ∨ Addressed bc m := by
  unfold Mcp.first Mcp.init
  rw [Bool.or_eq_true]
  cases hc : canIsExt inb with
  | false =>
    rw [hc] at hk
    rw [mask_std hc]
    simp only [← hk]
    rw [accepts_std hi hc hm hr, accepts_std hb hk.symm hm hr]
  | true =>
    rw [hc] at hk
    rw [mask_ext hc]
    simp only [← hk]
    rw [accepts_ext hi hc hm hr, accepts_ext hb hk.symm hm hr]

/-- C107, partial: what the controller accepts.  For identifiers of the same kind: the messages addressed to the slave, and those that match one
of the filters 2 to 5. -/
theorem C107_filters_partial {inb bc : UInt32} (hi : IdOk inb) (hb : IdOk bc) (hk : canIsExt inb = canIsExt bc) (others : List McpReg)
    {m : CanMsg} (hm : MsgOk m) (hr : m.rtr = false) (x : Seeed) (hx : x.rb0 = none ∧ x.rb1 = none) :
    (x.arrive (Mcp.init inb bc others) m).low = true ↔
      Addressed inb m ∨ Addressed bc m ∨ ∃ f ∈ others, (Mcp.init inb bc others).mask1.accepts f m = true := by
  have key : (Mcp.init inb bc others).second m = true ↔ ∃ f ∈ others, (Mcp.init inb bc others).mask1.accepts f m = true := by
    unfold Mcp.second
    rw [List.any_eq_true]
    rfl
  rw [← key, ← or_assoc, ← first_iff hi hb hk others hm hr]
  unfold Seeed.arrive
  obtain ⟨h0, h1⟩ := hx
  cases hf : (Mcp.init inb bc others).first m with
  | true => simp [h0, Seeed.low]
  | false =>
    cases hs : (Mcp.init inb bc others).second m with
    | true => simp [h1, Seeed.low]
    | false => simp [h0, h1, Seeed.low]

/-- C107, partial: if every interrupt is served before the next message, the program sees exactly the messages addressed to the slave, in order. -/
theorem C107_prompt_partial {cfg : Cfg} {inb bc : UInt32} (hi : IdOk inb) (hb : IdOk bc) (hk : canIsExt inb = canIsExt bc) (others : List McpReg) :
    ∀ (os : List SeeedOp) (x : Seeed), x.rb0 = none → x.rb1 = none → x.irq = false → Prompt os →
    (∀ m ∈ onBus os, MsgOk m ∧ m.rtr = false ∧ ∀ f ∈ others, (Mcp.init inb bc others).mask1.accepts f m = false) →
    (x.run cfg (Mcp.init inb bc others) os).map Seeed.ino = x.ino.run cfg (addressedOps inb bc os)
  | [], x, _, _, _, _, _ => rfl
  | .main env :: os, x, h0, h1, hq, hp, hm => by
    simp only [Seeed.run, Seeed.step, addressedOps, Ino.run, Ino.step]
    cases x.ino.main cfg env with
    | error f => rfl
    | ok y => exact C107_prompt_partial hi hb hk others os { x with ino := y } h0 h1 hq hp hm
  | .isr :: os, x, h0, h1, hq, hp, hm => by
    unfold Seeed.run Seeed.step Seeed.isr addressedOps
    rw [if_neg (by simp [hq])]
    exact C107_prompt_partial hi hb hk others os x h0 h1 hq hp hm
  | .arrive m :: .isr :: os, x, h0, h1, hq, hp, hm => by
    obtain ⟨g1, g2, g3⟩ := hm m (List.mem_cons_self ..)
    have hm' : ∀ m ∈ onBus os, MsgOk m ∧ m.rtr = false ∧ ∀ f ∈ others, (Mcp.init inb bc others).mask1.accepts f m = false :=
      fun y hy => hm y (List.mem_cons_of_mem _ hy)
    have hs : (Mcp.init inb bc others).second m = false := by
      unfold Mcp.second
      rw [List.any_eq_false]
      intro f hf
      rw [show (Mcp.init inb bc others).mask1.accepts f m = false from g3 f hf]
      decide
    have hf := first_iff hi hb hk others g1 g2
    rw [addressedOps, addressedOps]
    simp only [Seeed.run, Seeed.step, ok_bind]
    by_cases ha : Addressed inb m ∨ Addressed bc m
    · rw [if_pos ha]
      have e : x.arrive (Mcp.init inb bc others) m = { x with rb0 := some m, irq := true } := by
        unfold Seeed.arrive
        rw [if_pos (hf.mpr ha), if_pos (by simp [h0])]
        simp [Seeed.low, h0, h1]
      rw [e, Ino.run, Ino.step]
      unfold Seeed.isr
      simp only [if_true]
      cases x.ino.receive m with
      | error f => rfl
      | ok y => exact C107_prompt_partial hi hb hk others os { x with ino := y, rb0 := none, irq := false } rfl h1 rfl hp hm'
    · rw [if_neg ha]
      have e : x.arrive (Mcp.init inb bc others) m = x := by
        unfold Seeed.arrive
        rw [if_neg (fun h => ha (hf.mp h)), hs]
        simp
      rw [e]
      unfold Seeed.isr
      rw [if_neg (by simp [hq])]
      exact C107_prompt_partial hi hb hk others os x h0 h1 hq hp hm'
  | [.arrive _], _, _, _, _, hp, _ => absurd hp id
  | .arrive _ :: .arrive _ :: _, _, _, _, _, hp, _ => absurd hp id
  | .arrive _ :: .main _ :: _, _, _, _, _, hp, _ => absurd hp id

/-- Once a message is left in the controller with no interrupt requested, nothing is received any more, whatever happens. -/
theorem C107_deaf {cfg : Cfg} (c : Mcp) : ∀ (os : List SeeedOp) (x : Seeed), x.irq = false → x.low = true →
    (x.run cfg c os).map Seeed.ino = x.ino.run cfg (onlyMain os)
  | [], x, _, _ => rfl
  | .main env :: os, x, hq, hl => by
    rw [show onlyMain (.main env :: os) = .main env :: onlyMain os from rfl]
    simp only [Seeed.run, Seeed.step, Ino.run, Ino.step]
    cases x.ino.main cfg env with
    | error f => rfl
    | ok y => exact C107_deaf c os { x with ino := y } hq hl
  | .isr :: os, x, hq, hl => by
    unfold Seeed.run Seeed.step Seeed.isr
    rw [if_neg (by simp [hq])]
    exact C107_deaf c os x hq hl
  | .arrive m :: os, x, hq, hl => by
    unfold Seeed.run Seeed.step
    have key : (x.arrive c m).irq = false ∧ (x.arrive c m).low = true ∧ (x.arrive c m).ino = x.ino := by
      unfold Seeed.arrive
      simp only [hq, hl, Bool.not_true, Bool.or_false]
      split
      · split
        · exact ⟨rfl, rfl, rfl⟩
        · split
          · exact ⟨rfl, by simp [Seeed.low], rfl⟩
          · exact ⟨hq, hl, rfl⟩
      · split
        · exact ⟨rfl, by simp [Seeed.low], rfl⟩
        · exact ⟨hq, hl, rfl⟩
    have := C107_deaf (cfg := cfg) c os (x.arrive c m) key.1 key.2.1
    rw [key.2.2] at this
    exact this

/-- C107 is false when the interrupt is late: if a second message arrives before the interrupt of the first one is served, the first one is
received; then the receiver is deaf. -/
theorem C107_fails_late {cfg : Cfg} {c : Mcp} {x : Seeed} (hx : x.rb0 = none ∧ x.rb1 = none) {m m' : CanMsg}
    (h1 : c.first m = true) (h2 : c.first m' = true) (os : List SeeedOp) :
    (x.run cfg c (.arrive m :: .arrive m' :: .isr :: os)).map Seeed.ino = x.ino.run cfg (.receive m :: onlyMain os) := by
  obtain ⟨hx0, hx1⟩ := hx
  have e1 : x.arrive c m = { x with rb0 := some m, irq := true } := by
    unfold Seeed.arrive
    rw [if_pos h1, if_pos (by simp [hx0])]
    simp [Seeed.low, hx0, hx1]
  have e2 : (x.arrive c m).arrive c m' = { x with rb0 := some m, rb1 := some m', irq := true } := by
    rw [e1]
    unfold Seeed.arrive
    rw [if_pos h2, if_neg (by simp), if_pos (by simp [hx1])]
    simp
  simp only [Seeed.run, Seeed.step, ok_bind, e2, Seeed.isr, if_true, Ino.run, Ino.step]
  cases x.ino.receive m with
  | error f => rfl
  | ok y => exact C107_deaf c os { ino := y, rb0 := none, rb1 := some m', irq := false } rfl rfl

/-- C107 is false for the filters that are not set: a message that agrees with one of them is accepted, whoever it is addressed to. -/
theorem C107_fails_others (inb bc : UInt32) {others : List McpReg} {f : McpReg} (hf : f ∈ others) {m : CanMsg} (hm : m.mcp = f) (x : Seeed)
    (hx : x.rb0 = none ∧ x.rb1 = none) : (x.arrive (Mcp.init inb bc others) m).low = true := by
  have hs : (Mcp.init inb bc others).second m = true := by
    unfold Mcp.second
    rw [List.any_eq_true]
    refine ⟨f, hf, ?_⟩
    have he : m.mcp.ext = m.ext := by unfold CanMsg.mcp; cases h : m.ext <;> simp
    unfold McpReg.accepts
    rw [← hm, he]
    simp
  unfold Seeed.arrive
  rw [hs]
  cases (Mcp.init inb bc others).first m <;> simp [hx.1, hx.2, Seeed.low]

/-- C107 is false for an extended inbound and a standard broadcast identifier: the mask of the inbound identifier applies to the
broadcast filter too.  No broadcast message passes unless its first two bytes are 0. -/
theorem C107_fails_broadcast {inb bc : UInt32} (hi : canIsExt inb = true) (hb : canIsExt bc = false) (others : List McpReg) {m : CanMsg}
    (ha : Addressed bc m) (hd : m.data.getD 0 0 ≠ 0 ∨ m.data.getD 1 0 ≠ 0) : (Mcp.init inb bc others).first m = false := by
  have he : m.ext = false := by rw [addressed_ext ha, hb]
  unfold Mcp.first Mcp.init
  rw [hi, mask_ext hi]
  unfold McpReg.accepts McpReg.write CanMsg.mcp
  simp only [hi, hb, he, Bool.false_eq_true, if_false, if_true, Nat.and_two_pow_sub_one_eq_mod]
  have h0 := UInt8.toNat_lt (m.data.getD 0 0)
  have h1 := UInt8.toNat_lt (m.data.getD 1 0)
  have key : ¬ (((m.data.getD 0 0).toNat * 256 + (m.data.getD 1 0).toNat) % 2 ^ 18 = 0 % 2 ^ 18) := by
    intro hz
    rcases hd with hd | hd
    · apply hd
      apply UInt8.toNat_inj.mp
      rw [UInt8.toNat_zero]; omega
    · apply hd
      apply UInt8.toNat_inj.mp
      rw [UInt8.toNat_zero]; omega
  simp [-List.getD_eq_getElem?_getD, key]

/-- C107 is false for a standard inbound and an extended broadcast identifier: every extended message passes whose upper 11 bits are those of
the broadcast identifier. -/
theorem C107_fails_extended {inb bc : UInt32} (hi : canIsExt inb = false) (hb : canIsExt bc = true) (others : List McpReg) {m : CanMsg}
    (he : m.ext = true) (hu : m.id / 2 ^ 18 = bc.toNat % 2 ^ 29 / 2 ^ 18) : (Mcp.init inb bc others).first m = true := by
  unfold Mcp.first Mcp.init
  rw [hi, mask_std hi]
  unfold McpReg.accepts McpReg.write CanMsg.mcp
  simp [hi, hb, he, hu]

/-- hello_xcp: inbound 0x300, broadcast 0x222, the filters 2 to 5 left as the library clears them. -/
def Ex.shield : Mcp := Mcp.init 0x300 0x222 [⟨0, 0, true⟩, ⟨0, 0, false⟩, ⟨0, 0, true⟩, ⟨0, 0, false⟩]

/-- What the slave sends. -/
def Ex.shieldTx (os : List SeeedOp) : Option (List (List UInt8)) :=
  ((Seeed.init Ex.can Ex.mem).run Ex.can Ex.shield os).toOption.map fun x => x.ino.s.tx.map Frame.bytes

/-- CONNECT and SYNCH with a foreign message in between; the interrupts are served at once. -/
example : Ex.shieldTx [.arrive ⟨0x300, false, false, [0xFF, 0]⟩, .isr, .main Ex.env, .arrive ⟨0x301, false, false, [0xFC]⟩, .isr, .main Ex.env,
      .arrive ⟨0x300, false, false, [0xFC]⟩, .isr, .main Ex.env] = some [[0xFF, 0x15, 0xC0, 8, 8, 0, 1, 1], [0xFE, 0]] := by decide +kernel

/-- SYNCH arrives before the interrupt of CONNECT is served: CONNECT is answered, everything after it is lost. -/
example : Ex.shieldTx [.arrive ⟨0x300, false, false, [0xFF, 0]⟩, .arrive ⟨0x300, false, false, [0xFC]⟩, .isr, .main Ex.env, .isr, .main Ex.env,
      .arrive ⟨0x300, false, false, [0xFC]⟩, .isr, .main Ex.env, .arrive ⟨0x300, false, false, [0xFC]⟩, .isr, .main Ex.env] =
    some [[0xFF, 0x15, 0xC0, 8, 8, 0, 1, 1]] := by decide +kernel

/-- A message with identifier 0 is taken for a command. -/
example : Ex.shieldTx [.arrive ⟨0, false, false, [0xFF, 0]⟩, .isr, .main Ex.env] = some [[0xFF, 0x15, 0xC0, 8, 8, 0, 1, 1]] := by decide +kernel

/-- Extended inbound identifier 0x300, standard broadcast identifier 0x222: GET_SLAVE_ID is not accepted. -/
example : (Mcp.init 0x80000300 0x222 []).first ⟨0x222, false, false, [0xF2, 0xFF, 0x58, 0x43, 0x50, 0]⟩ = false ∧
    (Mcp.init 0x80000300 0x222 []).first ⟨0x300, true, false, [0xFF, 0]⟩ = true := by decide

end Xcp
