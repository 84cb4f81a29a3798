import Verif.Proofs.Post
import Verif.Spec.Transport
/-
Invariant of the transmit side: counter, buffer length, and shape of all frames.
-/
set_option autoImplicit false
namespace Xcp
open Spec

theorem leBytes_length (n v : Nat) : (leBytes n v).length = n := by simp [leBytes]

theorem leBytes_succ (n v : Nat) : leBytes (n + 1) v = UInt8.ofNat v :: leBytes n (v / 256) := by
  unfold leBytes
  rw [List.range_succ_eq_map]
  simp only [List.map_cons, List.map_map, Nat.pow_zero, Nat.div_one, List.cons.injEq, true_and]
  apply List.map_congr_left
  intro i _
  simp [Nat.pow_succ', Nat.div_div_eq_div_mul]

theorem leVal_leBytes (n v : Nat) : leVal (leBytes n v) = v % 256 ^ n := by
  induction n generalizing v with
  | zero => simp [leBytes, leVal, Nat.mod_one]
  | succ n ih =>
    rw [leBytes_succ, leVal, ih, Nat.pow_succ', Nat.mod_mul]
    simp

/-- The transmit invariant, on the fields it concerns. -/
structure TxI (cfg : Cfg) (tx : List Frame) (counter : Nat) (out : List UInt8) : Prop where
  out_len : out.length = cfg.maxCto
  ctr : cfg.ctrSize ≠ 0 → counter = tx.length % 65536
  frames : ∀ i f, tx[i]? = some f → FrameOk cfg i f

/-- The transmit invariant of a state. -/
abbrev TxOk (cfg : Cfg) (s : St) : Prop := TxI cfg s.tx s.counter s.ctoOut

theorem overlay_length {buf data : List UInt8} {n : Nat} (h : buf.length = n) (hd : data.length ≤ n) :
    (overlay buf data).length = n := by
  simp [overlay, h]; omega

theorem mod_pow_mod (i k : Nat) (hk : k ≤ 2) : i % 65536 % 256 ^ k = i % 256 ^ k := by
  apply Nat.mod_mod_of_dvd
  have : (65536 : Nat) = 256 ^ 2 := rfl
  rw [this]
  exact Nat.pow_dvd_pow _ hk

theorem TxOk.emit {cfg : Cfg} (hc : cfg.ctrSize ≤ 2) {s : St} {k : Kind} {bs : List UInt8}
    (h : TxOk cfg s)
    (h1 : k = .cto → 0 < bs.length ∧ bs.length ≤ cfg.maxCto)
    (h2 : k = .dto → bs.length ≤ cfg.maxDto) : TxOk cfg (emit cfg s k bs) := by
  constructor
  · exact h.out_len
  · intro h0
    have := h.ctr h0
    simp only [Xcp.emit, bumpCounter, h0, if_false, this, List.length_append, List.length_singleton]
    omega
  · intro i f hf
    simp only [Xcp.emit] at hf
    rw [List.getElem?_append] at hf
    split at hf
    · exact h.frames i f hf
    · have hi : i = s.tx.length := by
        have := (List.getElem?_eq_some_iff.mp hf).1
        simp at this; omega
      subst hi
      simp at hf
      subst hf
      refine ⟨leBytes cfg.lenSize bs.length, leBytes cfg.ctrSize s.counter, bs, rfl,
        leBytes_length .., leBytes_length .., leVal_leBytes .., ?_, h1, h2⟩
      rw [leVal_leBytes]
      by_cases h0 : cfg.ctrSize = 0
      · simp [h0, Nat.mod_one]
      · rw [h.ctr h0, mod_pow_mod _ _ hc]

theorem TxOk.out {cfg : Cfg} {s : St} {o : List UInt8} (h : TxOk cfg s) (ho : o.length = cfg.maxCto) :
    TxOk cfg { s with ctoOut := o } := ⟨ho, h.ctr, h.frames⟩

theorem TxOk.send8 {cfg : Cfg} (hc : cfg.Ok) {s : St} {bs : List UInt8} (h : TxOk cfg s)
    (hb : 0 < bs.length) (hb8 : bs.length ≤ 8) : TxOk cfg (send8 cfg s bs) := by
  have h8 := hc.cto_lo
  unfold Xcp.send8
  have hlen : (if cfg.maxDlc = true then cfg.maxCto else bs.length) ≤ cfg.maxCto := by split <;> omega
  have hpos : 0 < (if cfg.maxDlc = true then cfg.maxCto else bs.length) := by split <;> omega
  generalize (if cfg.maxDlc = true then cfg.maxCto else bs.length) = n at hlen hpos
  have ho : (if n ≤ 8 then overlay s.ctoOut ((bs ++ List.replicate 8 0).take n) else s.ctoOut).length
      = cfg.maxCto := by
    split
    · apply overlay_length h.out_len; simp; omega
    · exact h.out_len
  apply TxOk.emit hc.ctr_le (h.out ho)
  · intro _
    rw [List.length_take, ho]
    omega
  · intro hk; cases hk

theorem TxOk.sendRaw {cfg : Cfg} (hc : cfg.Ok) {s : St} {data : List UInt8} (h : TxOk cfg s)
    (hb : 0 < data.length) (hl : data.length ≤ cfg.maxCto) : TxOk cfg (sendRaw cfg s data) := by
  have h8 := hc.cto_lo
  have ho := overlay_length h.out_len hl
  apply TxOk.emit hc.ctr_le (h.out ho)
  · intro _
    rw [List.length_take, ho]
    split <;> omega
  · intro hk; cases hk

end Xcp
