import Verif.Proofs.Util
/-
Lemmas about `XcpUtl_Itoa`.
-/
set_option autoImplicit false
namespace Xcp
open Spec

/-- digits, least significant first -/
def lsd (base : Nat) (v : Nat) : List Nat :=
  if _h : v = 0 ∨ base < 2 then [] else v % base :: lsd base (v / base)
termination_by v
decreasing_by exact Nat.div_lt_self (by omega) (by omega)

theorem lsd_zero (base : Nat) : lsd base 0 = [] := by unfold lsd; simp

theorem lsd_step {base v : Nat} (hb : 2 ≤ base) (hv : v ≠ 0) : lsd base v = v % base :: lsd base (v / base) := by
  rw [lsd]; rw [dif_neg (by omega)]

theorem lsd_length_pow {base : Nat} (hb : 2 ≤ base) (n : Nat) : ∀ v, v < base ^ n → (lsd base v).length ≤ n := by
  induction n with
  | zero => intro v hv; have : v = 0 := by simpa using hv
            subst this; simp [lsd_zero]
  | succ n ih =>
    intro v hv
    by_cases h0 : v = 0
    · subst h0; simp [lsd_zero]
    · rw [lsd_step hb h0, List.length_cons]
      have := ih (v / base) (by rw [Nat.div_lt_iff_lt_mul (by omega)]; rwa [Nat.pow_succ] at hv)
      omega

theorem lsd_length {base : Nat} (hb : 2 ≤ base) (n v : Nat) (hv : v < 2 ^ n) : (lsd base v).length ≤ n :=
  lsd_length_pow hb n v (Nat.lt_of_lt_of_le hv (Nat.pow_le_pow_left hb n))

theorem lsd_lt {base : Nat} (hb : 2 ≤ base) (v : Nat) : ∀ d ∈ lsd base v, d < base := by
  induction v using Nat.strongRecOn with
  | ind v ih =>
    by_cases h0 : v = 0
    · subst h0; simp [lsd_zero]
    · rw [lsd_step hb h0]
      intro d hd
      rcases List.mem_cons.mp hd with h | h
      · rw [h]; exact Nat.mod_lt _ (by omega)
      · exact ih _ (Nat.div_lt_self (by omega) (by omega)) d h

theorem lsd_value {base : Nat} (hb : 2 ≤ base) (v : Nat) : (lsd base v).foldr (fun d n => n * base + d) 0 = v := by
  induction v using Nat.strongRecOn with
  | ind v ih =>
    by_cases h0 : v = 0
    · subst h0; simp [lsd_zero]
    · rw [lsd_step hb h0, List.foldr_cons, ih _ (Nat.div_lt_self (by omega) (by omega)), Nat.mul_comm]
      exact Nat.div_add_mod v base

theorem lsd_last {base : Nat} (hb : 2 ≤ base) (v : Nat) (hv : v ≠ 0) : ∃ l d, lsd base v = l ++ [d] ∧ d ≠ 0 := by
  induction v using Nat.strongRecOn with
  | ind v ih =>
    rw [lsd_step hb hv]
    by_cases h0 : v / base = 0
    · refine ⟨[], v % base, by rw [h0, lsd_zero]; rfl, ?_⟩
      have := Nat.div_add_mod v base
      rw [h0] at this
      omega
    · obtain ⟨l, d, hl, hd⟩ := ih _ (Nat.div_lt_self (by omega) (by omega)) h0
      exact ⟨v % base :: l, d, by rw [hl]; rfl, hd⟩

theorem digitVal_char {d : Nat} (h : d < 36) : digitVal (digitChar d) = some d := by
  have key : ∀ d : Fin 36, digitVal (digitChar d.val) = some d.val := by decide
  exact key ⟨d, h⟩

theorem digitChar_ne {d : Nat} (h : d < 36) : digitChar d ≠ 0 ∧ digitChar d ≠ 45 ∧ (d ≠ 0 → digitChar d ≠ 48) := by
  have key : ∀ d : Fin 36, digitChar d.val ≠ 0 ∧ digitChar d.val ≠ 45 ∧ (d.val ≠ 0 → digitChar d.val ≠ 48) := by decide
  exact key ⟨d, h⟩

theorem parse_foldl {base : Nat} (hb : base ≤ 36) (ds : List Nat) (h : ∀ d ∈ ds, d < base) (a : Nat) :
    (ds.map digitChar).foldl (parseStep base) (some a) = some (ds.foldl (fun n d => n * base + d) a) := by
  induction ds generalizing a with
  | nil => rfl
  | cons d ds ih =>
    have hd := h d (List.mem_cons_self ..)
    have hs : parseStep base (some a) (digitChar d) = some (a * base + d) := by
      unfold parseStep
      rw [digitVal_char (by omega)]
      simp [hd]
    rw [List.map_cons, List.foldl_cons, hs]
    exact ih (fun x hx => h x (List.mem_cons_of_mem _ hx)) _

theorem parse_lsd {base : Nat} (hb : 2 ≤ base) (hb' : base ≤ 36) (v : Nat) :
    parse base (((lsd base v).reverse).map digitChar) = some v := by
  unfold parse
  rw [parse_foldl hb' _ (fun d hd => lsd_lt hb v d (by simpa using hd)) 0, List.foldl_reverse]
  exact congrArg some (lsd_value hb v)

/-- characters stored from `pos` on -/
def put (b : CharBuf) (pos : Nat) (cs : List UInt8) : CharBuf :=
  fun j => if pos ≤ j ∧ j < pos + cs.length then cs.getD (j - pos) 0 else b j

theorem put_cons (b : CharBuf) (pos : Nat) (c : UInt8) (cs : List UInt8) :
    put (b.set pos c) (pos + 1) cs = put b pos (c :: cs) := by
  funext j
  unfold put CharBuf.set
  simp only [List.length_cons]
  by_cases h : j = pos
  · subst h; rw [if_neg (by omega), if_pos rfl, if_pos (by omega)]; simp
  · by_cases h2 : pos + 1 ≤ j ∧ j < pos + 1 + cs.length
    · rw [if_pos h2, if_pos (by omega)]
      have : j - pos = (j - (pos + 1)) + 1 := by omega
      rw [this, List.getD_cons_succ]
    · rw [if_neg h2, if_neg h, if_neg (by omega)]

theorem itoaLoop_spec {base : Nat} (hb : 2 ≤ base) (hb' : base < 256) (v : Nat) : ∀ (pos : Nat) (buf : CharBuf),
    pos + (lsd base v).length < 256 →
    itoaLoop base v pos buf = .ok (pos + (lsd base v).length, put buf pos ((lsd base v).map digitChar)) := by
  induction v using Nat.strongRecOn with
  | ind v ih =>
    intro pos buf hp
    unfold itoaLoop
    by_cases h0 : v = 0
    · subst h0
      have : put buf pos [] = buf := by
        funext j
        unfold put
        rw [if_neg (by simp)]
      simp [lsd_zero, this]
    · rw [if_neg h0, if_neg (by omega), dif_neg (by omega)]
      rw [lsd_step hb h0] at hp ⊢
      rw [List.length_cons] at hp
      rw [ih _ (Nat.div_lt_self (by omega) (by omega)) _ _ (by rw [Nat.mod_eq_of_lt (by omega)]; omega)]
      rw [Nat.mod_eq_of_lt (by omega : pos + 1 < 256), put_cons, List.length_cons, List.map_cons]
      have : v % base % 256 = v % base := Nat.mod_eq_of_lt (by have := Nat.mod_lt v (by omega : base > 0); omega)
      rw [this]
      congr 2
      omega

theorem itoaSwap_spec (hi : Nat) : ∀ (lo : Nat) (buf : CharBuf), lo ≤ hi + 1 →
    ∀ j, itoaSwap lo hi buf j = if lo ≤ j ∧ j ≤ hi then buf (lo + hi - j) else buf j := by
  induction hi using Nat.strongRecOn with
  | ind hi ih =>
    intro lo buf hlo j
    unfold itoaSwap
    by_cases h : lo < hi
    · rw [if_pos h, ih (hi - 1) (by omega) (lo + 1) _ (by omega)]
      unfold CharBuf.set
      by_cases h1 : lo + 1 ≤ j ∧ j ≤ hi - 1
      · rw [if_pos h1, if_neg (by omega), if_neg (by omega), if_pos (by omega)]
        congr 1
        omega
      · rw [if_neg h1]
        by_cases h2 : j = hi
        · subst h2; rw [if_pos rfl, if_pos (by omega)]; congr 1; omega
        · by_cases h3 : j = lo
          · subst h3; rw [if_neg h2, if_pos rfl, if_pos (by omega)]; congr 1; omega
          · rw [if_neg h2, if_neg h3, if_neg (by omega)]
    · rw [if_neg h]
      by_cases h1 : lo ≤ j ∧ j ≤ hi
      · rw [if_pos h1]; congr 1; omega
      · rw [if_neg h1]

/-- digit characters as written by the two loops before the reversal, least significant first -/
def lsdChars (base v : Nat) : List UInt8 := if v = 0 then [48] else (lsd base v).map digitChar

theorem lsdChars_length {base : Nat} (hb : 2 ≤ base) {v n : Nat} (hv : v < 2 ^ n) (hn : 0 < n) :
    1 ≤ (lsdChars base v).length ∧ (lsdChars base v).length ≤ n := by
  unfold lsdChars
  split
  · simp; omega
  · next h =>
    rw [List.length_map]
    refine ⟨?_, lsd_length hb n v hv⟩
    rw [lsd_step hb h]; simp

theorem lsdChars_ne {base : Nat} (hb : 2 ≤ base) (hb' : base ≤ 36) (v : Nat) : ∀ c ∈ lsdChars base v, c ≠ 0 ∧ c ≠ 45 := by
  unfold lsdChars
  split
  · intro c hc; rw [List.mem_singleton.mp hc]; decide
  · intro c hc
    obtain ⟨d, hd, rfl⟩ := List.mem_map.mp hc
    have := digitChar_ne (d := d) (by have := lsd_lt hb v d hd; omega)
    exact ⟨this.1, this.2.1⟩

theorem lsdChars_parse {base : Nat} (hb : 2 ≤ base) (hb' : base ≤ 36) (v : Nat) :
    parse base (lsdChars base v).reverse = some v := by
  unfold lsdChars
  split
  · next h =>
    subst h
    simp [parse, parseStep, show digitVal 48 = some 0 from by decide]
    omega
  · rw [← List.map_reverse]; exact parse_lsd hb hb' v

theorem lsdChars_canonical {base : Nat} (hb : 2 ≤ base) (hb' : base ≤ 36) (v : Nat) : Canonical (lsdChars base v).reverse := by
  unfold lsdChars
  split
  · exact .inl rfl
  · next h =>
    obtain ⟨l, d, hl, hd⟩ := lsd_last hb v h
    have hlt := lsd_lt hb v d (by rw [hl]; simp)
    refine .inr ⟨digitChar d, (l.map digitChar).reverse, by rw [hl]; simp, (digitChar_ne (by omega)).2.2 hd⟩

/-- The body of `itoa` behind the sign: the string from `start` on is the reversed digit string. -/
theorem itoa_body {base : Nat} (hb : 2 ≤ base) (hb' : base ≤ 36) {v : Nat} (hv : v < 2 ^ 32) (start : Nat) (hs : start ≤ 1)
    (buf : CharBuf) :
    ∃ b, (do
      let (pos, buf1) ← itoaLoop base v (if v = 0 then start + 1 else start) (if v = 0 then buf.set start 48 else buf)
      return itoaSwap start (pos - 1) (buf1.set pos 0) : Except Fault CharBuf) = .ok b ∧
      (∀ i c, (lsdChars base v).reverse[i]? = some c → b (start + i) = c) ∧ b (start + (lsdChars base v).length) = 0 ∧
      (∀ j, j < start ∨ start + (lsdChars base v).length < j → b j = buf j) := by
  have hlen := lsdChars_length hb hv (by omega)
  have hloop : itoaLoop base v (if v = 0 then start + 1 else start) (if v = 0 then buf.set start 48 else buf) =
      .ok (start + (lsdChars base v).length, put buf start (lsdChars base v)) := by
    unfold lsdChars at hlen ⊢
    by_cases h : v = 0
    · subst h
      rw [if_pos rfl, if_pos rfl, if_pos rfl, ← put_cons]
      unfold itoaLoop
      simp
      funext j
      unfold put
      rw [if_neg (by simp)]
    · rw [if_neg h] at hlen
      rw [if_neg h, if_neg h, if_neg h, itoaLoop_spec hb (by omega) v _ _ (by rw [List.length_map] at hlen; omega), List.length_map]
  rw [hloop]
  refine ⟨_, rfl, ?_, ?_, ?_⟩
  · intro i c hc
    have hi : i < (lsdChars base v).length := by
      have := (List.getElem?_eq_some_iff.mp hc).1
      simpa using this
    rw [List.getElem?_reverse hi] at hc
    rw [itoaSwap_spec _ _ _ (by omega), if_pos (by omega)]
    unfold CharBuf.set put
    rw [if_neg (by omega), if_pos (by omega)]
    have : start + (start + (lsdChars base v).length - 1) - (start + i) - start = (lsdChars base v).length - 1 - i := by omega
    rw [this, List.getD_eq_getElem?_getD, hc]
    rfl
  · rw [itoaSwap_spec _ _ _ (by omega), if_neg (by omega)]
    simp [CharBuf.set]
  · intro j hj
    rw [itoaSwap_spec _ _ _ (by omega), if_neg (by omega)]
    unfold CharBuf.set put
    rw [if_neg (by omega), if_neg (by omega)]

end Xcp
