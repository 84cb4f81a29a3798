import Verif.Model.Eth
import Verif.Spec.Framing
/-
Lemmas about the Ethernet receiver.
-/
set_option autoImplicit false
namespace Xcp
open Spec

/-- The pieces without the first `n` bytes. -/
def cutOff : Nat → List (List UInt8) → List (List UInt8)
  | _, [] => []
  | n, s :: ss => if n = 0 then s :: ss else if n < s.length then s.drop n :: ss else cutOff (n - s.length) ss

theorem cutOff_zero (ss : List (List UInt8)) : cutOff 0 ss = ss := by cases ss <;> simp [cutOff]

theorem cutOff_flatten (ss : List (List UInt8)) : ∀ n, (cutOff n ss).flatten = ss.flatten.drop n := by
  induction ss with
  | nil => intro n; simp [cutOff]
  | cons s ss ih =>
    intro n
    unfold cutOff
    split
    · next h => simp [h]
    · split
      · next h => simp [List.drop_append_of_le_length (Nat.le_of_lt h)]
      · next h =>
        rw [ih, List.flatten_cons, List.drop_append, List.drop_eq_nil_of_le (as := s) (by omega), List.nil_append]

theorem cutOff_ne (ss : List (List UInt8)) (h : ∀ s ∈ ss, s ≠ []) : ∀ n, ∀ s ∈ cutOff n ss, s ≠ [] := by
  induction ss with
  | nil => intro n s hs; simp [cutOff] at hs
  | cons t ss ih =>
    intro n s hs
    unfold cutOff at hs
    split at hs
    · exact h s hs
    · split at hs
      · next hl =>
        rcases List.mem_cons.mp hs with rfl | hs
        · intro h0
          have := congrArg List.length h0
          simp at this
          omega
        · exact h s (List.mem_cons_of_mem _ hs)
      · exact ih (fun s hs => h s (List.mem_cons_of_mem _ hs)) _ s hs

/-- A boundary of the remaining pieces is a boundary of all pieces. -/
theorem cutOff_prefix (ss : List (List UInt8)) : ∀ (n : Nat) (pre suf : List (List UInt8)), cutOff n ss = pre ++ suf → pre ≠ [] →
    n ≤ ss.flatten.length → ∃ pre0, ss = pre0 ++ suf ∧ pre0.flatten.length = n + pre.flatten.length := by
  induction ss with
  | nil =>
    intro n pre suf h hp
    simp [cutOff] at h
    exact absurd h.1 hp
  | cons s ss ih =>
    intro n pre suf h hp hn
    unfold cutOff at h
    split at h
    · next h0 => exact ⟨pre, h, by omega⟩
    · split at h
      · next hl =>
        cases pre with
        | nil => exact absurd rfl hp
        | cons x pre =>
          simp only [List.cons_append, List.cons.injEq] at h
          refine ⟨s :: pre, by rw [h.2]; rfl, ?_⟩
          rw [← h.1]
          simp only [List.flatten_cons, List.length_append, List.length_drop]
          omega
      · next hl =>
        simp only [List.flatten_cons, List.length_append] at hn
        obtain ⟨pre0, h1, h2⟩ := ih _ pre suf h hp (by omega)
        refine ⟨s :: pre0, by rw [h1]; rfl, ?_⟩
        simp only [List.flatten_cons, List.length_append]
        omega

theorem storeAt_length {buf bs : List UInt8} {off : Nat} (h : off + bs.length ≤ buf.length) : (storeAt buf off bs).length = buf.length := by
  unfold storeAt
  simp only [List.length_append, List.length_take, List.length_drop]
  omega

theorem storeAt_overlay {buf a b : List UInt8} {off : Nat} (h : off + a.length + b.length ≤ buf.length) :
    storeAt (storeAt buf off a) (off + a.length) b = storeAt buf off (a ++ b) := by
  have hlen : (buf.take off).length = off := by rw [List.length_take]; omega
  unfold storeAt
  have e1 : (buf.take off ++ a ++ buf.drop (off + a.length)).take (off + a.length) = buf.take off ++ a := by
    rw [List.take_append_of_le_length (by simp only [List.length_append]; omega), List.take_of_length_le (by simp only [List.length_append]; omega)]
  have e2 : (buf.take off ++ a ++ buf.drop (off + a.length)).drop (off + a.length + b.length) = buf.drop (off + (a ++ b).length) := by
    rw [List.drop_append, List.drop_eq_nil_of_le (by simp only [List.length_append]; omega), List.nil_append, List.drop_drop]
    congr 1
    simp only [List.length_append]
    omega
  rw [e1, e2]
  simp only [List.append_assoc]

/-- Reading data from TCP pieces that have enough bytes. -/
theorem readDataLoop_ok (ss : List (List UInt8)) (hne : ∀ s ∈ ss, s ≠ []) : ∀ (buf : List UInt8) (rem off : Nat), 0 < rem →
    rem ≤ ss.flatten.length → off + rem ≤ buf.length →
    readDataLoop true (ss.map .data) buf rem off =
      .ok (.done (storeAt buf off (ss.flatten.take rem)) ((cutOff rem ss).map .data)) := by
  induction ss with
  | nil => intro buf rem off h0 h1; simp at h1; omega
  | cons s ss ih =>
    intro buf rem off h0 h1 h2
    have hs : s.length ≠ 0 := fun h => hne s (List.mem_cons_self ..) (List.length_eq_zero_iff.mp h)
    simp only [List.flatten_cons, List.length_append] at h1
    simp only [List.map_cons, readDataLoop]
    rw [if_neg (by omega), if_neg (by omega)]
    by_cases hlt : rem ≤ s.length
    · rw [if_pos (by omega), Nat.min_eq_left hlt]
      have e1 : (s :: ss).flatten.take rem = s.take rem := by
        rw [List.flatten_cons, List.take_append_of_le_length hlt]
      have e2 : leftover true s rem (ss.map .data) = (cutOff rem (s :: ss)).map .data := by
        unfold leftover cutOff
        rw [if_neg (by omega : rem ≠ 0)]
        by_cases h : rem < s.length
        · simp [h]
        · have : rem - s.length = 0 := by omega
          simp [h, this, cutOff_zero]
      rw [e1, e2]
    · rw [if_neg (by omega), Nat.min_eq_right (by omega : s.length ≤ rem), List.take_length]
      have hl : (storeAt buf off s).length = buf.length := storeAt_length (by omega)
      rw [ih (fun s hs => hne s (List.mem_cons_of_mem _ hs)) _ _ _ (by omega) (by omega) (by rw [hl]; omega)]
      have e1 : (s :: ss).flatten.take rem = s ++ ss.flatten.take (rem - s.length) := by
        rw [List.flatten_cons, List.take_append, List.take_of_length_le (by omega : s.length ≤ rem)]
      have e2 : cutOff rem (s :: ss) = cutOff (rem - s.length) ss := by
        rw [cutOff, if_neg (by omega), if_neg (by omega)]
      rw [e1, e2, storeAt_overlay (by rw [List.length_take]; omega)]

/-- Reading more data than the buffer has room for. -/
theorem readDataLoop_oob (ss : List (List UInt8)) (hne : ∀ s ∈ ss, s ≠ []) : ∀ (buf : List UInt8) (rem off : Nat), 0 < rem →
    rem ≤ ss.flatten.length → buf.length < off + rem →
    readDataLoop true (ss.map .data) buf rem off = .error .bufOob := by
  induction ss with
  | nil => intro buf rem off h0 h1; simp at h1; omega
  | cons s ss ih =>
    intro buf rem off h0 h1 h2
    have hs : s.length ≠ 0 := fun h => hne s (List.mem_cons_self ..) (List.length_eq_zero_iff.mp h)
    simp only [List.flatten_cons, List.length_append] at h1
    simp only [List.map_cons, readDataLoop]
    rw [if_neg (by omega)]
    by_cases hlt : buf.length < off + min rem s.length
    · rw [if_pos hlt]
    · rw [if_neg hlt, if_neg (by omega), Nat.min_eq_right (by omega : s.length ≤ rem), List.take_length]
      have hl : (storeAt buf off s).length = buf.length := storeAt_length (by omega)
      exact ih (fun s hs => hne s (List.mem_cons_of_mem _ hs)) _ _ _ (by omega) (by omega) (by rw [hl]; omega)

theorem framed_length' (c : UInt16) (p : List UInt8) : (framed c p).length = p.length + 4 := by
  simp [framed]

theorem headerWord_framed {c : UInt16} {p : List UInt8} (hp : p.length < 65536) (rest : List UInt8) :
    headerWord (framed c p ++ rest) 0 = p.length := by
  simp [headerWord, framed]
  omega

/-- Reading a header that is not split. -/
theorem readHeader_ok {junk : List UInt8} (hj : junk.length = 8) {c : UInt16} {p rest s : List UInt8} {ss : List (List UInt8)}
    (hp : p.length < 65536) (hb : (s :: ss).flatten = framed c p ++ rest) (hs : 4 ≤ s.length) :
    ∃ ctr, readHeader true junk ((s :: ss).map .data) = .ok (.done (p.length, ctr) ((cutOff 4 (s :: ss)).map .data)) := by
  refine ⟨headerWord (storeAt junk 0 (s.take 4)) 2, ?_⟩
  simp only [readHeader, List.map_cons, readHeaderLoop, Nat.min_eq_left hs]
  have hlen : (storeAt junk 0 (s.take 4)).length = 8 := by
    rw [storeAt_length (by rw [List.length_take, hj]; omega), hj]
  rw [if_neg (by omega), if_neg (by omega), if_pos trivial, if_neg (by omega)]
  have e1 : headerWord (storeAt junk 0 (s.take 4)) 0 = p.length := by
    have h4 : s.take 4 = (framed c p).take 4 := by
      have := congrArg (List.take 4) hb
      rw [List.flatten_cons, List.take_append_of_le_length hs, List.take_append_of_le_length (by rw [framed_length']; omega)] at this
      exact this
    rw [h4]
    simp [headerWord, framed, storeAt]
    omega
  have e2 : leftover true s 4 (ss.map .data) = (cutOff 4 (s :: ss)).map .data := by
    unfold leftover cutOff
    rw [if_neg (by omega : (4 : Nat) ≠ 0)]
    by_cases h : 4 < s.length
    · simp [h]
    · have : 4 - s.length = 0 := by omega
      simp [h, this, cutOff_zero]
  rw [e1, e2]

theorem leftover_size (tcp : Bool) {bs : List UInt8} {n : Nat} (hn : n ≠ 0) (hb : n ≤ bs.length) (rest : Arrivals) :
    (leftover tcp bs n rest).size < Arrivals.size (.data bs :: rest) := by
  unfold leftover
  split
  · simp [Arrivals.size]; omega
  · simp [Arrivals.size]

theorem readHeaderLoop_size (tcp : Bool) (as : Arrivals) : ∀ (buf : List UInt8) (rem off : Nat) (x : Nat × Nat) (rest : Arrivals),
    readHeaderLoop tcp as buf rem off = .ok (.done x rest) → rest.size < as.size := by
  induction as with
  | nil => intro buf rem off x rest h; simp [readHeaderLoop] at h
  | cons a as ih =>
    intro buf rem off x rest h
    cases a with
    | err =>
      have hc : Arrivals.size (.err :: as) = Arrivals.size as + 1 := by simp [Arrivals.size]; omega
      simp only [readHeaderLoop] at h
      split at h
      · split at h
        · cases h
        · cases h; omega
      · have := ih _ _ _ _ _ h; omega
    | data bs =>
      have hc : Arrivals.size (.data bs :: as) = bs.length + 1 + Arrivals.size as := by simp [Arrivals.size]
      simp only [readHeaderLoop] at h
      split at h
      · cases h
      · next hn =>
        split at h
        · cases h
        · split at h
          · split at h
            · cases h
            · cases h
              exact leftover_size tcp hn (by omega) as
          · have := ih _ _ _ _ _ h; omega

theorem readDataLoop_size (tcp : Bool) (as : Arrivals) : ∀ (buf : List UInt8) (rem off : Nat) (x : List UInt8) (rest : Arrivals),
    readDataLoop tcp as buf rem off = .ok (.done x rest) → rest.size < as.size := by
  induction as with
  | nil => intro buf rem off x rest h; simp [readDataLoop] at h
  | cons a as ih =>
    intro buf rem off x rest h
    cases a with
    | err =>
      have hc : Arrivals.size (.err :: as) = Arrivals.size as + 1 := by simp [Arrivals.size]; omega
      simp only [readDataLoop] at h
      split at h
      · cases h; omega
      · have := ih _ _ _ _ _ h; omega
    | data bs =>
      have hc : Arrivals.size (.data bs :: as) = bs.length + 1 + Arrivals.size as := by simp [Arrivals.size]
      simp only [readDataLoop] at h
      split at h
      · cases h
      · next hn =>
        split at h
        · cases h
        · split at h
          · cases h
            exact leftover_size tcp hn (by omega) as
          · have := ih _ _ _ _ _ h; omega

theorem readHeaderLoop_returns (tcp : Bool) (as : Arrivals) : ∀ (buf : List UInt8) (rem off : Nat),
    readHeaderLoop tcp as buf rem off ≠ .error .noReturn := by
  induction as with
  | nil => intro buf rem off h; simp [readHeaderLoop] at h
  | cons a as ih =>
    intro buf rem off h
    cases a with
    | err =>
      simp only [readHeaderLoop] at h
      split at h
      · split at h <;> cases h
      · exact ih _ _ _ h
    | data bs =>
      simp only [readHeaderLoop] at h
      split at h
      · cases h
      · split at h
        · cases h
        · split at h
          · split at h <;> cases h
          · exact ih _ _ _ h

theorem readDataLoop_returns (tcp : Bool) (as : Arrivals) : ∀ (buf : List UInt8) (rem off : Nat),
    readDataLoop tcp as buf rem off ≠ .error .noReturn := by
  induction as with
  | nil => intro buf rem off h; simp [readDataLoop] at h
  | cons a as ih =>
    intro buf rem off h
    cases a with
    | err =>
      simp only [readDataLoop] at h
      split at h
      · cases h
      · exact ih _ _ _ h
    | data bs =>
      simp only [readDataLoop] at h
      split at h
      · cases h
      · split at h
        · cases h
        · split at h
          · cases h
          · exact ih _ _ _ h

/-- The bound on the number of iterations in the model is never reached. -/
theorem rxLoop_returns (fuel : Nat) : ∀ (e : Eth) (as : Arrivals), as.size < fuel → e.rxLoop fuel as ≠ .error .noReturn := by
  induction fuel with
  | zero => intro e as h; omega
  | succ n ih =>
    intro e as hf h
    simp only [Eth.rxLoop] at h
    split at h
    · next hh =>
      cases h
      exact readHeaderLoop_returns _ _ _ _ _ hh
    · cases h
    · next hh =>
      have s1 := readHeaderLoop_size _ _ _ _ _ _ _ hh
      split at h
      · next hd =>
        cases h
        unfold readData at hd
        split at hd
        · cases hd
        · exact readDataLoop_returns _ _ _ _ _ hd
      · cases h
      · next hd =>
        have s2 := by
          unfold readData at hd
          split at hd
          · cases hd
          · exact readDataLoop_size _ _ _ _ _ _ _ hd
        split at h
        · cases h
        · split at h
          · next hr =>
            cases h
            exact ih _ _ (by omega) hr
          · cases h

theorem rxHandler_returns (e : Eth) (as : Arrivals) : e.rxHandler as ≠ .error .noReturn :=
  rxLoop_returns _ _ _ (by omega)

end Xcp
