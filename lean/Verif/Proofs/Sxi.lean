import Verif.Model.Sxi
import Verif.Spec.Framing
/-
Lemmas about the serial receiver.
-/
set_option autoImplicit false
namespace Xcp
open Spec

theorem framed_length (c : UInt16) (p : List UInt8) : (framed c p).length = p.length + 4 := by simp [framed]

/-- The receiver after `k` bytes of the frame `f` of a packet of `n` bytes, `0 < k < n + 4`. -/
structure Mid (buflen n k : Nat) (f : List UInt8) (r : Rcv) : Prop where
  len : r.buf.length = buflen
  index : r.index = k
  got : r.buf.take k = f.take k
  st : (k = 1 ∧ r.state = .untilLength) ∨ (2 ≤ k ∧ r.state = .remaining ∧ r.dlc = n ∧ r.remaining = n + 4 - k)

theorem take_set_succ {l : List UInt8} {k : Nat} (h : k < l.length) (b : UInt8) (f : List UInt8) (ht : l.take k = f.take k)
    (hb : f[k]? = some b) : (l.set k b).take (k + 1) = f.take (k + 1) := by
  rw [List.take_add_one, List.take_add_one, hb, List.getElem?_set_self h, List.take_set_of_le (by omega), ht]

theorem sxiWord_framed {l : List UInt8} {c : UInt16} {p : List UInt8} (hp : p.length < 65536) (h : l.take 2 = (framed c p).take 2) :
    sxiWord l 0 = p.length := by
  have h0 : l[0]? = some (UInt8.ofNat p.length) := by
    have := congrArg (fun x => x[0]?) h
    simpa [List.getElem?_take, framed] using this
  have h1 : l[1]? = some (UInt8.ofNat (p.length / 256)) := by
    have := congrArg (fun x => x[1]?) h
    simpa [List.getElem?_take, framed] using this
  unfold sxiWord
  rw [List.getD_eq_getElem?_getD, List.getD_eq_getElem?_getD, h0, h1]
  simp
  omega

/-- The receiver between packets. -/
structure Between (buflen : Nat) (r : Rcv) : Prop where
  len : r.buf.length = buflen
  index : r.index = 0
  st : r.state = .idle

theorem feed_first {buflen : Nat} {r : Rcv} (h : Between buflen r) (hb : 0 < buflen) (now : UInt32) (c : UInt16) (p : List UInt8)
    {b : UInt8} (hb0 : (framed c p)[0]? = some b) :
    ∃ r', r.feed now b = .ok (r', none) ∧ Mid buflen p.length 1 (framed c p) r' := by
  obtain ⟨h1, h2, h3⟩ := h
  unfold Rcv.feed
  rw [if_neg (by omega)]
  simp only [h3]
  refine ⟨_, rfl, ?_, ?_, ?_, ?_⟩
  · simp [h1]
  · simp [h2]
  · have := take_set_succ (l := r.buf) (k := 0) (by omega) b (framed c p) (by simp) hb0
    simpa [h2] using this
  · exact .inl ⟨rfl, by simp⟩

theorem feed_mid {buflen k : Nat} {r : Rcv} {c : UInt16} {p : List UInt8} (h : Mid buflen p.length k (framed c p) r)
    (hk : k + 1 < p.length + 4) (hb : k < buflen) (hp : p.length ≤ 65532) (now : UInt32) {b : UInt8}
    (hbk : (framed c p)[k]? = some b) :
    ∃ r', r.feed now b = .ok (r', none) ∧ Mid buflen p.length (k + 1) (framed c p) r' := by
  obtain ⟨h1, h2, h3, h4⟩ := h
  have ht := take_set_succ (l := r.buf) (k := k) (by omega) b (framed c p) h3 hbk
  unfold Rcv.feed
  rw [if_neg (by omega)]
  rcases h4 with ⟨hk1, hs⟩ | ⟨hk2, hs, hd, hr⟩
  · subst hk1
    have hw := sxiWord_framed (by omega) ht
    simp only [hs, h2, if_true, hw]
    refine ⟨_, rfl, ?_, ?_, ?_, .inr ⟨by omega, ?_, ?_, ?_⟩⟩
    · simp [h1]
    · simp
    · simpa using ht
    · simp
    · simp
    · simp; omega
  · have hrem : (r.remaining + 65535) % 65536 = p.length + 4 - (k + 1) := by omega
    have hne : ¬ (p.length + 4 - (k + 1) = 0) := by omega
    simp only [hs, h2]
    by_cases h3' : k = 3
    · subst h3'
      simp only [if_true, hrem, hne, if_false]
      refine ⟨_, rfl, ?_, ?_, ?_, .inr ⟨by omega, ?_, ?_, ?_⟩⟩
      · simp [h1]
      · simp
      · simpa using ht
      · simp
      · simp [hd]
      · simp
    · simp only [if_neg h3', hrem, hne, if_false]
      refine ⟨_, rfl, ?_, ?_, ?_, .inr ⟨by omega, ?_, ?_, ?_⟩⟩
      · simp [h1]
      · simp; omega
      · simpa using ht
      · simp
      · simp [hd]
      · simp

theorem feed_last {buflen : Nat} {r : Rcv} {c : UInt16} {p : List UInt8} (h : Mid buflen p.length (p.length + 3) (framed c p) r)
    (hb : p.length + 3 < buflen) (now : UInt32) {b : UInt8} (hbk : (framed c p)[p.length + 3]? = some b) :
    ∃ r' q, r.feed now b = .ok (r', some q) ∧ Between buflen r' ∧ q.len = p.length ∧ delivered q = p ∧
      q.buf.length + 4 = buflen := by
  obtain ⟨h1, h2, h3, h4⟩ := h
  have ht := take_set_succ (l := r.buf) (k := p.length + 3) (by omega) b (framed c p) h3 hbk
  have hlen : (r.buf.set (p.length + 3) b).length = buflen := by simp [h1]
  have hdrop : ((r.buf.set (p.length + 3) b).drop 4).take p.length = p := by
    have := congrArg (List.drop 4) ht
    rw [List.drop_take] at this
    rw [show p.length + 3 + 1 - 4 = p.length by omega] at this
    rw [this]
    rw [List.take_of_length_le (by rw [framed_length]; omega)]
    simp [framed]
  unfold Rcv.feed
  rw [if_neg (by omega)]
  rcases h4 with ⟨hk1, hs⟩ | ⟨hk2, hs, hd, hr⟩
  · omega
  · have hrem : (r.remaining + 65535) % 65536 = 0 := by omega
    simp only [hs, h2]
    by_cases h3' : p.length + 3 = 3
    · simp only [h3', if_true, hrem, hd]
      refine ⟨_, _, rfl, ⟨?_, ?_, ?_⟩, ?_, ?_, ?_⟩
      · simp [h1, Rcv.resetSM]
      · simp [Rcv.resetSM]
      · simp [Rcv.resetSM]
      · simp
      · unfold delivered; rw [← h3']; exact hdrop
      · simp [h1]; omega
    · simp only [if_neg h3', hrem, if_true, hd]
      refine ⟨_, _, rfl, ⟨?_, ?_, ?_⟩, ?_, ?_, ?_⟩
      · simp [h1, Rcv.resetSM]
      · simp [Rcv.resetSM]
      · simp [Rcv.resetSM]
      · simp
      · unfold delivered; exact hdrop
      · simp [h1]; omega

theorem feedAll_cons {r r1 : Rcv} {now : UInt32} {o : UInt8} {out : Option Pdu} (h : r.feed now o = .ok (r1, out))
    (rest : List (UInt32 × UInt8)) :
    r.feedAll ((now, o) :: rest) = (r1.feedAll rest).map fun x => (x.1, out.toList ++ x.2) := by
  simp only [Rcv.feedAll, h]
  show Except.bind (Except.ok (r1, out)) _ = _
  simp only [Except.bind]
  cases r1.feedAll rest <;> rfl

theorem feedAll_append {r r1 : Rcv} {a : List (UInt32 × UInt8)} {o1 : List Pdu} (h : r.feedAll a = .ok (r1, o1))
    (b : List (UInt32 × UInt8)) : r.feedAll (a ++ b) = (r1.feedAll b).map fun x => (x.1, o1 ++ x.2) := by
  induction a generalizing r o1 with
  | nil =>
    simp only [Rcv.feedAll] at h
    cases h
    simp only [List.nil_append]
    cases r1.feedAll b <;> rfl
  | cons x a ih =>
    obtain ⟨now, o⟩ := x
    cases hf : r.feed now o with
    | error e => simp only [Rcv.feedAll, hf] at h; cases h
    | ok y =>
      obtain ⟨r2, out⟩ := y
      rw [List.cons_append, feedAll_cons hf]
      rw [feedAll_cons hf] at h
      cases h2 : r2.feedAll a with
      | error e => rw [h2] at h; cases h
      | ok z =>
        obtain ⟨r3, o3⟩ := z
        rw [h2] at h
        cases h
        rw [ih h2]
        cases r3.feedAll b with
        | error e => rfl
        | ok w => simp [Except.map]

/-- Bytes `k` to `m` of a frame, still not complete. -/
theorem feed_range {buflen : Nat} {c : UInt16} {p : List UInt8} (hp : p.length ≤ 65532) (d : Nat) :
    ∀ (k : Nat) (r : Rcv) (ts : List (UInt32 × UInt8)), Mid buflen p.length k (framed c p) r → k + d < p.length + 4 →
      k + d ≤ buflen → ts.map Prod.snd = ((framed c p).drop k).take d →
      ∃ r', r.feedAll ts = .ok (r', []) ∧ Mid buflen p.length (k + d) (framed c p) r' := by
  induction d with
  | zero =>
    intro k r ts hm _ _ ht
    have : ts = [] := by simpa using ht
    subst this
    exact ⟨r, rfl, hm⟩
  | succ d ih =>
    intro k r ts hm hk hb ht
    have hlt : k < (framed c p).length := by rw [framed_length]; omega
    rw [List.drop_eq_getElem_cons hlt, List.take_succ_cons] at ht
    cases ts with
    | nil => simp at ht
    | cons x ts =>
      obtain ⟨now, o⟩ := x
      simp only [List.map_cons, List.cons.injEq] at ht
      obtain ⟨ho, ht⟩ := ht
      obtain ⟨r1, h1, hm1⟩ := feed_mid hm (by omega) (by omega) hp now (b := o) (by rw [ho]; exact List.getElem?_eq_getElem hlt)
      obtain ⟨r2, h2, hm2⟩ := ih (k + 1) r1 ts hm1 (by omega) (by omega) ht
      refine ⟨r2, ?_, by rw [show k + (d + 1) = k + 1 + d by omega]; exact hm2⟩
      rw [feedAll_cons h1, h2]
      rfl

theorem map_snd_split {ts : List (UInt32 × UInt8)} {a b : List UInt8} (h : ts.map Prod.snd = a ++ b) :
    ∃ ta tb, ts = ta ++ tb ∧ ta.map Prod.snd = a ∧ tb.map Prod.snd = b := by
  refine ⟨ts.take a.length, ts.drop a.length, (List.take_append_drop ..).symm, ?_, ?_⟩
  · rw [List.map_take, h]; simp
  · rw [List.map_drop, h]; simp

/-- The first `m` bytes of a frame. -/
theorem feed_prefix {buflen : Nat} {r : Rcv} (h : Between buflen r) {c : UInt16} {p : List UInt8} (hp : p.length ≤ 65532)
    {m : Nat} (h1 : 1 ≤ m) (hm : m < p.length + 4) (hb : m ≤ buflen) {ts : List (UInt32 × UInt8)}
    (ht : ts.map Prod.snd = (framed c p).take m) :
    ∃ r', r.feedAll ts = .ok (r', []) ∧ Mid buflen p.length m (framed c p) r' := by
  have hlt : 0 < (framed c p).length := by rw [framed_length]; omega
  have hsplit : (framed c p).take m = (framed c p)[0] :: ((framed c p).drop 1).take (m - 1) := by
    obtain ⟨m', rfl⟩ : ∃ m', m = m' + 1 := ⟨m - 1, by omega⟩
    have h0 := List.drop_eq_getElem_cons hlt
    rw [List.drop_zero] at h0
    conv => lhs; rw [h0]
    rw [List.take_succ_cons]
    rfl
  rw [hsplit] at ht
  cases ts with
  | nil => simp at ht
  | cons x ts =>
    obtain ⟨now, o⟩ := x
    simp only [List.map_cons, List.cons.injEq] at ht
    obtain ⟨ho, ht⟩ := ht
    obtain ⟨r1, hf1, hm1⟩ := feed_first h (by omega) now c p (b := o) (by rw [ho]; exact List.getElem?_eq_getElem hlt)
    obtain ⟨r2, h2, hm2⟩ := feed_range hp (m - 1) 1 r1 ts hm1 (by omega) (by omega) ht
    refine ⟨r2, ?_, by rw [show m = 1 + (m - 1) by omega]; exact hm2⟩
    rw [feedAll_cons hf1, h2]
    rfl

/-- A whole frame. -/
theorem feed_frame {buflen : Nat} {r : Rcv} (h : Between buflen r) {c : UInt16} {p : List UInt8} (hp : p.length ≤ 65532)
    (hb : p.length + 4 ≤ buflen) {ts : List (UInt32 × UInt8)} (ht : ts.map Prod.snd = framed c p) :
    ∃ r' q, r.feedAll ts = .ok (r', [q]) ∧ Between buflen r' ∧ q.len = p.length ∧ delivered q = p ∧ q.buf.length + 4 = buflen := by
  have hlt : p.length + 3 < (framed c p).length := by rw [framed_length]; omega
  have hsplit : framed c p = (framed c p).take (p.length + 3) ++ [(framed c p)[p.length + 3]] := by
    have h1 := (List.take_append_drop (p.length + 3) (framed c p)).symm
    rw [List.drop_eq_getElem_cons hlt] at h1
    have h2 : (framed c p).drop (p.length + 3 + 1) = [] := List.drop_eq_nil_of_le (by rw [framed_length]; omega)
    rw [h2] at h1
    exact h1
  rw [hsplit] at ht
  obtain ⟨ta, tb, rfl, hta, htb⟩ := map_snd_split ht
  obtain ⟨r1, h1, hm⟩ := feed_prefix h hp (by omega) (by omega) (by omega) hta
  obtain ⟨now, o, rfl, ho⟩ : ∃ now o, tb = [(now, o)] ∧ o = (framed c p)[p.length + 3] := by
    cases tb with
    | nil => simp at htb
    | cons x tb =>
      simp only [List.map_cons, List.cons.injEq, List.map_eq_nil_iff] at htb
      exact ⟨x.1, x.2, by rw [htb.2], htb.1⟩
  obtain ⟨r2, q, h2, hbt, hq⟩ := feed_last hm (by omega) now (b := o) (by rw [ho]; exact List.getElem?_eq_getElem hlt)
  refine ⟨r2, q, ?_, hbt, hq⟩
  rw [feedAll_append h1, feedAll_cons h2]
  rfl

end Xcp
