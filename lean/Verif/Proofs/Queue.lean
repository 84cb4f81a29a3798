import Verif.Proofs.Layout
/-
The packet queue as a list of pending packets.
-/
set_option autoImplicit false
namespace Xcp
open Spec

/-- A packet the queue can take: not empty, at most MAX_DTO and at most 255 bytes (the length of a
slot is an 8-bit number). -/
def Spec.Fits (cfg : Cfg) (bs : List UInt8) : Prop := 0 < bs.length ∧ bs.length ≤ cfg.maxDto ∧ bs.length < 256

/-- The queue holds the pending packets `l`, oldest first; `n` packets have been accepted since it was
initialised. -/
structure Spec.Holds (q : Queue) (l : List (List UInt8)) (n : Nat) : Prop where
  head : q.head = n
  tail : q.tail + l.length = n
  limit : n ≤ 4
  slots : ∀ i d, l[i]? = some d → q.slots (q.tail + i) = ⟨d.length, d⟩

theorem holds_init : Holds queueInit [] 0 := ⟨rfl, rfl, by omega, fun i d h => by simp at h⟩

theorem Spec.Holds.empty {q : Queue} {l : List (List UInt8)} {n : Nat} (h : Holds q l n) : q.empty = l.isEmpty := by
  have h1 := h.head
  have h2 := h.tail
  unfold Queue.empty
  cases l with
  | nil => simp at h2 ⊢; omega
  | cons a l => simp at h2 ⊢; omega

theorem Spec.Holds.full {q : Queue} {l : List (List UInt8)} {n : Nat} (h : Holds q l n) : q.full = true ↔ l.length = 4 := by
  have h1 := h.head
  have h2 := h.tail
  have h3 := h.limit
  unfold Queue.full queueSize
  rw [beq_iff_eq]
  constructor
  · intro h; omega
  · intro h; omega

/-- A full queue refuses and flags the overload. -/
theorem enqueue_full {cfg : Cfg} {q : Queue} {l : List (List UInt8)} {n : Nat} (h : Holds q l n) (hl : l.length = 4)
    (d : List UInt8) : q.enqueue cfg d = .ok { q with overload := true } ∧ Holds { q with overload := true } l n := by
  refine ⟨?_, h.head, h.tail, h.limit, h.slots⟩
  unfold Queue.enqueue
  rw [if_pos (h.full.mpr hl)]

/-- After four accepted packets, the next one is stored outside the queue. -/
theorem enqueue_oob {cfg : Cfg} {q : Queue} {l : List (List UInt8)} (h : Holds q l 4) (hl : l.length ≠ 4)
    (d : List UInt8) : q.enqueue cfg d = .error .queueOob := by
  unfold Queue.enqueue
  rw [if_neg (fun hf => hl (h.full.mp hf)), if_pos (by rw [h.head]; decide)]

theorem enqueue_ok {cfg : Cfg} {q : Queue} {l : List (List UInt8)} {n : Nat} (h : Holds q l n) (hn : n < 4)
    {d : List UInt8} (hd : Fits cfg d) :
    ∃ q', q.enqueue cfg d = .ok q' ∧ Holds q' (l ++ [d]) (n + 1) ∧ q'.overload = q.overload := by
  have h1 := h.head
  have h2 := h.tail
  obtain ⟨d1, d2, d3⟩ := hd
  unfold Queue.enqueue
  rw [if_neg (fun hf => by have := h.full.mp hf; omega), if_neg (by rw [h1]; unfold queueSize; omega), if_neg (by omega),
    if_neg (by simp; intro _ h; simp [h] at d1)]
  refine ⟨_, rfl, ⟨?_, ?_, by omega, ?_⟩, rfl⟩
  · show (q.head + 1) % (queueSize + 1) = n + 1
    unfold queueSize
    rw [Nat.mod_eq_of_lt (by omega), h1]
  · simp; omega
  · intro i x hx
    show (if q.tail + i = q.head then _ else q.slots (q.tail + i)) = _
    by_cases hi : i < l.length
    · rw [if_neg (by omega)]
      rw [List.getElem?_append_left hi] at hx
      exact h.slots i x hx
    · have : i = l.length := by have := getElem?_lt hx; simp at this; omega
      subst this
      simp at hx
      subst hx
      rw [if_pos (by omega), Nat.mod_eq_of_lt d3]

theorem dequeue_ok {cfg : Cfg} {q : Queue} {d : List UInt8} {l : List (List UInt8)} {n : Nat} (h : Holds q (d :: l) n)
    (hd : Fits cfg d) : ∃ q', q.dequeue cfg = .ok (q', d) ∧ Holds q' l n ∧ q'.overload = q.overload := by
  have h1 := h.head
  have h2 := h.tail
  have h3 := h.limit
  obtain ⟨d1, d2, d3⟩ := hd
  have hs := h.slots 0 d rfl
  simp at h2 hs
  unfold Queue.dequeue
  simp only [hs]
  rw [if_neg (by unfold queueSize; omega), if_neg (by omega), if_neg (by simp; intro _ h; simp [h] at d1)]
  refine ⟨{ q with tail := (q.tail + 1) % (queueSize + 1) }, by rw [List.take_length], ⟨h1, ?_, h3, ?_⟩, rfl⟩
  · show (q.tail + 1) % (queueSize + 1) + _ = n
    unfold queueSize
    rw [Nat.mod_eq_of_lt (by omega)]
    omega
  · intro i x hx
    show q.slots ((q.tail + 1) % (queueSize + 1) + i) = _
    unfold queueSize
    rw [Nat.mod_eq_of_lt (by omega), Nat.add_assoc, Nat.add_comm 1 i]
    exact h.slots (i + 1) x (by simpa using hx)

/-- The frames `fs` are DAQ packets with contents `ps`, in this order. -/
def Spec.Dtos (cfg : Cfg) (fs : List Frame) (ps : List (List UInt8)) : Prop :=
  (∀ f ∈ fs, f.kind = .dto) ∧ fs.map (payload cfg) = ps

/-- `XcpDaq_TransmitDtos` sends all pending packets in order and leaves the queue empty. -/
theorem transmit_holds {cfg : Cfg} {l : List (List UInt8)} {n : Nat} : ∀ (fuel : Nat) {s : St}, Holds s.daq.queue l n →
    l.length < fuel → (∀ d ∈ l, Fits cfg d) →
    ∃ s' fs, transmit cfg fuel s = .ok s' ∧ s'.tx = s.tx ++ fs ∧ Dtos cfg fs l ∧ Holds s'.daq.queue [] n ∧
      s'.daq.queue.overload = s.daq.queue.overload := by
  induction l with
  | nil =>
    intro fuel s h hf _
    cases fuel with
    | zero => simp at hf
    | succ fuel =>
      refine ⟨s, [], ?_, by simp, ⟨by simp, rfl⟩, h, rfl⟩
      unfold transmit
      rw [if_pos (by rw [h.empty]; rfl)]
  | cons d l ih =>
    intro fuel s h hf hall
    cases fuel with
    | zero => simp at hf
    | succ fuel =>
      obtain ⟨q', hq, hh, ho⟩ := dequeue_ok h (hall d (by simp))
      obtain ⟨s', fs, e, htx, ⟨hk, hm⟩, hh', ho'⟩ := ih fuel
        (s := emit cfg { s with daq := { s.daq with queue := q' } } .dto d) hh (by simp at hf; omega)
        (fun x hx => hall x (by simp [hx]))
      refine ⟨s', ⟨.dto, header cfg d.length s.counter ++ d⟩ :: fs, ?_, ?_, ⟨?_, ?_⟩, hh', ho'.trans ho⟩
      · unfold transmit
        rw [if_neg (by rw [h.empty]; simp), hq]
        exact e
      · rw [htx, emit_tx]; simp
      · intro f hf
        rcases List.mem_cons.mp hf with rfl | hf
        · rfl
        · exact hk f hf
      · rw [List.map_cons, hm, payload_emit]

end Xcp
