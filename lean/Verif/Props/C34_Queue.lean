import Verif.Proofs.Queue
/-
C34: the packet queue is first-in first-out, loses nothing below its capacity and can be used for any
number of packets.

The first two parts hold for the first four packets after initialisation; the fifth one is stored
outside the queue (`C34_fails`): the indices run from 0 to 4 while there are four slots.
-/
set_option autoImplicit false
namespace Xcp
open Spec

/-- What is done with the queue. -/
inductive Spec.QueueOp where
  | put (bs : List UInt8)
  | get

/-- Operations on the queue, with the packets taken out. -/
def runQueue (cfg : Cfg) : Queue → List QueueOp → Except Fault (Queue × List (List UInt8))
  | q, [] => .ok (q, [])
  | q, .put bs :: ops => do
    let q' ← q.enqueue cfg bs
    runQueue cfg q' ops
  | q, .get :: ops =>
    if q.empty then runQueue cfg q ops
    else do
      let (q', d) ← q.dequeue cfg
      let (q'', out) ← runQueue cfg q' ops
      return (q'', d :: out)

/-- A first-in first-out queue of capacity 4: pending packets, overload flag, packets taken out. -/
def Spec.ideal : List (List UInt8) → Bool → List QueueOp → List (List UInt8) × Bool × List (List UInt8)
  | l, o, [] => (l, o, [])
  | l, o, .put bs :: ops => if l.length = 4 then ideal l true ops else ideal (l ++ [bs]) o ops
  | [], o, .get :: ops => ideal [] o ops
  | d :: l, o, .get :: ops => ((ideal l o ops).1, (ideal l o ops).2.1, d :: (ideal l o ops).2.2)

/-- How many packets an ideal queue accepts. -/
def Spec.accepts : List (List UInt8) → List QueueOp → Nat
  | _, [] => 0
  | l, .put bs :: ops => if l.length = 4 then accepts l ops else accepts (l ++ [bs]) ops + 1
  | l, .get :: ops => accepts l.tail ops

theorem runQueue_ok {cfg : Cfg} (ops : List QueueOp) : ∀ {q : Queue} {l : List (List UInt8)} {n : Nat}, Holds q l n →
    (∀ d ∈ l, Fits cfg d) → (∀ bs, .put bs ∈ ops → Fits cfg bs) → n + accepts l ops ≤ 4 →
    ∃ q', runQueue cfg q ops = .ok (q', (ideal l q.overload ops).2.2) ∧ Holds q' (ideal l q.overload ops).1 (n + accepts l ops) ∧
      q'.overload = (ideal l q.overload ops).2.1 := by
  induction ops with
  | nil => intro q l n h _ _ _; exact ⟨q, rfl, h, rfl⟩
  | cons op ops ih =>
    intro q l n h hl hops hn
    cases op with
    | put bs =>
      by_cases h4 : l.length = 4
      · obtain ⟨e, hh⟩ := enqueue_full (cfg := cfg) h h4 bs
        simp only [runQueue, ideal, accepts, e, h4, if_true, ok_bind] at hn ⊢
        exact ih hh hl (fun b hb => hops b (by simp [hb])) hn
      · simp only [accepts, if_neg h4] at hn
        have hb := hops bs (by simp)
        obtain ⟨q', e, hh, ho⟩ := enqueue_ok (cfg := cfg) h (by omega) hb
        simp only [runQueue, ideal, accepts, e, if_neg h4, ok_bind]
        rw [← ho, show n + (accepts (l ++ [bs]) ops + 1) = n + 1 + accepts (l ++ [bs]) ops by omega]
        exact ih hh (by intro d hd; rcases List.mem_append.mp hd with hd | hd
                        · exact hl d hd
                        · simp at hd; subst hd; exact hb) (fun b hb => hops b (by simp [hb])) (by omega)
    | get =>
      cases l with
      | nil =>
        simp only [runQueue, ideal, accepts, h.empty, List.isEmpty_nil, if_true, List.tail_nil] at hn ⊢
        exact ih h hl (fun b hb => hops b (by simp [hb])) hn
      | cons d l =>
        obtain ⟨q', e, hh, ho⟩ := dequeue_ok (cfg := cfg) h (hl d (by simp))
        obtain ⟨q'', e', hh', ho'⟩ := ih hh (fun x hx => hl x (by simp [hx])) (fun b hb => hops b (by simp [hb])) hn
        rw [ho] at e' hh' ho'
        refine ⟨q'', ?_, hh', ho'⟩
        simp only [runQueue, h.empty, List.isEmpty_cons, e, ok_bind, e']
        rfl

/-- C34, partial: as long as no more than four packets are accepted, whatever the order of operations,
the queue is a first-in first-out queue of capacity 4 that flags overloads. -/
theorem C34_fifo_partial {cfg : Cfg} (ops : List QueueOp) (hops : ∀ bs, .put bs ∈ ops → Fits cfg bs)
    (hn : accepts [] ops ≤ 4) :
    ∃ q, runQueue cfg queueInit ops = .ok (q, (ideal [] false ops).2.2) ∧ q.overload = (ideal [] false ops).2.1 ∧
      q.empty = (ideal [] false ops).1.isEmpty := by
  obtain ⟨q, e, hh, ho⟩ := runQueue_ok (cfg := cfg) ops holds_init (by simp) hops (by simpa using hn)
  exact ⟨q, e, ho, hh.empty⟩

theorem runQueue_append {cfg : Cfg} (ops ops' : List QueueOp) : ∀ {q q' : Queue} {out : List (List UInt8)},
    runQueue cfg q ops = .ok (q', out) → ∀ {f : Fault}, runQueue cfg q' ops' = .error f →
    runQueue cfg q (ops ++ ops') = .error f := by
  induction ops with
  | nil => intro q q' out h f hf; cases h; exact hf
  | cons op ops ih =>
    intro q q' out h f hf
    cases op with
    | put bs =>
      simp only [List.cons_append, runQueue] at h ⊢
      cases he : q.enqueue cfg bs with
      | error g => rw [he] at h; cases h
      | ok q1 => rw [he] at h; exact ih h hf
    | get =>
      simp only [List.cons_append, runQueue] at h ⊢
      split
      · rename_i hemp; rw [if_pos hemp] at h; exact ih h hf
      · rename_i hemp
        rw [if_neg hemp] at h
        cases he : q.dequeue cfg with
        | error g => rw [he] at h; cases h
        | ok r =>
          obtain ⟨q1, d⟩ := r
          rw [he] at h
          simp only [ok_bind] at h ⊢
          cases hr : runQueue cfg q1 ops with
          | error g => rw [hr] at h; cases h
          | ok r' =>
            obtain ⟨q2, o2⟩ := r'
            rw [hr] at h
            cases h
            rw [ih hr hf]
            rfl

/-- C34 is false for more packets: after any operations with four packets accepted and at least one of
them taken out, the next packet is stored outside the queue. -/
theorem C34_fails {cfg : Cfg} (ops : List QueueOp) (hops : ∀ bs, .put bs ∈ ops → Fits cfg bs) (hn : accepts [] ops = 4)
    (hget : (ideal [] false ops).1.length ≠ 4) (bs : List UInt8) :
    runQueue cfg queueInit (ops ++ [.put bs]) = .error .queueOob := by
  obtain ⟨q, e, hh, ho⟩ := runQueue_ok (cfg := cfg) ops holds_init (by simp) hops (by omega)
  rw [hn] at hh
  refine runQueue_append ops [.put bs] e ?_
  simp only [runQueue, enqueue_oob hh hget bs]
  rfl

/-- Two packets go in, one comes out, another two in, the rest come out in order. -/
example : (runQueue Ex.sim queueInit [.put [1, 2], .put [3], .get, .put [4], .put [5, 6, 7], .get, .get, .get, .get]).toOption.map Prod.snd
    = some [[1, 2], [3], [4], [5, 6, 7]] := by decide +kernel
/-- With four pending packets the fifth is dropped and the overload is flagged. -/
example : (runQueue Ex.sim queueInit [.put [1], .put [2], .put [3], .put [4], .put [5], .get, .get, .get, .get, .get]).toOption.map
    (fun r => (r.1.overload, r.2)) = some (true, [[1], [2], [3], [4]]) := by decide +kernel
/-- The defect as a master sees it: one list with one ODT of one entry; the fifth event leaves the queue. -/
example : Ex.faultOf Ex.sim ([Ex.c [0xFF], Ex.c [0xD6], Ex.c [0xD5, 0, 1, 0], Ex.c [0xD4, 0, 0, 0, 1], Ex.c [0xD3, 0, 0, 0, 0, 1],
    Ex.c [0xE2, 0, 0, 0, 0, 0], Ex.c [0xE1, 0xFF, 2, 0, 0x10, 0, 0, 0], Ex.c [0xE0, 0, 0, 0, 0, 0, 1, 0],
    Ex.c [0xDE, 2, 0, 0], Ex.c [0xDD, 1]] ++ List.replicate 5 (Ex.env, .trigger 0)) = some .queueOob := by decide +kernel

end Xcp
