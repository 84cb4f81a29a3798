import Verif.Proofs.Effects
/-
The packet queue along a history: indices never wrap, and it is empty between operations.
-/
set_option autoImplicit false
namespace Xcp
open Spec

theorem Post.chain {α β : Type} {x : Except Fault α} {f : α → Except Fault β} {P : α → Prop} {Q : β → Prop}
    (hx : Post x P) (hf : ∀ a, x = .ok a → P a → Post (f a) Q) : Post (x >>= f) Q :=
  Post.bindAny fun a ha => hf a ha (hx a ha)

/-- Pending packets all satisfy `P`; the indices have not wrapped. -/
structure QI (P : List UInt8 → Prop) (q : Queue) : Prop where
  le : q.tail ≤ q.head
  limit : q.head ≤ 4
  slots : ∀ i, q.tail ≤ i → i < q.head → ∃ d, q.slots i = ⟨d.length % 256, d⟩ ∧ P d

/-- An empty queue. -/
structure QE (q : Queue) : Prop where
  eq : q.tail = q.head
  limit : q.head ≤ 4

theorem QE.qi {P : List UInt8 → Prop} {q : Queue} (h : QE q) : QI P q :=
  ⟨by rw [h.eq]; exact Nat.le_refl _, h.limit, fun i h1 h2 => by rw [h.eq] at h1; omega⟩

theorem qe_init : QE queueInit := ⟨rfl, by decide⟩

/-- What `enqueue` guarantees of a packet it accepts. -/
def Accepted (cfg : Cfg) (d : List UInt8) : Prop := d.length ≤ cfg.maxDto

theorem enqueue_qi {cfg : Cfg} {P : List UInt8 → Prop} {q : Queue} {d : List UInt8} (h : QI P q)
    (hd : d.length ≤ cfg.maxDto → P d) : Post (q.enqueue cfg d) (QI P) := by
  have h1 := h.le
  have h2 := h.limit
  unfold Queue.enqueue
  apply Post.ite
  · intro _; exact Post.ok ⟨h.le, h.limit, h.slots⟩
  · intro _
    apply Post.ite
    · intro _; exact Post.error
    · intro hlt
      unfold queueSize at hlt
      apply Post.ite
      · intro _; exact Post.error
      · intro hle
        apply Post.ite
        · intro _; exact Post.error
        · intro _
          apply Post.ok
          have e : (q.head + 1) % (queueSize + 1) = q.head + 1 := by
            unfold queueSize; exact Nat.mod_eq_of_lt (by omega)
          refine ⟨?_, ?_, ?_⟩
          · simp only [e]; omega
          · simp only [e]; omega
          · intro i hi1 hi2
            simp only [e] at hi1 hi2 ⊢
            by_cases hi : i = q.head
            · exact ⟨d, by rw [if_pos hi], hd (by omega)⟩
            · rw [if_neg hi]
              exact h.slots i hi1 (by omega)

theorem dequeue_qi {cfg : Cfg} {P : List UInt8 → Prop} {q : Queue} (h : QI P q) (hne : q.tail ≠ q.head) :
    Post (q.dequeue cfg) (fun r => QI P r.1 ∧ r.1.head = q.head ∧ r.1.tail = q.tail + 1 ∧
      ∃ d, P d ∧ r.2 = d.take (d.length % 256) ∧ (cfg.asserts = true → d.length % 256 ≠ 0)) := by
  have h1 := h.le
  have h2 := h.limit
  obtain ⟨d, hs, hd⟩ := h.slots q.tail (Nat.le_refl _) (by omega)
  unfold Queue.dequeue
  simp only [hs]
  apply Post.ite
  · intro _; exact Post.error
  · intro _
    apply Post.ite
    · intro _; exact Post.error
    · intro _
      apply Post.ite
      · intro _; exact Post.error
      · intro ha
        apply Post.ok
        have e : (q.tail + 1) % (queueSize + 1) = q.tail + 1 := by
          unfold queueSize; exact Nat.mod_eq_of_lt (by omega)
        refine ⟨⟨?_, h2, ?_⟩, rfl, e, d, hd, rfl, ?_⟩
        · simp only [e]; omega
        · intro i hi1 hi2
          simp only [e] at hi1 hi2
          exact h.slots i (by omega) hi2
        · intro has h0
          apply ha
          simp [has, h0]

/-- A DAQ packet made of a queued packet with property `P`.  The slot stores the length modulo 256. -/
def DtoOf (cfg : Cfg) (P : List UInt8 → Prop) (f : Frame) : Prop :=
  f.kind = .dto ∧ ∃ d, P d ∧ payload cfg f = d.take (d.length % 256) ∧ (cfg.asserts = true → d.length % 256 ≠ 0)

/-- Between `s` and `s'` only such packets were sent, and the queue is empty in `s'`. -/
def SentDtos (cfg : Cfg) (P : List UInt8 → Prop) (s s' : St) : Prop :=
  (∃ fs, s'.tx = s.tx ++ fs ∧ ∀ f ∈ fs, DtoOf cfg P f) ∧ QE s'.daq.queue

theorem transmit_qi {cfg : Cfg} {P : List UInt8 → Prop} (n : Nat) {s : St} (h : QI P s.daq.queue)
    (hn : s.daq.queue.head < s.daq.queue.tail + n) : Post (transmit cfg n s) (SentDtos cfg P s) := by
  induction n generalizing s with
  | zero => have := h.le; omega
  | succ n ih =>
    unfold transmit
    apply Post.ite
    · intro he
      exact Post.ok ⟨⟨[], by simp, by simp⟩, by simp [Queue.empty] at he; omega, h.limit⟩
    · intro he
      have hne : s.daq.queue.tail ≠ s.daq.queue.head := fun e => he (by simp [Queue.empty, e])
      refine Post.chain (dequeue_qi h hne) ?_
      rintro ⟨q, data⟩ _ ⟨hq, hh, ht, d, hd, rfl, ha⟩
      simp only at hq hh ht
      refine (ih (s := emit cfg { s with daq := { s.daq with queue := q } } .dto (d.take (d.length % 256))) hq ?_).mono ?_
      · show q.head < q.tail + n
        omega
      · rintro s' ⟨⟨fs, htx, hfs⟩, hqe⟩
        refine ⟨⟨⟨.dto, header cfg (d.take (d.length % 256)).length s.counter ++ d.take (d.length % 256)⟩ :: fs, ?_, ?_⟩, hqe⟩
        · rw [htx, emit_tx]; simp
        · intro f hf
          rcases List.mem_cons.mp hf with rfl | hf
          · exact ⟨rfl, d, hd, payload_emit .., ha⟩
          · exact hfs f hf

theorem foldlM_post {α β : Type} {f : β → α → Except Fault β} {I : Nat → β → Prop} (l : List α) (k : Nat) {b : β}
    (hb : I k b) (hstep : ∀ i a b, l[i]? = some a → I (k + i) b → Post (f b a) (I (k + i + 1))) :
    Post (l.foldlM f b) (I (k + l.length)) := by
  induction l generalizing k b with
  | nil => exact Post.ok hb
  | cons a l ih =>
    show Post (f b a >>= fun b' => l.foldlM f b') _
    refine Post.chain (hstep 0 a b rfl hb) ?_
    intro b' _ hb'
    have := ih (k + 1) hb' (fun i a b hi hI => by
      have := hstep (i + 1) a b (by simpa using hi)
      rw [show k + (i + 1) = k + 1 + i from by omega] at this
      exact this hI)
    rw [show k + (a :: l).length = k + 1 + l.length from by simp; omega]
    exact this

/-- The packet of an ODT starts with its PID. -/
theorem sampleOdt_head {cfg : Cfg} {env : Env} {s : St} {list pid odtIdx : Nat} :
    Post (sampleOdt cfg env s list pid odtIdx) (fun d => d.head? = some (UInt8.ofNat pid)) := by
  unfold sampleOdt
  apply Post.bindAny
  intro o _
  have : ∀ ts : List UInt8, Post ((List.range o.num).foldlM (sampleEntry cfg s list odtIdx) (UInt8.ofNat pid :: ts))
      (fun d => d.head? = some (UInt8.ofNat pid)) := by
    intro ts
    refine foldlM_post (I := fun _ (d : List UInt8) => d.head? = some (UInt8.ofNat pid)) _ 0 rfl ?_
    intro i a b _ hb
    unfold sampleEntry
    apply Post.bindAny
    intro j _
    apply Post.bindAny
    intro en _
    post
    all_goals
      cases b with
      | nil => cases hb
      | cons x b => simpa using hb
  exact this _

/-- Packets of list `l` with `n` ODTs and first PID `pid`. -/
def ListPacket (cfg : Cfg) (pid n : Nat) (d : List UInt8) : Prop :=
  d.length ≤ cfg.maxDto ∧ ∃ j, j < n ∧ d.head? = some (UInt8.ofNat ((pid + j) % 256))

/-- An event sends packets of the list assigned to it. -/
theorem trigger_dtos {cfg : Cfg} {env : Env} {s : St} {ev : Nat} (hq : QE s.daq.queue) :
    Post (triggerEvent cfg env s ev) (fun s' => SentDtos cfg (fun d =>
      ∃ pid, getFirstPid cfg s.daq (s.daq.listForEvent ev) = .ok (true, pid) ∧
        ListPacket cfg pid (s.daq.entities (s.daq.listForEvent ev)).num d) s s') := by
  unfold triggerEvent
  apply Post.ite
  · intro _; exact Post.ok ⟨⟨[], by simp, by simp⟩, hq⟩
  · intro _
    apply Post.ite
    · intro _; exact Post.ok ⟨⟨[], by simp, by simp⟩, hq⟩
    · intro _
      apply Post.bindAny
      rintro ⟨found, pid⟩ hpid
      apply Post.ite
      · intro _; exact Post.ok ⟨⟨[], by simp, by simp⟩, hq⟩
      · intro hfound
        have hft : found = true := by simpa using hfound
        subst hft
        apply Post.bindAny
        intro l hl
        have hle : l = s.daq.entities (s.daq.listForEvent ev) := by
          unfold Daq.ent at hl
          split at hl
          · cases hl; rfl
          · cases hl
        subst hle
        have hloop : Post ((List.range (s.daq.entities (s.daq.listForEvent ev)).num).foldlM
            (sampleList cfg env s (s.daq.listForEvent ev)) (pid, s.daq.queue))
            (fun r => QI (ListPacket cfg pid (s.daq.entities (s.daq.listForEvent ev)).num) r.2) := by
          refine (foldlM_post (I := fun k (r : Nat × Queue) => (k = 0 → r.1 = pid) ∧ r.1 % 256 = (pid + k) % 256 ∧
            QI (ListPacket cfg pid (s.daq.entities (s.daq.listForEvent ev)).num) r.2) _ 0
            ⟨fun _ => rfl, rfl, hq.qi⟩ ?_).mono (fun r hr => hr.2.2)
          rintro i j ⟨pd, q⟩ hi ⟨_, hp, hqi⟩
          have hj : j < (s.daq.entities (s.daq.listForEvent ev)).num := by
            have := List.mem_of_getElem? hi
            exact List.mem_range.mp this
          have hij : i = j := by
            rw [List.getElem?_range (by
              have := (List.getElem?_eq_some_iff.mp hi).1
              simpa using this)] at hi
            cases hi; rfl
          subst hij
          simp only [Nat.zero_add] at hp ⊢
          unfold sampleList
          refine Post.chain sampleOdt_head ?_
          intro d _ hd
          refine Post.chain (enqueue_qi hqi (fun hle => ⟨hle, i, hj, ?_⟩)) ?_
          · rw [hd]
            simp only
            congr 1
            apply UInt8.toNat_inj.mp
            simp [hp]
          · intro q' _ hq'
            refine Post.ok ⟨fun h => by omega, ?_, hq'⟩
            simp only
            omega
        refine Post.chain hloop ?_
        rintro ⟨_, q⟩ _ hqi
        simp only at hqi
        have h1 := hqi.le
        have h2 := hqi.limit
        refine (transmit_qi (queueSize + 1) (s := { s with daq := { s.daq with queue := q } }) hqi ?_).mono ?_
        · show q.head < q.tail + (queueSize + 1)
          unfold queueSize; omega
        · rintro s' ⟨⟨fs, htx, hfs⟩, hqe⟩
          refine ⟨⟨fs, htx, fun f hf => ?_⟩, hqe⟩
          obtain ⟨hk, d, hd, h⟩ := hfs f hf
          exact ⟨hk, d, ⟨pid, hpid, hd⟩, h⟩

theorem trigger_qe {cfg : Cfg} {env : Env} {s : St} {ev : Nat} :
    Post (triggerEvent cfg env s ev) (fun s' => QE s.daq.queue → QE s'.daq.queue) :=
  fun s' h hq => (trigger_dtos hq s' h).2

end Xcp
