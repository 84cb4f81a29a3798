import Verif.Model.Locks
import Verif.Model.Example
/-
C53: The slave never deadlocks on its own locks.

Proved for all configurations without slave block mode and without chunked checksums, and for all other
operations in every configuration: no schedule of any number of threads gets stuck.  False
with them: `Xcp_SlaveBlockTransferSetActive` and `Xcp_StartChecksumCalculation` call `Xcp_SetBusy`, which
takes the lock they hold.
-/
set_option autoImplicit false
namespace Xcp

/-- Order of the locks. -/
def Spec.rank : Lock → Nat
  | .xcp => 0 | .tl => 1 | .daq => 2 | .hw => 3

/-- Nothing is taken out of order or twice, everything taken is released. -/
def Spec.ordered : List Lock → List LockAct → Bool
  | held, [] => held.isEmpty
  | held, .acq l :: rest => held.all (fun h => Spec.rank h < Spec.rank l) && ordered (l :: held) rest
  | held, .rel l :: rest => held.contains l && ordered (held.erase l) rest

/-- No lock is taken that the thread owns already. -/
def Spec.noSelf : List Lock → List LockAct → Bool
  | _, [] => true
  | held, .acq l :: rest => !held.contains l && noSelf (l :: held) rest
  | held, .rel l :: rest => noSelf (held.erase l) rest

open Spec

/-- No schedule gets stuck before all threads are done. -/
def Spec.DeadlockFree (ts : List (List LockAct)) : Prop :=
  ∀ sys, Reached (threads ts) sys → (∀ t ∈ sys, t.todo = []) ∨ ∃ sys', ThreadStep sys sys'

/-- C53 in full: threads that execute any operations of the slave do not deadlock. -/
def Spec.LocksRight (cfg : Cfg) : Prop :=
  ∀ ts, (∀ t ∈ ts, ∃ ops : List (Op × List LockAct), (∀ x ∈ ops, x.1.Locks cfg x.2) ∧ t = (ops.map Prod.snd).flatten) → DeadlockFree ts

theorem reached_ordered {ts : List (List LockAct)} (h : ∀ t ∈ ts, ordered [] t = true) {sys : List Thread} (hr : Reached (threads ts) sys) :
    ∀ t ∈ sys, ordered t.held t.todo = true := by
  induction hr with
  | refl =>
    intro t ht
    obtain ⟨x, hx, rfl⟩ := List.mem_map.mp ht
    exact h x hx
  | step _ hs ih =>
    intro t ht
    cases hs with
    | acq i l rest held hi _ =>
      rcases List.mem_or_eq_of_mem_set ht with ht | rfl
      · exact ih t ht
      · have := ih _ (List.mem_of_getElem? hi)
        simp only [ordered, Bool.and_eq_true] at this
        exact this.2
    | rel i l rest held hi =>
      rcases List.mem_or_eq_of_mem_set ht with ht | rfl
      · exact ih t ht
      · have := ih _ (List.mem_of_getElem? hi)
        simp only [ordered, Bool.and_eq_true] at this
        exact this.2

/-- A thread that wants a lock: it, or an owner of the lock, or an owner of the lock that one wants, … can go on. -/
theorem progress {sys : List Thread} (h : ∀ t ∈ sys, ordered t.held t.todo = true) (n : Nat) : ∀ t ∈ sys, t.todo ≠ [] →
    (∀ l rest, t.todo = .acq l :: rest → 4 - rank l ≤ n) → ∃ sys', ThreadStep sys sys' := by
  induction n with
  | zero =>
    intro t ht hne hn
    obtain ⟨i, hi, rfl⟩ := List.mem_iff_getElem.mp ht
    cases htd : sys[i].todo with
    | nil => exact absurd htd hne
    | cons a rest =>
      cases a with
      | acq l =>
        have := hn l rest htd
        have : rank l < 4 := by cases l <;> decide
        omega
      | rel l =>
        refine ⟨_, .rel i l rest sys[i].held ?_⟩
        rw [List.getElem?_eq_getElem hi, ← htd]
  | succ n ih =>
    intro t ht hne hn
    obtain ⟨i, hi, rfl⟩ := List.mem_iff_getElem.mp ht
    cases htd : sys[i].todo with
    | nil => exact absurd htd hne
    | cons a rest =>
      cases a with
      | rel l =>
        refine ⟨_, .rel i l rest sys[i].held ?_⟩
        rw [List.getElem?_eq_getElem hi, ← htd]
      | acq l =>
        by_cases hf : ∀ t ∈ sys, l ∉ t.held
        · refine ⟨_, .acq i l rest sys[i].held ?_ hf⟩
          rw [List.getElem?_eq_getElem hi, ← htd]
        · have : ∃ t ∈ sys, l ∈ t.held := by
            apply Classical.byContradiction
            intro hno
            exact hf fun t ht hl => hno ⟨t, ht, hl⟩
          obtain ⟨u, hu, hl⟩ := this
          have ho := h u hu
          refine ih u hu ?_ ?_
          · intro h0
            rw [h0] at ho
            simp only [ordered, List.isEmpty_iff] at ho
            rw [ho] at hl
            cases hl
          · intro l' rest' h'
            rw [h'] at ho
            simp only [ordered, Bool.and_eq_true, List.all_eq_true, decide_eq_true_eq] at ho
            have h1 := ho.1 l hl
            have h2 := hn l rest htd
            omega

/-- Threads that take the locks in order do not deadlock, however many they are and whatever the schedule is. -/
theorem ordered_free {ts : List (List LockAct)} (h : ∀ t ∈ ts, ordered [] t = true) : DeadlockFree ts := by
  intro sys hr
  have ho := reached_ordered h hr
  by_cases hd : ∀ t ∈ sys, t.todo = []
  · exact .inl hd
  · right
    have : ∃ t ∈ sys, t.todo ≠ [] := by
      apply Classical.byContradiction
      intro hno
      exact hd fun t ht => Classical.byContradiction fun hne => hno ⟨t, ht, hne⟩
    obtain ⟨t, ht, hne⟩ := this
    exact progress ho 4 t ht hne (fun l rest _ => by omega)

theorem ordered_append (a b : List LockAct) (hb : ordered [] b = true) : ∀ held, ordered held a = true → ordered held (a ++ b) = true := by
  induction a with
  | nil =>
    intro held h
    simp only [ordered, List.isEmpty_iff] at h
    rw [h]
    exact hb
  | cons x a ih =>
    intro held h
    cases x with
    | acq l =>
      simp only [ordered, List.cons_append, Bool.and_eq_true] at h ⊢
      exact ⟨h.1, ih _ h.2⟩
    | rel l =>
      simp only [ordered, List.cons_append, Bool.and_eq_true] at h ⊢
      exact ⟨h.1, ih _ h.2⟩

theorem ordered_flatten (ls : List (List LockAct)) (h : ∀ l ∈ ls, ordered [] l = true) : ordered [] ls.flatten = true := by
  induction ls with
  | nil => rfl
  | cons l ls ih =>
    rw [List.flatten_cons]
    exact ordered_append _ _ (ih fun x hx => h x (List.mem_cons_of_mem _ hx)) _ (h l (List.mem_cons_self ..))

/-- The locking functions that take no lock twice. -/
theorem acts_ordered (f : LockFn) (h1 : f ≠ .blockActive) (h2 : f ≠ .startChecksum) : ordered [] f.acts = true := by
  cases f <;> simp_all [LockFn.acts, setBusyLocks, getStateLocks, ordered] <;> decide

/-- C53 for any operations that do not call one of the two defective functions. -/
theorem C53_ops_partial {cfg : Cfg} (ts : List (List LockAct))
    (h : ∀ t ∈ ts, ∃ ops : List (Op × List LockAct), (∀ x ∈ ops, x.1.Locks cfg x.2 ∧ .blockActive ∉ x.1.lockFns cfg ∧
      .startChecksum ∉ x.1.lockFns cfg) ∧ t = (ops.map Prod.snd).flatten) : DeadlockFree ts := by
  apply ordered_free
  intro t ht
  obtain ⟨ops, hops, rfl⟩ := h t ht
  apply ordered_flatten
  intro l hl
  obtain ⟨x, hx, rfl⟩ := List.mem_map.mp hl
  obtain ⟨⟨fs, hfs, he⟩, h1, h2⟩ := hops x hx
  rw [he]
  apply ordered_flatten
  intro l hl
  obtain ⟨f, hf, rfl⟩ := List.mem_map.mp hl
  exact acts_ordered f (fun h => h1 (h ▸ hfs f hf)) (fun h => h2 (h ▸ hfs f hf))

/-- C53 without slave block mode and without chunked checksums. -/
theorem C53_partial {cfg : Cfg} (hb : cfg.slaveBlock = false) (hc : cfg.chunked = false) : LocksRight cfg := by
  intro ts h
  apply C53_ops_partial (cfg := cfg)
  intro t ht
  obtain ⟨ops, hops, he⟩ := h t ht
  refine ⟨ops, fun x hx => ⟨hops x hx, ?_⟩, he⟩
  have key : ∀ op : Op, .blockActive ∉ op.lockFns cfg ∧ .startChecksum ∉ op.lockFns cfg := by
    intro op
    cases op with
    | cmd p =>
      simp only [Op.lockFns]
      cases p.buf.head? with
      | none => simp
      | some b =>
        simp only
        cases cmdTable[0xFF - b.toNat]? with
        | none => simp
        | some c => cases c <;> simp [Cmd.lockFns, hb, hc]
    | main => simp [Op.lockFns, hb, hc]
    | _ => simp [Op.lockFns]
  exact key x.1

/-- A thread that takes a lock it owns never finishes, whatever the other threads and the schedule are. -/
theorem never_finishes {sys0 : List Thread} {i : Nat} {t0 : Thread} (h0 : sys0[i]? = some t0) (hbad : noSelf t0.held t0.todo = false)
    {sys : List Thread} (hr : Reached sys0 sys) : ∃ t, sys[i]? = some t ∧ t.todo ≠ [] := by
  have key : ∃ t, sys[i]? = some t ∧ noSelf t.held t.todo = false := by
    induction hr with
    | refl => exact ⟨t0, h0, hbad⟩
    | step _ hs ih =>
      obtain ⟨t, ht, hn⟩ := ih
      cases hs with
      | acq j l rest held hj free =>
        by_cases hij : j = i
        · subst hij
          have hlt := (List.getElem?_eq_some_iff.mp hj).1
          rw [hj] at ht
          cases ht
          refine ⟨_, List.getElem?_set_self hlt, ?_⟩
          have hnot := free _ (List.mem_of_getElem? hj)
          simp only [noSelf, Bool.and_eq_false_iff, Bool.not_eq_false', List.contains_iff_mem] at hn
          rcases hn with hn | hn
          · exact absurd hn hnot
          · exact hn
        · exact ⟨t, by rw [List.getElem?_set_ne hij]; exact ht, hn⟩
      | rel j l rest held hj =>
        by_cases hij : j = i
        · subst hij
          have hlt := (List.getElem?_eq_some_iff.mp hj).1
          rw [hj] at ht
          cases ht
          refine ⟨_, List.getElem?_set_self hlt, ?_⟩
          simp only [noSelf] at hn
          exact hn
        · exact ⟨t, by rw [List.getElem?_set_ne hij]; exact ht, hn⟩
  obtain ⟨t, ht, hn⟩ := key
  refine ⟨t, ht, fun h => ?_⟩
  rw [h] at hn
  simp [noSelf] at hn

theorem noSelf_append_bad (b : List LockAct) : ∀ (a : List LockAct) (held : List Lock), noSelf held a = false → noSelf held (a ++ b) = false := by
  intro a
  induction a with
  | nil => intro held h; simp [noSelf] at h
  | cons x a ih =>
    intro held h
    cases x with
    | acq l =>
      simp only [noSelf, List.cons_append, Bool.and_eq_false_iff] at h ⊢
      rcases h with h | h
      · exact .inl h
      · exact .inr (ih _ h)
    | rel l =>
      simp only [noSelf, List.cons_append] at h ⊢
      exact ih _ h

/-- C53 is false: a started checksum job (an idle slave, not busy) stops the calling thread for ever. -/
theorem C53_fails_checksum (s : St) (hi : s.ck.state = .idle) (hb : s.busy = false) (others : List (List LockAct)) (rest : List LockAct)
    {sys : List Thread} (hr : Reached (threads ((startChecksumLocks s ++ rest) :: others)) sys) :
    ∃ t, sys[0]? = some t ∧ t.todo ≠ [] := by
  refine never_finishes (i := 0) (t0 := ⟨startChecksumLocks s ++ rest, []⟩) rfl ?_ hr
  simp only [startChecksumLocks, hi, hb]
  apply noSelf_append_bad
  decide

/-- Asking for a checksum hangs exactly if the job is really started: refused, it hangs neither itself nor with threads
that run operations without the two defective functions. -/
theorem C53_checksum_iff (s : St) :
    (DeadlockFree [startChecksumLocks s] ↔ ¬ (s.ck.state = .idle ∧ s.busy = false)) ∧
    (¬ (s.ck.state = .idle ∧ s.busy = false) → ∀ fs : List LockFn, .blockActive ∉ fs → .startChecksum ∉ fs →
      DeadlockFree [startChecksumLocks s, (fs.map LockFn.acts).flatten]) := by
  have hr : ¬ (s.ck.state = .idle ∧ s.busy = false) → startChecksumLocks s = [.acq .xcp, .rel .xcp] := by
    intro h
    unfold startChecksumLocks
    rw [if_pos]
    by_cases h1 : s.ck.state = .idle
    · exact .inr (by simpa using fun h2 => h ⟨h1, h2⟩)
    · exact .inl h1
  refine ⟨⟨?_, ?_⟩, ?_⟩
  · rintro h ⟨hi, hb⟩
    have e : startChecksumLocks s = [.acq .xcp, .acq .xcp, .rel .xcp, .rel .xcp] := by
      simp [startChecksumLocks, hi, hb, LockFn.acts, setBusyLocks]
    rw [e] at h
    have r : Reached (threads [[.acq .xcp, .acq .xcp, .rel .xcp, .rel .xcp]]) [⟨[.acq .xcp, .rel .xcp, .rel .xcp], [.xcp]⟩] :=
      .step .refl (.acq 0 .xcp _ [] rfl (by simp [threads]))
    rcases h _ r with h | ⟨_, h⟩
    · simp at h
    · cases h with
      | acq j l rest held hj free =>
        cases j with
        | zero => cases hj; exact free _ (List.mem_cons_self ..) (List.mem_cons_self ..)
        | succ j => simp at hj
      | rel j l rest held hj =>
        cases j with
        | zero => cases hj
        | succ j => simp at hj
  · intro h
    rw [hr h]
    exact ordered_free (by decide)
  · intro h fs h1 h2
    rw [hr h]
    apply ordered_free
    intro t ht
    rcases List.mem_cons.mp ht with rfl | ht
    · decide
    · rw [List.mem_singleton.mp ht]
      apply ordered_flatten
      intro l hl
      obtain ⟨f, hf, rfl⟩ := List.mem_map.mp hl
      exact acts_ordered f (fun h => h1 (h ▸ hf)) (fun h => h2 (h ▸ hf))

/-- So does starting a block transfer: UPLOAD and SHORT_UPLOAD in slave block mode (src/xcp.c:934). -/
theorem C53_fails_upload (others : List (List LockAct)) (rest : List LockAct) {sys : List Thread}
    (hr : Reached (threads ((LockFn.acts .blockActive ++ rest) :: others)) sys) : ∃ t, sys[0]? = some t ∧ t.todo ≠ [] := by
  refine never_finishes (i := 0) (t0 := ⟨LockFn.acts .blockActive ++ rest, []⟩) rfl ?_ hr
  apply noSelf_append_bad
  show noSelf [] (LockFn.acts .blockActive) = false
  decide

/-- Every configuration with slave block mode is affected. -/
theorem C53_fails {cfg : Cfg} (hb : cfg.slaveBlock = true) : ¬ LocksRight cfg := by
  intro h
  have hl : (Op.cmd ⟨2, [0xF5, 1]⟩).Locks cfg (LockFn.acts .blockActive) := by
    refine ⟨[.blockActive], ?_, by simp⟩
    intro f hf
    rw [List.mem_singleton.mp hf]
    simp [Op.lockFns, cmdTable, Cmd.lockFns, hb]
  have hfree := h [LockFn.acts .blockActive] (fun t ht => ⟨[(_, LockFn.acts .blockActive)], fun x hx => by rw [List.mem_singleton.mp hx]; exact hl,
    by rw [List.mem_singleton.mp ht]; simp⟩)
  have h1 : Reached (threads [LockFn.acts .blockActive]) [⟨[.acq .xcp, .rel .xcp, .rel .xcp], [.xcp]⟩] :=
    .step .refl (.acq 0 .xcp [.acq .xcp, .rel .xcp, .rel .xcp] [] rfl (by simp [threads]))
  rcases hfree _ h1 with hd | ⟨sys', hs⟩
  · have := hd _ (List.mem_singleton.mpr rfl)
    simp at this
  · cases hs with
    | acq i l rest held hi free =>
      cases i with
      | zero =>
        simp at hi
        exact free _ (List.mem_singleton.mpr rfl) (by simp [← hi.1.1])
      | succ i => simp at hi
    | rel i l rest held hi =>
      cases i with
      | zero => simp at hi
      | succ i => simp at hi

/-- On a serial line every command that is answered stops the receiving thread: the response is sent inside of the
critical section of the receiver. -/
theorem C53_fails_serial (pre post : List LockFn) (rest : List LockAct)
    (others : List (List LockAct)) {sys : List Thread}
    (hr : Reached (threads ((feedLocks ((pre ++ .tlSend :: post).map LockFn.acts).flatten ++ rest) :: others)) sys) :
    ∃ t, sys[0]? = some t ∧ t.todo ≠ [] := by
  refine never_finishes (i := 0) (t0 := ⟨_, []⟩) rfl ?_ hr
  apply noSelf_append_bad
  unfold feedLocks
  rw [List.cons_append]
  simp only [noSelf, List.contains_nil, Bool.not_false, Bool.true_and]
  apply noSelf_append_bad
  clear hr
  induction pre with
  | nil => simp [LockFn.acts, setBusyLocks, getStateLocks, noSelf]
  | cons f pre ih =>
    simp only [List.cons_append, List.map_cons, List.flatten_cons]
    generalize (List.map LockFn.acts (pre ++ LockFn.tlSend :: post)).flatten = x at ih ⊢
    cases f <;> simp [LockFn.acts, setBusyLocks, getStateLocks, noSelf, ih]

/-- The model of the locks excludes: no lock is owned by two threads. -/
theorem C53_exclusive (ts : List (List LockAct)) {sys : List Thread} (hr : Reached (threads ts) sys) :
    ∀ (i j : Nat) (t u : Thread) (l : Lock), sys[i]? = some t → sys[j]? = some u → l ∈ t.held → l ∈ u.held → i = j := by
  induction hr with
  | refl =>
    intro i j t u l hi hj hl
    obtain ⟨x, hx, rfl⟩ := List.mem_map.mp (List.mem_of_getElem? hi)
    cases hl
  | step _ hs ih =>
    intro i j t u l hi hj hl hl'
    cases hs with
    | acq k m rest held hk free =>
      have hlt := (List.getElem?_eq_some_iff.mp hk).1
      by_cases hki : k = i
      · by_cases hkj : k = j
        · omega
        · subst hki
          rw [List.getElem?_set_self hlt] at hi
          cases hi
          rw [List.getElem?_set_ne hkj] at hj
          rcases List.mem_cons.mp hl with rfl | hl
          · exact absurd hl' (free _ (List.mem_of_getElem? hj))
          · exact ih k j _ _ l hk hj hl hl'
      · rw [List.getElem?_set_ne hki] at hi
        by_cases hkj : k = j
        · subst hkj
          rw [List.getElem?_set_self hlt] at hj
          cases hj
          rcases List.mem_cons.mp hl' with rfl | hl'
          · exact absurd hl (free _ (List.mem_of_getElem? hi))
          · exact ih i k _ _ l hi hk hl hl'
        · rw [List.getElem?_set_ne hkj] at hj
          exact ih i j _ _ l hi hj hl hl'
    | rel k m rest held hk =>
      have hlt := (List.getElem?_eq_some_iff.mp hk).1
      by_cases hki : k = i
      · by_cases hkj : k = j
        · omega
        · subst hki
          rw [List.getElem?_set_self hlt] at hi
          cases hi
          rw [List.getElem?_set_ne hkj] at hj
          exact ih k j _ _ l hk hj (List.mem_of_mem_erase hl) hl'
      · rw [List.getElem?_set_ne hki] at hi
        by_cases hkj : k = j
        · subst hkj
          rw [List.getElem?_set_self hlt] at hj
          cases hj
          exact ih i k _ _ l hi hk hl (List.mem_of_mem_erase hl')
        · rw [List.getElem?_set_ne hkj] at hj
          exact ih i j _ _ l hi hj hl hl'

/-- Two threads, one answering GET_STATUS and one triggering an event: all schedules end. -/
example : DeadlockFree [LockFn.acts .tlSend, LockFn.acts .getState ++ LockFn.acts .tlSend] :=
  ordered_free (by decide)

/-- In the simulator a long BUILD_CHECKSUM, from connecting on, reaches the point where the job is started (an idle
job, not busy): with POSIX locks the slave hangs there. -/
example : Ex.obs Ex.sim [Ex.c [0xFF, 0], Ex.c [0xF6, 0, 0, 0, 0, 0, 1, 0]] startChecksumLocks =
      some [.acq .xcp, .acq .xcp, .rel .xcp, .rel .xcp] ∧
    Ex.obs Ex.sim [Ex.c [0xFF, 0], Ex.c [0xF6, 0, 0, 0, 0, 0, 1, 0], Ex.c [0xF3, 0, 0, 0, 0, 2, 0, 0]] (fun s => s.ck.state) = some .initial := by
  decide +kernel

/-- Without slave block mode and chunked checksums the main function uses only the lock of the transport layer; events use
that and the lock of data acquisition; what the application sends uses only that of the transport layer. -/
theorem C53_main_locks {cfg : Cfg} (hb : cfg.slaveBlock = false) (hc : cfg.chunked = false) {acts : List LockAct}
    (h : Op.Locks cfg .main acts) : ∀ a ∈ acts, a = .acq .tl ∨ a = .rel .tl := by
  obtain ⟨fs, hf, rfl⟩ := h
  intro a ha
  obtain ⟨l, hl, ha⟩ := List.mem_flatten.mp ha
  obtain ⟨f, hfs, rfl⟩ := List.mem_map.mp hl
  have := hf f hfs
  simp [Op.lockFns, hb, hc] at this
  subst this
  simpa [LockFn.acts] using ha

theorem C53_event_locks {cfg : Cfg} {ev : UInt8} {acts : List LockAct} (h : Op.Locks cfg (.trigger ev) acts) :
    ∀ a ∈ acts, a ≠ .acq .xcp ∧ a ≠ .acq .hw := by
  obtain ⟨fs, hf, rfl⟩ := h
  intro a ha
  obtain ⟨l, hl, ha⟩ := List.mem_flatten.mp ha
  obtain ⟨f, hfs, rfl⟩ := List.mem_map.mp hl
  have := hf f hfs
  simp [Op.lockFns] at this
  rcases this with rfl | rfl <;> simp [LockFn.acts, getStateLocks] at ha <;> rcases ha with rfl | rfl <;> simp

example : Op.Locks Ex.sim (.trigger 1) [.acq .daq, .rel .daq, .acq .tl, .rel .tl] := ⟨[.getState, .tlSend], by simp [Op.lockFns], rfl⟩

end Xcp
