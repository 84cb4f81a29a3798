import Verif.Model.WinLocks
import Verif.Props.C53_Locks
/-
C113: on Windows the slave never deadlocks on its own locks, in no configuration.

False of the transport layer of Kvaser for packets of more than 8 bytes: the lock is not released.
-/
set_option autoImplicit false
namespace Xcp
open Spec

/-- The lock of the transport layer before the others: the serial receiver executes commands inside of it. -/
def Spec.winRank : Lock → Nat
  | .tl => 0 | .xcp => 1 | .daq => 2 | .hw => 3

/-- A lock is taken in order, or again; everything taken is released. -/
def Spec.nested : List Lock → List LockAct → Bool
  | held, [] => held.isEmpty
  | held, .acq l :: rest => (held.contains l || held.all (fun h => winRank h < winRank l)) && nested (l :: held) rest
  | held, .rel l :: rest => held.contains l && nested (held.erase l) rest

/-- How much is to be done. -/
def Spec.work (sys : List Thread) : Nat := (sys.map (·.todo.length)).sum

/-- No schedule gets stuck: it can always be continued until all threads are done, and each thread then owns no lock. -/
def Spec.WinFree (ts : List (List LockAct)) : Prop :=
  ∀ n sys, WinReached (threads ts) n sys →
    n + work sys = (ts.map List.length).sum ∧ ((∀ t ∈ sys, t.todo = [] ∧ t.held = []) ∨ ∃ sys', WinStep sys sys')

theorem work_set {sys : List Thread} {i : Nat} {a : LockAct} {rest : List LockAct} {held held' : List Lock}
    (h : sys[i]? = some ⟨a :: rest, held⟩) : work (sys.set i ⟨rest, held'⟩) + 1 = work sys := by
  induction sys generalizing i with
  | nil => simp at h
  | cons t sys ih =>
    cases i with
    | zero =>
      simp only [List.getElem?_cons_zero, Option.some.injEq] at h
      subst h
      simp only [work, List.set_cons_zero, List.map_cons, List.sum_cons, List.length_cons]
      omega
    | succ i =>
      have := ih (i := i) (by simpa using h)
      simp only [work, List.set_cons_succ, List.map_cons, List.sum_cons] at this ⊢
      omega

theorem win_work {ts : List (List LockAct)} {n : Nat} {sys : List Thread} (h : WinReached (threads ts) n sys) :
    n + work sys = (ts.map List.length).sum := by
  induction h with
  | refl => simp [work, threads, Function.comp_def]
  | step _ hs ih =>
    cases hs with
    | acq i l rest held hi _ => have := work_set (held' := l :: held) hi; omega
    | rel i l rest held hi => have := work_set (held' := held.erase l) hi; omega

theorem win_nested {ts : List (List LockAct)} (h : ∀ t ∈ ts, nested [] t = true) {n : Nat} {sys : List Thread} (hr : WinReached (threads ts) n sys) :
    ∀ t ∈ sys, nested t.held t.todo = true := by
  induction hr with
  | refl =>
    intro t ht
    obtain ⟨x, hx, rfl⟩ := List.mem_map.mp ht
    exact h x hx
  | step _ hs ih =>
    intro t ht
    cases hs with
    | acq i l rest held hi _ =>
      rcases List.mem_or_eq_of_mem_set ht with ht | rfl
      · exact ih t ht
      · have := ih _ (List.mem_of_getElem? hi)
        simp only [nested, Bool.and_eq_true] at this
        exact this.2
    | rel i l rest held hi =>
      rcases List.mem_or_eq_of_mem_set ht with ht | rfl
      · exact ih t ht
      · have := ih _ (List.mem_of_getElem? hi)
        simp only [nested, Bool.and_eq_true] at this
        exact this.2

/-- No lock is owned by two threads. -/
theorem C113_exclusive (ts : List (List LockAct)) {n : Nat} {sys : List Thread} (hr : WinReached (threads ts) n sys) :
    ∀ (i j : Nat) (t u : Thread) (l : Lock), sys[i]? = some t → sys[j]? = some u → l ∈ t.held → l ∈ u.held → i = j := by
  induction hr with
  | refl =>
    intro i j t u l hi hj hl
    obtain ⟨x, hx, rfl⟩ := List.mem_map.mp (List.mem_of_getElem? hi)
    cases hl
  | step _ hs ih =>
    intro i j t u l hi hj hl hl'
    cases hs with
    | acq k m rest held hk free =>
      have hlt := (List.getElem?_eq_some_iff.mp hk).1
      by_cases hki : k = i
      · by_cases hkj : k = j
        · omega
        · subst hki
          rw [List.getElem?_set_self hlt] at hi
          cases hi
          rw [List.getElem?_set_ne hkj] at hj
          rcases List.mem_cons.mp hl with rfl | hl
          · exact (free j u hj hl').symm
          · exact ih k j _ _ l hk hj hl hl'
      · rw [List.getElem?_set_ne hki] at hi
        by_cases hkj : k = j
        · subst hkj
          rw [List.getElem?_set_self hlt] at hj
          cases hj
          rcases List.mem_cons.mp hl' with rfl | hl'
          · exact free i t hi hl
          · exact ih i k _ _ l hi hk hl hl'
        · rw [List.getElem?_set_ne hkj] at hj
          exact ih i j _ _ l hi hj hl hl'
    | rel k m rest held hk =>
      have hlt := (List.getElem?_eq_some_iff.mp hk).1
      by_cases hki : k = i
      · by_cases hkj : k = j
        · omega
        · subst hki
          rw [List.getElem?_set_self hlt] at hi
          cases hi
          rw [List.getElem?_set_ne hkj] at hj
          exact ih k j _ _ l hk hj (List.mem_of_mem_erase hl) hl'
      · rw [List.getElem?_set_ne hki] at hi
        by_cases hkj : k = j
        · subst hkj
          rw [List.getElem?_set_self hlt] at hj
          cases hj
          exact ih i k _ _ l hi hk hl (List.mem_of_mem_erase hl')
        · rw [List.getElem?_set_ne hkj] at hj
          exact ih i j _ _ l hi hj hl hl'

/-- A thread that wants a lock: it, or the owner of the lock, or the owner of the lock that one wants, … can go on. -/
theorem win_progress {sys : List Thread} (h : ∀ t ∈ sys, nested t.held t.todo = true)
    (hex : ∀ (i j : Nat) (t u : Thread) (l : Lock), sys[i]? = some t → sys[j]? = some u → l ∈ t.held → l ∈ u.held → i = j) (n : Nat) :
    ∀ t ∈ sys, t.todo ≠ [] → (∀ l rest, t.todo = .acq l :: rest → l ∉ t.held → 4 - winRank l ≤ n) → ∃ sys', WinStep sys sys' := by
  induction n with
  | zero =>
    intro t ht hne hn
    obtain ⟨i, hi, rfl⟩ := List.mem_iff_getElem.mp ht
    have hget := List.getElem?_eq_getElem hi
    cases htd : sys[i].todo with
    | nil => exact absurd htd hne
    | cons a rest =>
      have hget' : sys[i]? = some ⟨a :: rest, sys[i].held⟩ := by rw [hget, ← htd]
      cases a with
      | acq l =>
        by_cases hl : l ∈ sys[i].held
        · exact ⟨_, .acq i l rest sys[i].held hget' fun j u hj hu => hex j i u _ l hj hget hu hl⟩
        · have := hn l rest htd hl
          have : winRank l < 4 := by cases l <;> decide
          omega
      | rel l => exact ⟨_, .rel i l rest sys[i].held hget'⟩
  | succ n ih =>
    intro t ht hne hn
    obtain ⟨i, hi, rfl⟩ := List.mem_iff_getElem.mp ht
    have hget := List.getElem?_eq_getElem hi
    cases htd : sys[i].todo with
    | nil => exact absurd htd hne
    | cons a rest =>
      have hget' : sys[i]? = some ⟨a :: rest, sys[i].held⟩ := by rw [hget, ← htd]
      cases a with
      | rel l => exact ⟨_, .rel i l rest sys[i].held hget'⟩
      | acq l =>
        by_cases hf : ∀ j t, sys[j]? = some t → l ∈ t.held → j = i
        · exact ⟨_, .acq i l rest sys[i].held hget' hf⟩
        · have : ∃ j t, sys[j]? = some t ∧ l ∈ t.held ∧ j ≠ i := by
            apply Classical.byContradiction
            intro hno
            exact hf fun j t hj hl => Classical.byContradiction fun hne => hno ⟨j, t, hj, hl, hne⟩
          obtain ⟨j, u, hj, hl, hji⟩ := this
          have hli : l ∉ sys[i].held := fun hh => hji (hex j i u _ l hj hget hl hh)
          have hu := List.mem_of_getElem? hj
          have ho := h u hu
          refine ih u hu ?_ ?_
          · intro h0
            rw [h0] at ho
            simp only [nested, List.isEmpty_iff] at ho
            rw [ho] at hl
            cases hl
          · intro l' rest' h' hl'
            rw [h'] at ho
            simp only [nested, Bool.and_eq_true, Bool.or_eq_true, List.contains_iff_mem, List.all_eq_true, decide_eq_true_eq] at ho
            rcases ho.1 with h1 | h1
            · exact absurd h1 hl'
            · have h1 := h1 l hl
              have h2 := hn l rest htd hli
              omega

theorem nested_free {ts : List (List LockAct)} (h : ∀ t ∈ ts, nested [] t = true) : WinFree ts := by
  intro n sys hr
  refine ⟨win_work hr, ?_⟩
  have ho := win_nested h hr
  by_cases hd : ∀ t ∈ sys, t.todo = []
  · left
    intro t ht
    refine ⟨hd t ht, ?_⟩
    have := ho t ht
    rw [hd t ht] at this
    simpa [nested] using this
  · right
    have : ∃ t ∈ sys, t.todo ≠ [] := by
      apply Classical.byContradiction
      intro hno
      exact hd fun t ht => Classical.byContradiction fun hne => hno ⟨t, ht, hne⟩
    obtain ⟨t, ht, hne⟩ := this
    exact win_progress ho (C113_exclusive ts hr) 4 t ht hne (fun l rest _ _ => by omega)

/-- What a locking function does, inside of the lock of the transport layer (or not), and then `b`. -/
theorem nested_fn (f : LockFn) (held : List Lock) (hh : held = [] ∨ held = [.tl]) (b : List LockAct) :
    nested held (f.acts ++ b) = nested held b := by
  rcases hh with rfl | rfl <;> cases f <;>
    simp [LockFn.acts, setBusyLocks, getStateLocks, nested, winRank]

theorem nested_fns (held : List Lock) (hh : held = [] ∨ held = [.tl]) (b : List LockAct) : ∀ fs : List LockFn,
    nested held ((fs.map LockFn.acts).flatten ++ b) = nested held b
  | [] => rfl
  | f :: fs => by
    rw [List.map_cons, List.flatten_cons, List.append_assoc, nested_fn f held hh, nested_fns held hh b fs]

/-- What a thread does: operations of the slave, and octets of a serial line that complete a command. -/
inductive Spec.Deeds (cfg : Cfg) : List LockAct → Prop where
  | done : Deeds cfg []
  | op {op : Op} {acts rest : List LockAct} (h : op.Locks cfg acts) (hr : Deeds cfg rest) : Deeds cfg (acts ++ rest)
  | octet {op : Op} {acts rest : List LockAct} (h : op.Locks cfg acts) (hr : Deeds cfg rest) : Deeds cfg (feedLocks acts ++ rest)

theorem deeds_nested {cfg : Cfg} {t : List LockAct} (h : Deeds cfg t) : nested [] t = true := by
  induction h with
  | done => rfl
  | op h _ ih =>
    obtain ⟨fs, -, rfl⟩ := h
    rw [nested_fns [] (.inl rfl), ih]
  | @octet op acts rest h _ ih =>
    obtain ⟨fs, -, rfl⟩ := h
    have e : feedLocks (fs.map LockFn.acts).flatten ++ rest = .acq .tl :: ((fs.map LockFn.acts).flatten ++ (.rel .tl :: rest)) := by
      simp [feedLocks]
    rw [e, nested, nested_fns [.tl] (.inr rfl)]
    simp [nested, ih]

/-- C113, partial: any number of threads that execute any operations of the slave, in any configuration, with a transport layer that
releases its lock: every schedule can be continued until all of them are done, after as many steps as there is to do. -/
theorem C113_windows_partial {cfg : Cfg} {ts : List (List LockAct)} (h : ∀ t ∈ ts, Deeds cfg t) : WinFree ts :=
  nested_free fun t ht => deeds_nested (h t ht)

/-- Taking a lock again: with the locks of POSIX the thread hangs (C53), on Windows it goes on. -/
theorem C113_again (others : List (List LockAct)) (ho : ∀ t ∈ others, t = []) :
    (¬ ∃ sys, Reached (threads (LockFn.acts .blockActive :: others)) sys ∧ ∀ t ∈ sys, t.todo = []) ∧
    ∃ sys, WinReached (threads (LockFn.acts .blockActive :: others)) 4 sys ∧ ∀ t ∈ sys, t.todo = [] := by
  refine ⟨?_, ?_⟩
  · rintro ⟨sys, hr, hd⟩
    obtain ⟨t, ht, hne⟩ := C53_fails_upload others [] (by rw [List.append_nil]; exact hr)
    exact hne (hd t (List.mem_of_getElem? ht))
  · refine ⟨⟨[], []⟩ :: others.map fun t => ⟨t, []⟩, ?_, ?_⟩
    · have hfree : ∀ (t0 : Thread) (j : Nat) (t : Thread) (l : Lock), (t0 :: others.map fun t => (⟨t, []⟩ : Thread))[j]? = some t → l ∈ t.held → j = 0 := by
        intro t0 j t l hj hl
        cases j with
        | zero => rfl
        | succ j =>
          simp only [List.getElem?_cons_succ, List.getElem?_map, Option.map_eq_some_iff] at hj
          obtain ⟨a, -, rfl⟩ := hj
          cases hl
      refine .step (.step (.step (.step .refl (.acq 0 .xcp [.acq .xcp, .rel .xcp, .rel .xcp] [] rfl ?_))
        (.acq 0 .xcp [.rel .xcp, .rel .xcp] [.xcp] rfl ?_)) (.rel 0 .xcp [.rel .xcp] [.xcp, .xcp] rfl)) (.rel 0 .xcp [] [.xcp] rfl)
      · intro j t hj hl; exact hfree _ j t _ hj hl
      · intro j t hj hl; exact hfree _ j t _ hj hl
    · intro t ht
      rcases List.mem_cons.mp ht with rfl | ht
      · rfl
      · obtain ⟨a, ha, rfl⟩ := List.mem_map.mp ht
        exact ho a ha

/-- With Kvaser and packets of at most 8 bytes the lock is used as by the other transport layers. -/
theorem C113_kvaser_short {len : Nat} (h : len ≤ 8) : kvaserSendLocks len = LockFn.acts .tlSend := if_neg (by omega)

theorem win_kept {i j : Nat} {l : Lock} (hij : i ≠ j) {rest : List LockAct} {a b : List Thread} (hs : WinStep a b)
    (hi : a[i]? = some ⟨[], [l]⟩) (hj : a[j]? = some ⟨.acq l :: rest, []⟩) :
    b[i]? = some ⟨[], [l]⟩ ∧ b[j]? = some ⟨.acq l :: rest, []⟩ := by
  cases hs with
  | acq k m r held hk free =>
    have hki : k ≠ i := by rintro rfl; rw [hk] at hi; cases hi
    have hkj : k ≠ j := by
      rintro rfl
      rw [hk] at hj
      cases hj
      exact hij (free i _ hi (List.mem_cons_self ..))
    exact ⟨by rw [List.getElem?_set_ne hki]; exact hi, by rw [List.getElem?_set_ne hkj]; exact hj⟩
  | rel k m r held hk =>
    have hki : k ≠ i := by rintro rfl; rw [hk] at hi; cases hi
    have hkj : k ≠ j := by rintro rfl; rw [hk] at hj; cases hj
    exact ⟨by rw [List.getElem?_set_ne hki]; exact hi, by rw [List.getElem?_set_ne hkj]; exact hj⟩

/-- C113 is false with Kvaser: once a thread has sent a packet of more than 8 bytes and ended, no other thread can ever send, whatever
else happens. -/
theorem C113_fails_kvaser {len : Nat} (hl : 8 < len) (n : Nat) (others : List (List LockAct)) :
    ∃ start, WinReached (threads (kvaserSendLocks len :: kvaserSendLocks n :: others)) 1 start ∧
      ∀ m sys, WinReached start m sys → ∃ t, sys[1]? = some t ∧ t.todo = kvaserSendLocks n := by
  obtain ⟨rest, hn⟩ : ∃ rest, kvaserSendLocks n = .acq .tl :: rest := by
    unfold kvaserSendLocks
    split
    · exact ⟨_, rfl⟩
    · exact ⟨_, rfl⟩
  have hk : kvaserSendLocks len = [.acq .tl] := if_pos hl
  rw [hk, hn]
  refine ⟨_, .step .refl (.acq 0 .tl [] [] rfl ?_), ?_⟩
  · intro j t hj hh
    obtain ⟨x, -, rfl⟩ := List.mem_map.mp (List.mem_of_getElem? hj)
    cases hh
  · intro m sys hr
    have : sys[0]? = some ⟨[], [.tl]⟩ ∧ sys[1]? = some ⟨.acq .tl :: rest, []⟩ := by
      induction hr with
      | refl => exact ⟨rfl, rfl⟩
      | step _ hs ih => exact win_kept (by omega) hs ih.1 ih.2
    exact ⟨_, this.2, rfl⟩

example : kvaserSendLocks 9 = [.acq .tl] ∧ kvaserSendLocks 8 = [.acq .tl, .rel .tl] := by decide

/-- The simulator: an UPLOAD in slave block mode, and a call of the main function. -/
example : ∀ t ∈ [LockFn.acts .blockActive ++ LockFn.acts .tlSend, LockFn.acts .setBusy], Deeds { Ex.sim with slaveBlock := true } t := by
  have h1 : (Op.cmd ⟨2, [0xF5, 1]⟩).Locks { Ex.sim with slaveBlock := true } (LockFn.acts .blockActive ++ LockFn.acts .tlSend) :=
    ⟨[.blockActive, .tlSend], by decide +kernel, rfl⟩
  have h2 : Op.main.Locks { Ex.sim with slaveBlock := true } (LockFn.acts .setBusy) := ⟨[.setBusy], by decide +kernel, rfl⟩
  intro t ht
  simp only [List.mem_cons, List.not_mem_nil, or_false] at ht
  rcases ht with rfl | rfl
  · have := Deeds.op h1 .done; simpa using this
  · have := Deeds.op h2 .done; simpa using this

end Xcp
