import Verif.Proofs.Layout
/-
C32: first PIDs partition the PID space.

Proved for configurations built by requests that name existing lists and ODTs (`Rep`, see C29).
ALLOC_ODT_ENTRY for an ODT that does not exist is accepted and can change the number of ODTs a list
has, and with it the first PIDs of the lists after it (`C32_fails`).  A START_STOP_DAQ_LIST for a list
that does not exist is answered twice (see C05).
-/
set_option autoImplicit false
namespace Xcp
open Spec

/-- C32: START_STOP_DAQ_LIST (stop, start or select) of an existing list answers with the number of
ODTs of the lists before it. -/
theorem C32_first_pid_partial {cfg : Cfg} (hc : cfg.Ok) (hs : ShortOk cfg) (env : Env) {s : St} (hd : DaqReady cfg s)
    (hsup : cfg.supports .startStopDaqList = true) {c : Conf} (hr : Rep cfg s.daq c) {p : Pdu} {l : Nat} {m : UInt8}
    (hp : code p = some 0xDE) (h1 : p.buf[1]? = some m) (hm : m = 0 ∨ m = 1 ∨ m = 2) (h2 : Param cfg.motorola p 2 2 l)
    (hl : l < c.length) :
    ∃ s', step cfg env s (.cmd p) = .ok s' ∧
      Answers cfg s s' [0xFF, UInt8.ofNat (c.firstPid l), 0, 0, 0, 0, 0, 0] ∧ c.firstPid l < 256 ∧ Rep cfg s'.daq c := by
  have hlt : c.firstPid l < 256 := Nat.lt_of_le_of_lt (firstPid_le c l) (hr.odts_lt hc)
  have hll : l % 256 = l := by
    have := hr.fits
    have := hc.ent_lt
    unfold Conf.size at *
    apply Nat.mod_eq_of_lt; omega
  rw [hd.ready.stepc env .startStopDaqList hp hsup]
  have hb := hd.bump
  have hsame := bumpReceived_same cfg s
  have htx : (bumpReceived cfg s).tx = s.tx := bumpReceived_tx cfg s
  generalize bumpReceived cfg s = b at *
  rw [← hsame.daq] at hr
  simp only [handler, startStopDaqListRes, assertPgmIdle, assertUnlocked, byte_eq h1, h2.word, ok_bind, hll]
  rw [if_neg hb.pgm, if_neg hb.notProtected, if_neg (by rw [hr.lists]; omega)]
  unfold startStopDaqListBody startStopDaqListEnd
  rcases hm with rfl | rfl | rfl
  · rw [if_pos rfl, hr.firstPid hc hl]
    exact ⟨_, rfl, send8_answers hs (by simp) htx, hlt, hr⟩
  · rw [if_neg (by decide), if_pos rfl, hr.firstPid hc hl]
    exact ⟨_, rfl, send8_answers hs (by simp) htx, hlt, hr⟩
  · rw [if_neg (by decide), if_neg (by decide), if_pos rfl]
    have hr' : Rep cfg { b.daq with mode := b.daq.mode ||| MODE_SELECTED } c := rep_pool (d := b.daq) ⟨rfl, rfl, rfl, rfl, rfl⟩ hr
    rw [hr'.firstPid hc hl]
    exact ⟨_, rfl, send8_answers hs (by simp) htx, hlt, hr'⟩

/-- C32: the PID ranges of the lists are disjoint and cover 0 .. number of ODTs - 1: every PID
belongs to exactly one ODT of exactly one list. -/
theorem C32_partition (c : Conf) (n : Nat) :
    (n < c.odts ↔ ∃ l j, c.has (.odt l j) ∧ n = c.firstPid l + j) ∧
    ∀ l j l' j', c.has (.odt l j) → c.has (.odt l' j') → c.firstPid l + j = c.firstPid l' + j' → l = l' ∧ j = j' := by
  have hmono : ∀ l l' : Nat, l ≤ l' → c.firstPid l ≤ c.firstPid l' := by
    intro l l' h
    induction l' with
    | zero => have : l = 0 := by omega
              subst this; exact Nat.le_refl _
    | succ l' ih =>
      by_cases e : l = l' + 1
      · subst e; exact Nat.le_refl _
      · refine Nat.le_trans (ih (by omega)) ?_
        by_cases hl : l' < c.length
        · rw [firstPid_succ (List.getElem?_eq_getElem hl)]; omega
        · unfold Conf.firstPid
          rw [List.take_of_length_le (by omega), List.take_of_length_le (by omega)]
          exact Nat.le_refl _
  constructor
  · constructor
    · have key : ∀ k, n < c.firstPid k → ∃ l j, c.has (.odt l j) ∧ n = c.firstPid l + j := by
        intro k
        induction k with
        | zero => intro h; simp [Conf.firstPid] at h
        | succ k ih =>
          intro h
          by_cases hk : n < c.firstPid k
          · exact ih hk
          · by_cases hl : k < c.length
            · have hg := List.getElem?_eq_getElem hl
              rw [firstPid_succ hg] at h
              exact ⟨k, n - c.firstPid k, ⟨_, hg, by omega⟩, by omega⟩
            · exfalso
              apply hk
              unfold Conf.firstPid at *
              rw [List.take_of_length_le (by omega)] at h ⊢
              exact h
      intro h
      apply key c.length
      unfold Conf.firstPid
      rw [List.take_length]
      exact h
    · rintro ⟨l, j, ⟨odts, h1, h2⟩, rfl⟩
      have := firstPid_succ h1
      have := firstPid_le c (l + 1)
      omega
  · intro l j l' j' ⟨odts, h1, h2⟩ ⟨odts', h3, h4⟩ h
    have e1 := firstPid_succ h1
    have e2 := firstPid_succ h3
    rcases Nat.lt_trichotomy l l' with hl | hl | hl
    · have := hmono (l + 1) l' hl; omega
    · subst hl; exact ⟨rfl, by omega⟩
    · have := hmono (l' + 1) l hl; omega

/-- Three lists with 2, 0 and 3 ODTs: their first PIDs are 0, 2 and 2. -/
example : Ex.obs Ex.sim [Ex.c [0xFF], Ex.c [0xD6], Ex.c [0xD5, 0, 3, 0], Ex.c [0xD4, 0, 0, 0, 2], Ex.c [0xD4, 0, 2, 0, 3],
    Ex.c [0xDE, 2, 0, 0], Ex.c [0xDE, 2, 1, 0], Ex.c [0xDE, 2, 2, 0]] (fun s => (s.tx.map fun f => (f.bytes.drop 4).take 2).drop 5) =
    some [[0xFF, 0], [0xFF, 2], [0xFF, 2]] := by decide +kernel

/-- C32 is false for other configurations: one ODT is allocated, for list 1, and then entries for ODT 0
of list 0, which has none.  List 1 now starts at PID 5, although there is one ODT in all. -/
theorem C32_fails :
    Ex.obs Ex.sim [Ex.c [0xFF], Ex.c [0xD6], Ex.c [0xD5, 0, 2, 0], Ex.c [0xD4, 0, 1, 0, 1], Ex.c [0xD3, 0, 0, 0, 0, 5],
      Ex.c [0xDE, 2, 1, 0]] (fun s => ((s.tx.map fun f => (f.bytes.drop 4).take 2).drop 5, s.daq.odtCount)) =
    some ([[0xFF, 5]], 1) := by decide +kernel

end Xcp
