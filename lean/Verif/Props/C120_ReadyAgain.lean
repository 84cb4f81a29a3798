import Verif.Props.C117_Session
import Verif.Props.C96_Guarded
import Verif.Props.C68_Windows
import Verif.Props.C43_Background
/-
C120: a busy slave becomes ready again.  The exact number of calls of `Xcp_MainFunction` it takes, what
cannot change it, and how a tool brings the slave back to the beginning from every state.
-/
set_option autoImplicit false
namespace Xcp
open Spec

/-- Calls for the rest of a checksum of which `n` bytes are left, after the first chunk of `c` bytes: one
per chunk, where `n` is counted modulo `m` and looked at only after it has been reduced by `c`, and one for
the last bytes. -/
def Spec.chunksLeft (m c n : Nat) : Nat := 2 + ((n + m - c) % m - c + (c - 1)) / c

/-- How often the application has to call `Xcp_MainFunction` until the slave is no longer busy: one
packet of a block upload per call, or one chunk of a checksum per call (bytes are counted in 32 bits). -/
def Spec.callsLeft (cfg : Cfg) (s : St) : Nat :=
  if s.slaveBlk.active then (s.slaveBlk.remaining + (cfg.maxCto - 2)) / (cfg.maxCto - 1)
  else match s.ck.state with
    | .idle => 0
    | .initial => 1 + Spec.chunksLeft (2 ^ 32) cfg.chunkSize ((s.ck.size + 2 ^ 32 - cfg.chunkSize) % 2 ^ 32)
    | .remaining => Spec.chunksLeft (2 ^ 32) cfg.chunkSize s.ck.size
    | .final => 1

/-- The calls of `Xcp_MainFunction` in a history. -/
def Spec.mainCalls (l : List (Env × Op)) : Nat := l.countP fun x => x.2 == .main

theorem Spec.callsLeft.congr {cfg : Cfg} {s t : St} (h1 : t.slaveBlk = s.slaveBlk) (h2 : t.ck = s.ck) :
    Spec.callsLeft cfg t = Spec.callsLeft cfg s := by
  unfold Spec.callsLeft
  rw [h1, h2]

theorem ceil_pos {r d : Nat} (hd : 0 < d) (hr : 0 < r) : 0 < (r + (d - 1)) / d := Nat.div_pos (by omega) hd

theorem ceil_step {r d : Nat} (hd : 0 < d) (hr : d < r) : (r - d + (d - 1)) / d + 1 = (r + (d - 1)) / d := by
  rw [← Nat.add_div_right _ hd]
  congr 1
  omega

theorem ceil_one {r d : Nat} (hr : 0 < r) (hrd : r ≤ d) : (r + (d - 1)) / d = 1 :=
  Nat.div_eq_of_lt_le (by omega) (by omega)

theorem chunksLeft_ge (m c n : Nat) : 2 ≤ Spec.chunksLeft m c n := Nat.le_add_right _ _

theorem chunksLeft_last {m c n : Nat} (hc : 0 < c) (h : (n + m - c) % m ≤ c) : Spec.chunksLeft m c n = 2 := by
  have z : (n + m - c) % m - c + (c - 1) < c := by omega
  unfold Spec.chunksLeft
  rw [Nat.div_eq_of_lt z]

theorem chunksLeft_more {m c n : Nat} (hc : 0 < c) (hm : c < m) (h : ¬ (n + m - c) % m ≤ c) :
    Spec.chunksLeft m c ((n + m - c) % m) + 1 = Spec.chunksLeft m c n := by
  unfold Spec.chunksLeft
  have hw2 : (n + m - c) % m < m := Nat.mod_lt _ (by omega)
  generalize (n + m - c) % m = w at *
  have e : (w + m - c) % m = w - c := by
    rw [show w + m - c = (w - c) + m by omega, Nat.add_mod_right, Nat.mod_eq_of_lt (by omega)]
  rw [e]
  by_cases h2c : w - c ≤ c
  · have z : w - c - c + (c - 1) < c := by omega
    rw [Nat.div_eq_of_lt z, ceil_one (by omega) h2c]
  · have := ceil_step (r := w - c) hc (by omega)
    omega

theorem sub32_lt {c : Nat} (hc : c < 2 ^ 32) (n : Nat) : sub32 n c = (n + 2 ^ 32 - c) % 2 ^ 32 := by
  unfold sub32
  rw [Nat.mod_eq_of_lt hc]

theorem callsLeft_pos {cfg : Cfg} (hm : 2 ≤ cfg.maxCto) {s : St} (hI : BusyI cfg s) : s.busy = true ↔ 0 < Spec.callsLeft cfg s := by
  rw [hI.iff]
  unfold Spec.callsLeft
  cases ha : s.slaveBlk.active with
  | true =>
    have := ceil_pos (d := cfg.maxCto - 1) (by omega) (hI.rem ha).1
    have e : cfg.maxCto - 1 - 1 = cfg.maxCto - 2 := by omega
    rw [e] at this
    simpa using this
  | false =>
    cases hk : s.ck.state <;> simp only [Bool.false_eq_true, false_or, if_false, ne_eq, not_true, reduceCtorEq, not_false_eq_true, Nat.lt_irrefl, true_iff, iff_self]
    · exact Nat.lt_of_lt_of_le Nat.zero_lt_one (Nat.le_add_right _ _)
    · exact Nat.lt_of_lt_of_le Nat.zero_lt_two (chunksLeft_ge _ _ _)
    · exact Nat.zero_lt_one

theorem busy_other {cfg : Cfg} (env : Env) (op : Op) {s : St} (hc : s.connected = true) (hb : s.busy = true) (ho : op ≠ .main) :
    Post (step cfg env s op) (fun s' => s'.busy = s.busy ∧ s'.slaveBlk = s.slaveBlk ∧ s'.ck = s.ck) := by
  cases op with
  | cmd p =>
    apply Post.dispatch
    · intro h1 h2
      have := busyState_same cfg s
      exact ⟨this.busy, this.slaveBlk, this.ck⟩
    · intro b c _ _ _ hb'; rw [hb] at hb'; cases hb'
    · intro h1 _; rw [hc] at h1; cases h1
    · intro _ h1 _ _; rw [hc] at h1; cases h1
  | main => exact absurd rfl ho
  | trigger ev =>
    unfold step
    have htr : ∀ n s, Post (transmit cfg n s) (fun s' => s'.busy = s.busy ∧ s'.slaveBlk = s.slaveBlk ∧ s'.ck = s.ck) := by
      intro n
      induction n with
      | zero => intro s; exact Post.ok ⟨rfl, rfl, rfl⟩
      | succ n ih =>
        intro s
        unfold transmit
        apply Post.ite
        · intro _; exact Post.ok ⟨rfl, rfl, rfl⟩
        · intro _
          apply Post.bindAny
          rintro ⟨q, data⟩ _
          exact ih _
    unfold triggerEvent
    post
    all_goals first | exact ⟨rfl, rfl, rfl⟩ | exact htr _ _
  | eventPkt code data => unfold step sendSpecial; post; exact ⟨rfl, rfl, rfl⟩
  | servPkt code data => unfold step sendSpecial; post; exact ⟨rfl, rfl, rfl⟩
  | appWrite a b => exact Post.ok ⟨rfl, rfl, rfl⟩
  | apiDisconnect => exact Post.ok (by simp)

theorem callsLeft_of {cfg : Cfg} {s : St} (ha : s.slaveBlk.active = false) {st : CkState} (hs : s.ck.state = st) :
    Spec.callsLeft cfg s = match (generalizing := false) st with
      | .idle => 0
      | .initial => 1 + Spec.chunksLeft (2 ^ 32) cfg.chunkSize ((s.ck.size + 2 ^ 32 - cfg.chunkSize) % 2 ^ 32)
      | .remaining => Spec.chunksLeft (2 ^ 32) cfg.chunkSize s.ck.size
      | .final => 1 := by
  subst hs
  unfold Spec.callsLeft
  rw [if_neg (by simp [ha] : ¬ s.slaveBlk.active = true)]

theorem checksumChunk_blk (cfg : Cfg) (s : St) (st : CkState) (c : Nat) : (checksumChunk cfg s st c).slaveBlk = s.slaveBlk := rfl

theorem checksumFinish_blk (cfg : Cfg) (s : St) (c : Nat) : (checksumFinish cfg s c).slaveBlk = s.slaveBlk := rfl

theorem checksumMain_blk (cfg : Cfg) (s : St) : (checksumMain cfg s).slaveBlk = s.slaveBlk := by
  unfold checksumMain
  cases s.ck.state with
  | idle => rfl
  | initial => exact checksumChunk_blk ..
  | remaining => exact checksumChunk_blk ..
  | final => exact checksumFinish_blk ..

theorem checksumMain_initial {cfg : Cfg} {s : St} (hs : s.ck.state = .initial) :
    (checksumMain cfg s).ck.state = .remaining ∧ (checksumMain cfg s).ck.size = sub32 s.ck.size cfg.chunkSize := by
  unfold checksumMain; rw [hs]; exact ⟨rfl, rfl⟩

theorem checksumMain_remaining {cfg : Cfg} {s : St} (hs : s.ck.state = .remaining) :
    (checksumMain cfg s).ck.state = (if sub32 s.ck.size cfg.chunkSize ≤ cfg.chunkSize then CkState.final else CkState.remaining) ∧
    (checksumMain cfg s).ck.size = sub32 s.ck.size cfg.chunkSize := by
  unfold checksumMain; rw [hs]; exact ⟨rfl, rfl⟩

theorem checksumMain_final {cfg : Cfg} {s : St} (hs : s.ck.state = .final) : (checksumMain cfg s).ck.state = .idle := by
  unfold checksumMain; rw [hs]; rfl

theorem left_initial {cfg : Cfg} (hc : cfg.chunkSize < 2 ^ 32) {s : St} (ha : s.slaveBlk.active = false)
    (hs : s.ck.state = .initial) : Spec.callsLeft cfg (checksumMain cfg s) + 1 = Spec.callsLeft cfg s := by
  have e := checksumMain_initial (cfg := cfg) hs
  rw [callsLeft_of ha hs, callsLeft_of (by rw [checksumMain_blk]; exact ha) e.1]
  simp only
  rw [e.2, sub32_lt hc, Nat.add_comm]

theorem left_remaining {cfg : Cfg} (hc : 0 < cfg.chunkSize ∧ cfg.chunkSize < 2 ^ 32) {s : St} (ha : s.slaveBlk.active = false)
    (hs : s.ck.state = .remaining) : Spec.callsLeft cfg (checksumMain cfg s) + 1 = Spec.callsLeft cfg s := by
  have e := checksumMain_remaining (cfg := cfg) hs
  rw [sub32_lt hc.2] at e
  rw [callsLeft_of ha hs]
  by_cases hle : (s.ck.size + 2 ^ 32 - cfg.chunkSize) % 2 ^ 32 ≤ cfg.chunkSize
  · rw [if_pos hle] at e
    rw [callsLeft_of (by rw [checksumMain_blk]; exact ha) e.1]
    simp only
    rw [chunksLeft_last hc.1 hle]
  · rw [if_neg hle] at e
    rw [callsLeft_of (by rw [checksumMain_blk]; exact ha) e.1]
    simp only
    rw [e.2]
    exact chunksLeft_more hc.1 hc.2 hle

theorem checksum_left {cfg : Cfg} (hc : 0 < cfg.chunkSize ∧ cfg.chunkSize < 2 ^ 32) {s : St} (ha : s.slaveBlk.active = false)
    (hk : s.ck.state ≠ .idle) : Spec.callsLeft cfg (checksumMain cfg s) + 1 = Spec.callsLeft cfg s := by
  cases hs : s.ck.state with
  | idle => exact absurd hs hk
  | initial => exact left_initial hc.2 ha hs
  | remaining => exact left_remaining hc ha hs
  | final =>
    rw [callsLeft_of ha hs, callsLeft_of (by rw [checksumMain_blk]; exact ha) (checksumMain_final hs)]

theorem busy_main {cfg : Cfg} (hm : 2 ≤ cfg.maxCto) (hc : 0 < cfg.chunkSize ∧ cfg.chunkSize < 2 ^ 32) (env : Env) {s : St}
    (hI : BusyI cfg s) (hb : s.busy = true) :
    ∃ s', step cfg env s .main = .ok s' ∧ Spec.callsLeft cfg s' + 1 = Spec.callsLeft cfg s := by
  cases ha : s.slaveBlk.active with
  | true =>
    obtain ⟨hr, hsb⟩ := hI.rem ha
    have hk := hI.not_both ha
    have hd : 0 < cfg.maxCto - 1 := by omega
    have e2 : cfg.maxCto - 1 - 1 = cfg.maxCto - 2 := by omega
    have key : ∀ n, 0 < n → n ≤ cfg.maxCto - 1 → ∀ s1, s1 = { s with mta := s.mta.advance n, slaveBlk := { s.slaveBlk with remaining := s.slaveBlk.remaining - n } } →
        uploadFrame cfg env s n = .ok (if s.slaveBlk.remaining - n = 0 then
          setSlaveActive (sendRaw cfg s1 (0xFF :: s.mem.read (mapped cfg env s.mta) n)) false
          else sendRaw cfg s1 (0xFF :: s.mem.read (mapped cfg env s.mta) n)) := by
      rintro n h0 hn s1 rfl
      unfold uploadFrame copyGuard
      rw [if_neg (by simp; omega)]
      unfold sendBytes
      rw [if_neg (by simp [Mem.read]; omega)]
      show (if _ then _ else _) = _
      by_cases hz : s.slaveBlk.remaining - n = 0
      · rw [if_pos hz, if_pos (by simpa using hz)]; rfl
      · rw [if_neg hz, if_neg (by simpa using hz)]; rfl
    have fin : ∀ s1, uploadSingleBlock cfg env s = .ok s1 → s1.ck = s.ck → step cfg env s .main = .ok s1 := by
      intro s1 h1 h2
      show mainFunction cfg env s = _
      unfold mainFunction mainUpload
      rw [if_pos hsb, h1]
      show Except.ok (mainChecksum cfg s1) = _
      unfold mainChecksum
      split
      · unfold checksumMain; rw [h2, hk]
      · rfl
    by_cases hle : s.slaveBlk.remaining ≤ cfg.maxCto - 1
    · refine ⟨_, fin _ ((?_ : uploadSingleBlock cfg env s = _).trans (key _ hr hle _ rfl)) ?_, ?_⟩
      · unfold uploadSingleBlock
        rw [if_neg (by simp [ha]), if_pos hle]
      · rw [if_pos (by omega)]; rfl
      · rw [if_pos (by omega)]
        have : s.ck.state = .idle := hk
        have e := ceil_one hr hle
        rw [e2] at e
        simp [Spec.callsLeft, setSlaveActive, ha, this, e]
    · refine ⟨_, fin _ ((?_ : uploadSingleBlock cfg env s = _).trans (key _ hd (Nat.le_refl _) _ rfl)) ?_, ?_⟩
      · unfold uploadSingleBlock
        rw [if_neg (by simp [ha]), if_neg hle]
      · rw [if_neg (by omega)]; rfl
      · rw [if_neg (by omega)]
        have e := ceil_step hd (show cfg.maxCto - 1 < s.slaveBlk.remaining by omega)
        rw [e2] at e
        simp [Spec.callsLeft, ha, e]
  | false =>
    have hk : s.ck.state ≠ .idle := by
      rcases hI.iff.mp hb with h | h
      · rw [ha] at h; cases h
      · exact h
    obtain ⟨h1, h2⟩ := hI.ck hk
    have e : step cfg env s .main = .ok (checksumMain cfg s) := by
      show mainFunction cfg env s = _
      unfold mainFunction mainUpload uploadSingleBlock
      have : (if cfg.slaveBlock = true then (if ¬ s.slaveBlk.active = true then (Except.ok s : R)
        else if s.slaveBlk.remaining ≤ cfg.maxCto - 1 then uploadFrame cfg env s s.slaveBlk.remaining
        else uploadFrame cfg env s (cfg.maxCto - 1)) else .ok s) = .ok s := by
        split
        · rw [if_pos (by simp [ha])]
        · rfl
      rw [this]
      show Except.ok (mainChecksum cfg s) = _
      unfold mainChecksum
      rw [h1, h2]
      rfl
    exact ⟨_, e, checksum_left hc ha hk⟩

theorem left_run {cfg : Cfg} (hm : 2 ≤ cfg.maxCto) (hc : 0 < cfg.chunkSize ∧ cfg.chunkSize < 2 ^ 32) :
    ∀ (l : List (Env × Op)) {s s' : St}, BusyI cfg s → s.busy = true → run cfg s l = .ok s' → Spec.mainCalls l < Spec.callsLeft cfg s →
    BusyI cfg s' ∧ s'.busy = true ∧ Spec.callsLeft cfg s' + Spec.mainCalls l = Spec.callsLeft cfg s := by
  intro l
  induction l with
  | nil => intro s s' hI hb h hl; cases h; exact ⟨hI, hb, by simp [Spec.mainCalls]⟩
  | cons x l ih =>
    obtain ⟨env, op⟩ := x
    intro s s' hI hb h hl
    simp only [run] at h
    cases h1 : step cfg env s op with
    | error e => rw [h1] at h; cases h
    | ok s1 =>
      rw [h1] at h
      have h : run cfg s1 l = .ok s' := h
      have hI1 := step_busy env op hI s1 h1
      by_cases ho : op = .main
      · subst ho
        obtain ⟨s2, h2, h3⟩ := busy_main hm hc env hI hb
        rw [h1] at h2; cases h2
        have hcnt : Spec.mainCalls ((env, Op.main) :: l) = Spec.mainCalls l + 1 := by simp [Spec.mainCalls]
        rw [hcnt] at hl ⊢
        have hb1 := (callsLeft_pos hm hI1).mpr (by omega)
        obtain ⟨a, b, c⟩ := ih hI1 hb1 h (by omega)
        exact ⟨a, b, by omega⟩
      · obtain ⟨g1, g2, g3⟩ := busy_other env op (hI.conn hb) hb ho s1 h1
        have hcnt : Spec.mainCalls ((env, op) :: l) = Spec.mainCalls l := by
          simp [Spec.mainCalls, ho]
        have e := Spec.callsLeft.congr (cfg := cfg) g2 g3
        rw [hcnt] at hl ⊢
        obtain ⟨a, b, c⟩ := ih hI1 (g1.trans hb) h (by omega)
        exact ⟨a, b, by omega⟩

/-- C120, safety half: nothing that happens (commands, events, writes of the application, a call of
`Xcp_Disconnect`) ends the work earlier: the slave stays busy while fewer calls were made. -/
theorem C120_still_busy {cfg : Cfg} (hm : 2 ≤ cfg.maxCto) (hc : 0 < cfg.chunkSize ∧ cfg.chunkSize < 2 ^ 32) {mem : Mem} {h l : List (Env × Op)}
    {s s' : St} (hr : run cfg (St.init cfg mem) h = .ok s) (h1 : run cfg s l = .ok s')
    (hl : Spec.mainCalls l < Spec.callsLeft cfg s) : s'.busy = true :=
  (left_run hm hc l (run_busy hr) ((callsLeft_pos hm (run_busy hr)).mpr (by omega)) h1 hl).2.1

/-- C120, liveness half: with that call of `Xcp_MainFunction` the slave is ready, whatever happened in
between. -/
theorem C120_ready {cfg : Cfg} (hm : 2 ≤ cfg.maxCto) (hc : 0 < cfg.chunkSize ∧ cfg.chunkSize < 2 ^ 32) {mem : Mem} {h l : List (Env × Op)}
    {s s' : St} (hr : run cfg (St.init cfg mem) h = .ok s) {env : Env} (h1 : run cfg s (l ++ [(env, .main)]) = .ok s')
    (hl : Spec.mainCalls l + 1 = Spec.callsLeft cfg s) : Ready s' := by
  have hI := run_busy hr
  have hb := (callsLeft_pos hm hI).mpr (by omega)
  rw [run_append] at h1
  cases h2 : run cfg s l with
  | error e => rw [h2] at h1; cases h1
  | ok s1 =>
    rw [h2] at h1
    have h1 : run cfg s1 [(env, .main)] = .ok s' := h1
    obtain ⟨a, b, c⟩ := left_run hm hc l hI hb h2 (by omega)
    obtain ⟨s2, h3, h4⟩ := busy_main hm hc env a b
    simp only [run] at h1
    rw [h3] at h1
    have h1 : s2 = s' := by simpa [run] using h1
    subst h1
    have hI2 := step_busy env .main a _ h3
    have hz : Spec.callsLeft cfg s2 = 0 := by omega
    have hnb : s2.busy = false := by
      cases hx : s2.busy with
      | false => rfl
      | true => have := (callsLeft_pos hm hI2).mp hx; omega
    exact ⟨step_connected env .main (a.conn b) _ h3, hnb⟩

theorem main_at_rest {cfg : Cfg} (env : Env) {s : St} (hI : BusyI cfg s) (hb : s.busy = false) : step cfg env s .main = .ok s := by
  have ha : s.slaveBlk.active = false := by
    cases h : s.slaveBlk.active with
    | false => rfl
    | true => have := hI.iff.mpr (Or.inl h); rw [hb] at this; cases this
  have hk : s.ck.state = .idle := by
    apply Classical.byContradiction
    intro h
    have := hI.iff.mpr (Or.inr h)
    rw [hb] at this; cases this
  show mainFunction cfg env s = _
  have e : mainUpload cfg env s = .ok s := by
    unfold mainUpload uploadSingleBlock
    split
    · rw [if_pos (by simp [ha])]
    · rfl
  unfold mainFunction
  rw [e]
  show Except.ok (mainChecksum cfg s) = _
  unfold mainChecksum checksumMain
  rw [hk]
  split <;> rfl

theorem mains_ready {cfg : Cfg} (hm : 2 ≤ cfg.maxCto) (hc : 0 < cfg.chunkSize ∧ cfg.chunkSize < 2 ^ 32) (envs : List Env) :
    ∀ {s : St}, BusyI cfg s → Spec.callsLeft cfg s ≤ envs.length →
      ∃ s', run cfg s (envs.map fun e => (e, .main)) = .ok s' ∧ s'.busy = false := by
  induction envs with
  | nil =>
    intro s hI h
    refine ⟨s, rfl, ?_⟩
    cases hb : s.busy with
    | false => rfl
    | true => exact absurd ((callsLeft_pos hm hI).mp hb) (by simp at h; omega)
  | cons e envs ih =>
    intro s hI h
    simp only [List.map_cons, run]
    cases hb : s.busy with
    | false =>
      rw [main_at_rest e hI hb]
      exact ih hI (by
        have : Spec.callsLeft cfg s = 0 := by
          apply Classical.byContradiction
          intro hz
          have := (callsLeft_pos hm hI).mpr (by omega)
          rw [hb] at this; cases this
        omega)
    | true =>
      obtain ⟨s1, h1, h2⟩ := busy_main hm hc e hI hb
      rw [h1]
      exact ih (step_busy e .main hI s1 h1) (by simp only [List.length_cons] at h; omega)

/-- C120: calls of `Xcp_MainFunction` alone cannot fail, and enough of them make every slave ready that
has been connected. -/
theorem C120_calls {cfg : Cfg} (hm : 2 ≤ cfg.maxCto) (hc : 0 < cfg.chunkSize ∧ cfg.chunkSize < 2 ^ 32) {mem : Mem} {h : List (Env × Op)}
    {s : St} (hr : run cfg (St.init cfg mem) h = .ok s) (envs : List Env) (hl : Spec.callsLeft cfg s ≤ envs.length) :
    ∃ s', run cfg s (envs.map fun e => (e, .main)) = .ok s' ∧ s'.busy = false :=
  mains_ready hm hc envs (run_busy hr) hl

theorem chunks_total {m c n : Nat} (hc : 0 < c) (hcn : c < n) (hnm : n < m) :
    1 + Spec.chunksLeft m c ((n + m - c) % m) = max 3 (((if 2 * c ≤ n then n else m + n) + (c - 1)) / c) := by
  have e : (n + m - c) % m = n - c := by
    rw [show n + m - c = (n - c) + m by omega, Nat.add_mod_right, Nat.mod_eq_of_lt (by omega)]
  rw [e]
  unfold Spec.chunksLeft
  have key : ∀ v, 2 * c ≤ v → 3 + (v - 2 * c - c + (c - 1)) / c = max 3 ((v + (c - 1)) / c) := by
    intro v hv
    by_cases h3 : 3 * c ≤ v
    · have : v + (c - 1) = (v - 2 * c - c + (c - 1)) + 3 * c := by omega
      rw [this, Nat.add_mul_div_right _ _ hc]
      generalize (v - 2 * c - c + (c - 1)) / c = q
      omega
    · have z : v - 2 * c - c + (c - 1) < c := by omega
      rw [Nat.div_eq_of_lt z]
      have : (v + (c - 1)) / c < 4 := (Nat.div_lt_iff_lt_mul hc).mpr (by omega)
      omega
  split
  · rename_i h2
    have e : (n - c + m - c) % m = n - 2 * c := by
      rw [show n - c + m - c = (n - 2 * c) + m by omega, Nat.add_mod_right, Nat.mod_eq_of_lt (by omega)]
    rw [e, ← key n h2]
    generalize (n - 2 * c - c + (c - 1)) / c = q
    omega
  · rename_i h2
    have e : (n - c + m - c) % m = m + n - 2 * c := by
      rw [Nat.mod_eq_of_lt (by omega)]; omega
    rw [e, ← key (m + n) (by omega)]
    generalize (m + n - 2 * c - c + (c - 1)) / c = q
    omega

/-- How long an accepted BUILD_CHECKSUM of `n` bytes takes that is done in the background: a call per
chunk, but at least three; for less than two chunks the counter of bytes wraps and 2^32 bytes more are
summed up. -/
theorem C120_checksum {cfg : Cfg} (hsup : cfg.supports .buildChecksum = true) (hch : cfg.chunked = true) (hc : 0 < cfg.chunkSize) (env : Env)
    {s : St} (hr : Ready s) (hi : s.ck.state = .idle) (ha : s.slaveBlk.active = false) (hpg : s.pgm ≠ .active) {p : Pdu} {n : Nat}
    (hp : ChecksumOk cfg env s.mta p n) (hn : cfg.chunkSize < n) :
    ∃ s', step cfg env s (.cmd p) = .ok s' ∧ s'.busy = true ∧
      Spec.callsLeft cfg s' = max 3 (((if 2 * cfg.chunkSize ≤ n then n else 2 ^ 32 + n) + (cfg.chunkSize - 1)) / cfg.chunkSize) := by
  refine ⟨_, build_starts hsup hch env hr hi hpg hp hn, rfl, ?_⟩
  have hs : (jobState (bumpReceived cfg s) .initial s.mta.addr n s.ck.interim).ck.state = .initial := rfl
  have ha' : (jobState (bumpReceived cfg s) .initial s.mta.addr n s.ck.interim).slaveBlk.active = false := by
    show (bumpReceived cfg s).slaveBlk.active = false
    rw [bumpReceived_slaveBlk]; exact ha
  have hsz : (jobState (bumpReceived cfg s) .initial s.mta.addr n s.ck.interim).ck.size = n := rfl
  rw [callsLeft_of ha' hs]
  simp only
  rw [hsz]
  exact chunks_total hc hn hp.lt

/-- C120, in full: a checksum over `n` bytes keeps the slave busy for no more calls than it has chunks
(and one to start and one to end). -/
def Spec.BusyInProportion (cfg : Cfg) : Prop :=
  ∀ (mem : Mem) (h : List (Env × Op)) (s s' : St) (env : Env) (p : Pdu) (n : Nat), run cfg (St.init cfg mem) h = .ok s → Ready s →
    s.pgm ≠ .active → ChecksumOk cfg env s.mta p n → step cfg env s (.cmd p) = .ok s' → Spec.callsLeft cfg s' ≤ n / cfg.chunkSize + 2

/-- C120 holds in that form if a chunk is not larger than half of a block, or the whole block is done at
once. -/
theorem C120_proportion_partial {cfg : Cfg} (hsup : cfg.supports .buildChecksum = true) (hch : cfg.chunked = true) (hc : 0 < cfg.chunkSize)
    (env : Env) {s : St} (hr : Ready s) (hi : s.ck.state = .idle) (ha : s.slaveBlk.active = false) (hpg : s.pgm ≠ .active) {p : Pdu} {n : Nat}
    (hp : ChecksumOk cfg env s.mta p n) (hn : 2 * cfg.chunkSize ≤ n) {s' : St} (h1 : step cfg env s (.cmd p) = .ok s') :
    Spec.callsLeft cfg s' ≤ n / cfg.chunkSize + 1 := by
  obtain ⟨s2, h2, _, h3⟩ := C120_checksum hsup hch hc env hr hi ha hpg hp (by omega)
  rw [h1] at h2
  injection h2 with h2
  subst h2
  rw [h3, if_pos hn]
  have : 2 ≤ n / cfg.chunkSize := (Nat.le_div_iff_mul_le hc).mpr hn
  have h4 : (n + (cfg.chunkSize - 1)) / cfg.chunkSize ≤ n / cfg.chunkSize + 1 := by
    rw [← Nat.add_div_right _ hc]
    exact Nat.div_le_div_right (by omega)
  omega

/-- C120, recovery: from every state a slave can be in, enough calls of `Xcp_MainFunction` and then
CONNECT, PROGRAM_RESET and DISCONNECT bring it back to the beginning: in every later history it does
what a restarted slave does (that has taken over what C117 lists). -/
theorem C120_recover {cfg : Cfg} (hm : 2 ≤ cfg.maxCto) (hc : 0 < cfg.chunkSize ∧ cfg.chunkSize < 2 ^ 32)
    (hsup : cfg.supports .programReset = true) {mem : Mem} {h : List (Env × Op)} {s : St}
    (hr : run cfg (St.init cfg mem) h = .ok s) (envs : List Env) (hl : Spec.callsLeft cfg s ≤ envs.length)
    {e1 e2 e3 : Env} {p1 p2 p3 : Pdu} (hp1 : code p1 = some 0xFF) (hp2 : code p2 = some 0xCF) (hp3 : code p3 = some 0xFE) :
    ∃ s', run cfg s (envs.map (fun e => (e, .main)) ++ [(e1, .cmd p1), (e2, .cmd p2), (e3, .cmd p3)]) = .ok s' ∧ Ready s' ∧
      ∀ l, Spec.outcome cfg s' l = Spec.outcome cfg (Spec.restarted cfg s') l := by
  obtain ⟨s1, h1, hb1⟩ := C120_calls hm hc hr envs hl
  -- CONNECT
  have c1 : ∃ s2, step cfg e1 s1 (.cmd p1) = .ok s2 ∧ Ready s2 := by
    rw [connect_any e1 s1 hb1 hp1]
    have hr1 : Ready { s1 with connected := true } := ⟨rfl, hb1⟩
    rw [hr1.stepc e1 .connect hp1 supports_mandatory.1]
    refine ⟨_, rfl, rfl, ?_⟩
    show (bumpReceived cfg { s1 with connected := true }).busy = false
    rw [bumpReceived_busy]; exact hb1
  obtain ⟨s2, h2, hr2⟩ := c1
  -- PROGRAM_RESET
  have c2 : ∃ s3, step cfg e2 s2 (.cmd p2) = .ok s3 ∧ Ready s3 ∧ s3.pgm ≠ .active := by
    rw [hr2.stepc e2 .programReset hp2 hsup]
    have hc : (bumpReceived cfg s2).connected = true := by rw [(bumpReceived_same cfg s2).connected]; exact hr2.conn
    have hb : (bumpReceived cfg s2).busy = false := by rw [bumpReceived_busy]; exact hr2.idle
    simp only [handler, programResetRes, assertPgmActive]
    split
    · rename_i hp
      refine ⟨_, rfl, ⟨?_, ?_⟩, ?_⟩
      · exact hc
      · exact hb
      · exact hp
    · exact ⟨_, rfl, ⟨hc, hb⟩, by intro h; cases h⟩
  obtain ⟨s3, h3, hr3, hp3'⟩ := c2
  have hrun : run cfg (St.init cfg mem) (h ++ (envs.map (fun e => (e, .main)) ++ [(e1, .cmd p1), (e2, .cmd p2)])) = .ok s3 := by
    rw [run_append, hr]
    show run cfg s _ = _
    rw [run_append, h1]
    show run cfg s1 _ = _
    simp only [run]
    rw [h2]
    show (step cfg e2 s2 _ >>= _) = _
    rw [h3]; rfl
  obtain ⟨s', h4, h5⟩ := C117_restarted hrun hr3 hp3' hp3 e3
  refine ⟨s', ?_, ?_, h5⟩
  · rw [run_append, h1]
    show run cfg s1 _ = _
    simp only [run]
    rw [h2]
    show (step cfg e2 s2 _ >>= _) = _
    rw [h3]
    show (step cfg e3 s3 _ >>= _) = _
    rw [h4]; rfl
  · have e := disconnect_step (cfg := cfg) hr3 hp3' hp3 e3
    rw [h4] at e
    injection e with e
    subst e
    refine ⟨?_, ?_⟩
    · rw [apiDisconnect_connected]
      show (bumpReceived cfg s3).connected = true
      rw [(bumpReceived_same cfg s3).connected]; exact hr3.conn
    · rw [apiDisconnect_busy]
      show (bumpReceived cfg s3).busy = false
      rw [bumpReceived_busy]; exact hr3.idle

/-- A build with checksums in the background, 64 bytes at a time. -/
def Ex.chunky : Cfg := { Ex.sim with chunked := true, chunkSize := 64 }

/-- C120 fails in full: over 100 bytes, more than one chunk of 64 and less than two, the slave is busy for
67 million calls. -/
theorem C120_fails : ¬ Spec.BusyInProportion Ex.chunky := by
  intro hh
  have h1 : ∃ s, run Ex.chunky (St.init Ex.chunky Ex.mem) [Ex.c [0xFF, 0]] = .ok s ∧ s.connected = true ∧ s.busy = false ∧ s.pgm ≠ .active ∧
      s.ck.state = .idle ∧ s.slaveBlk.active = false := by
    have e : ((run Ex.chunky (St.init Ex.chunky Ex.mem) [Ex.c [0xFF, 0]]).toOption.map fun s =>
      decide (s.connected = true ∧ s.busy = false ∧ s.pgm ≠ .active ∧ s.ck.state = .idle ∧ s.slaveBlk.active = false)) = some true := by decide +kernel
    cases hx : run Ex.chunky (St.init Ex.chunky Ex.mem) [Ex.c [0xFF, 0]] with
    | error _ => rw [hx] at e; cases e
    | ok s =>
      rw [hx] at e
      exact ⟨s, rfl, by simpa [Except.toOption] using e⟩
  obtain ⟨s, hr, g1, g2, g3, g4, g5⟩ := h1
  have hp : ChecksumOk Ex.chunky Ex.env s.mta (Ex.pkt [0xF3, 0, 0, 0, 100, 0, 0, 0]) 100 :=
    ⟨rfl, ⟨by decide, rfl⟩, by decide, by decide, fun _ => rfl⟩
  obtain ⟨s', h2, _, h3⟩ := C120_checksum (cfg := Ex.chunky) (by decide) rfl (by decide) Ex.env ⟨g1, g2⟩ g4 g5 g3 hp (by decide)
  have := hh Ex.mem _ s s' Ex.env _ 100 hr ⟨g1, g2⟩ g3 hp h2
  rw [h3] at this
  exact absurd this (by decide)

/-- Non-trivial: a checksum over 200 bytes takes four calls.  Before the fourth, CONNECT, SYNCH and DISCONNECT are
refused as busy, and a call of `Xcp_Disconnect` does not end it either. -/
example : Ex.obs Ex.chunky [Ex.c [0xFF, 0], Ex.c [0xF3, 0, 0, 0, 200, 0, 0, 0]] (fun s => (s.busy, Spec.callsLeft Ex.chunky s)) = some (true, 4) ∧
    Ex.obs Ex.chunky [Ex.c [0xFF, 0], Ex.c [0xF3, 0, 0, 0, 200, 0, 0, 0], (Ex.env, .main), Ex.c [0xFF, 0], (Ex.env, .apiDisconnect), (Ex.env, .main),
      Ex.c [0xFC], Ex.c [0xFE], (Ex.env, .main)] (fun s => (s.busy, Spec.callsLeft Ex.chunky s)) = some (true, 1) ∧
    Ex.obs Ex.chunky [Ex.c [0xFF, 0], Ex.c [0xF3, 0, 0, 0, 200, 0, 0, 0], (Ex.env, .main), Ex.c [0xFF, 0], (Ex.env, .apiDisconnect), (Ex.env, .main),
      Ex.c [0xFC], Ex.c [0xFE], (Ex.env, .main), (Ex.env, .main)] (fun s => (s.busy, Spec.callsLeft Ex.chunky s)) = some (false, 0) := by decide +kernel

/-- A block upload of 20 bytes in packets of 7: one packet with the command, two calls. -/
example : Ex.obs { Ex.can with slaveBlock := true } [Ex.c [0xFF, 0], Ex.c [0xF5, 20]]
    (fun s => (s.busy, Spec.callsLeft { Ex.can with slaveBlock := true } s)) = some (true, 2) := by decide +kernel

/-- The way back out of programming: DISCONNECT alone is refused, after PROGRAM_RESET it is accepted. -/
example : (Ex.frames Ex.sim [Ex.c [0xFF, 0], Ex.c [0xD2], Ex.c [0xFE], Ex.c [0xFF, 0], Ex.c [0xCF], Ex.c [0xFE]]).map (·.map fun f => (f.drop 4).take 2) =
    some [[0xFF, 0x15], [0xFF, 0], [0xFE, 0x12], [0xFF, 0x15], [0xFF], [0xFF]] := by decide +kernel

end Xcp
