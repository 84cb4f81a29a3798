import Verif.Proofs.Answer
/-
The busy flag is set exactly while an operation is in progress.
-/
set_option autoImplicit false
namespace Xcp
open Spec

/-- Invariant of the busy flag, on the fields it concerns. -/
structure BusyF (cfg : Cfg) (connected busy active : Bool) (remaining : Nat) (ck : CkState) : Prop where
  conn : busy = true → connected = true
  iff : busy = true ↔ (active = true ∨ ck ≠ .idle)
  not_both : active = true → ck = .idle
  rem : active = true → 0 < remaining ∧ cfg.slaveBlock = true
  ck : ck ≠ .idle → cfg.on .buildChecksum = true ∧ cfg.chunked = true

/-- Invariant of the busy flag. -/
abbrev BusyI (cfg : Cfg) (s : St) : Prop :=
  BusyF cfg s.connected s.busy s.slaveBlk.active s.slaveBlk.remaining s.ck.state

@[simp] theorem apiDisconnect_connected (cfg : Cfg) (s : St) : (apiDisconnect cfg s).connected = s.connected := by
  unfold apiDisconnect defaultResourceProtection; repeat' split
  all_goals rfl
@[simp] theorem apiDisconnect_busy (cfg : Cfg) (s : St) : (apiDisconnect cfg s).busy = s.busy := by
  unfold apiDisconnect defaultResourceProtection; repeat' split
  all_goals rfl
@[simp] theorem apiDisconnect_slaveBlk (cfg : Cfg) (s : St) : (apiDisconnect cfg s).slaveBlk = s.slaveBlk := by
  unfold apiDisconnect defaultResourceProtection; repeat' split
  all_goals rfl
@[simp] theorem apiDisconnect_masterBlk (cfg : Cfg) (s : St) : (apiDisconnect cfg s).masterBlk = s.masterBlk := by
  unfold apiDisconnect defaultResourceProtection; repeat' split
  all_goals rfl
@[simp] theorem apiDisconnect_ck (cfg : Cfg) (s : St) : (apiDisconnect cfg s).ck = s.ck := by
  unfold apiDisconnect defaultResourceProtection; repeat' split
  all_goals rfl
@[simp] theorem apiDisconnect_mem (cfg : Cfg) (s : St) : (apiDisconnect cfg s).mem = s.mem := by
  unfold apiDisconnect defaultResourceProtection; repeat' split
  all_goals rfl
@[simp] theorem apiDisconnect_mta (cfg : Cfg) (s : St) : (apiDisconnect cfg s).mta = s.mta := by
  unfold apiDisconnect defaultResourceProtection; repeat' split
  all_goals rfl
@[simp] theorem apiDisconnect_pgm (cfg : Cfg) (s : St) : (apiDisconnect cfg s).pgm = s.pgm := by
  unfold apiDisconnect defaultResourceProtection; repeat' split
  all_goals rfl
@[simp] theorem apiDisconnect_txlog (cfg : Cfg) (s : St) : (apiDisconnect cfg s).tx = s.tx := by
  unfold apiDisconnect defaultResourceProtection; repeat' split
  all_goals rfl
@[simp] theorem apiDisconnect_stats (cfg : Cfg) (s : St) : (apiDisconnect cfg s).stats = s.stats := by
  unfold apiDisconnect defaultResourceProtection; repeat' split
  all_goals rfl
@[simp] theorem apiDisconnect_ctoOut (cfg : Cfg) (s : St) : (apiDisconnect cfg s).ctoOut = s.ctoOut := by
  unfold apiDisconnect defaultResourceProtection; repeat' split
  all_goals rfl
@[simp] theorem apiDisconnect_counter (cfg : Cfg) (s : St) : (apiDisconnect cfg s).counter = s.counter := by
  unfold apiDisconnect defaultResourceProtection; repeat' split
  all_goals rfl

theorem BusyF.quiet {cfg : Cfg} {n : Nat} (c : Bool) : BusyF cfg c false false n .idle := by
  constructor <;> simp

theorem BusyF.uploading {cfg : Cfg} {n : Nat} (hn : 0 < n) (hb : cfg.slaveBlock = true) :
    BusyF cfg true true true n .idle := by
  constructor <;> simp [*]

theorem handler_busy {cfg : Cfg} (env : Env) {s : St} (p : Pdu) (c : Cmd)
    (hsup : cfg.supports c = true) (hb : s.busy = false) (hcn : s.connected = true ∨ c = .connect)
    (hI : BusyI cfg s) : Post (handler cfg env s p c) (BusyI cfg) := by
  have ha : s.slaveBlk.active = false := by
    cases h : s.slaveBlk.active with
    | false => rfl
    | true => have := hI.iff.mpr (Or.inl h); simp [hb] at this
  have hck : s.ck.state = .idle := by
    cases h : s.ck.state with
    | idle => rfl
    | _ => have := hI.iff.mpr (Or.inr (by simp [h])); simp [hb] at this
  cases c
  all_goals unfold_handlers
  all_goals post
  all_goals try (simp only [BusyI, send8_connected, send8_busy, send8_slaveBlk, send8_ck, sendRaw_connected,
    sendRaw_busy, sendRaw_slaveBlk, sendRaw_ck, apiDisconnect_connected, apiDisconnect_busy,
    apiDisconnect_slaveBlk, apiDisconnect_ck, hb, ha, hck]; exact BusyF.quiet _)
  all_goals simp only [BusyI, sendRaw_connected, sendRaw_busy, sendRaw_slaveBlk, sendRaw_ck, hck, ha]
  all_goals try (split <;> rename_i h0 <;> first
    | exact BusyF.quiet _
    | (rw [show s.connected = true by simpa using hcn]
       exact BusyF.uploading (by omega) (by assumption)))
  all_goals constructor <;> simp_all [Cfg.supports, Cmd.mandatory, Cmd.group]

theorem step_busy {cfg : Cfg} (env : Env) (op : Op) {s : St} (hI : BusyI cfg s) :
    Post (step cfg env s op) (BusyI cfg) := by
  have hr : BusyI cfg (bumpReceived cfg s) := by simpa [BusyI] using hI
  cases op with
  | cmd p =>
    apply Post.dispatch
    · intro h1 h2
      have := busyState_same cfg s
      simp only [BusyI, this.connected, this.busy, this.slaveBlk, this.ck]
      exact hI
    · intro b c _ _ hc hb
      apply Post.tableEntry
      · intro hsup
        exact handler_busy env p c hsup (by simpa using hb) (Or.inl (by simpa using hc)) hr
      · intro _; exact hr
    · intro h1 _
      refine handler_busy env p .connect rfl ?_ (Or.inr rfl) hr
      cases h : s.busy with
      | false => simpa using h
      | true => have := hI.conn h; simp [h1] at this
    · intro _ _ _ _; exact hr
  | main =>
    unfold step
    refine Post.mainFunction (Q := BusyI cfg) ?_ ?_ ?_ ?_
    · intro hsb
      unfold uploadSingleBlock
      post
      · exact hI
      all_goals
        rename_i hn _ _ _
        have ha : s.slaveBlk.active = true := by simpa using hn
        have hck := hI.not_both ha
        have hbz := hI.iff.mpr (Or.inl ha)
        simp only [BusyI, sendRaw_connected, sendRaw_busy, sendRaw_slaveBlk, sendRaw_ck, hck, ha, hbz]
        split
        · exact BusyF.quiet _
        · rw [hI.conn hbz]; exact BusyF.uploading (by omega) hsb
    · intro _; exact hI
    · intro s1 h1 hb1 hc1
      have hna : s1.ck.state ≠ .idle → s1.slaveBlk.active = false := by
        intro h
        cases ha : s1.slaveBlk.active with
        | false => rfl
        | true => exact absurd (h1.not_both ha) h
      unfold checksumMain
      split
      · exact h1
      · rename_i h
        have hna := hna (by simp [h])
        have := h1.iff.mpr (Or.inr (by simp [h]))
        have := h1.conn this
        constructor <;> simp_all [checksumChunk]
      · rename_i h
        have hna := hna (by simp [h])
        have := h1.iff.mpr (Or.inr (by simp [h]))
        have := h1.conn this
        have hf : (if sub32 s1.ck.size cfg.chunkSize ≤ cfg.chunkSize then CkState.final else CkState.remaining) ≠ .idle := by
          split <;> simp
        generalize (if sub32 s1.ck.size cfg.chunkSize ≤ cfg.chunkSize then CkState.final else CkState.remaining) = st at hf
        constructor <;> simp_all [checksumChunk]
      · rename_i h
        have hna := hna (by simp [h])
        simp only [BusyI, checksumFinish, checksumResponse, send8_connected, send8_busy, send8_slaveBlk, hna]
        exact BusyF.quiet _
    · intro s1 h1; exact h1
  | trigger ev =>
    unfold step
    have htr : ∀ n s, BusyI cfg s → Post (transmit cfg n s) (BusyI cfg) := by
      intro n
      induction n with
      | zero => intro s h; exact Post.ok h
      | succ n ih =>
        intro s h
        unfold transmit
        apply Post.ite
        · intro _; exact Post.ok h
        · intro _
          apply Post.bindAny
          rintro ⟨q, data⟩ _
          apply ih
          exact h
    unfold triggerEvent
    post
    · exact hI
    · exact hI
    · exact hI
    · exact htr _ _ hI
    · exact hI
  | eventPkt code data => unfold step sendSpecial; post; exact hI
  | servPkt code data => unfold step sendSpecial; post; exact hI
  | appWrite a b => exact Post.ok hI
  | apiDisconnect => exact Post.ok (by simpa [BusyI] using hI)

theorem run_busy {cfg : Cfg} {mem : Mem} {h : List (Env × Op)} {s : St}
    (hr : run cfg (St.init cfg mem) h = .ok s) : BusyI cfg s :=
  run_induction (I := BusyI cfg) (fun env op _ s' hs h' => step_busy env op hs s' h')
    (BusyF.quiet _) hr

end Xcp
