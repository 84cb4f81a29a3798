import Verif.Proofs.Effects
/-
Refusals, and how the protection mask develops.
-/
set_option autoImplicit false
namespace Xcp
open Spec

theorem u8_keep {a b r : UInt8} (h1 : a &&& r = r) (h2 : b &&& r = 0) : (a &&& ~~~b) &&& r = r := by
  apply UInt8.toBitVec_inj.mp
  have h1 := congrArg UInt8.toBitVec h1
  have h2 := congrArg UInt8.toBitVec h2
  simp only [UInt8.toBitVec_and, UInt8.toBitVec_not] at *
  apply BitVec.eq_of_getLsbD_eq
  intro i hi
  have e1 := congrArg (fun x : BitVec 8 => x.getLsbD i) h1
  have e2 := congrArg (fun x : BitVec 8 => x.getLsbD i) h2
  simp [hi] at e1 e2 ⊢
  cases hr : r.toBitVec.getLsbD i <;> simp_all

/-- The bits of `a` are among those of `b`. -/
def subBits (a b : UInt8) : Prop := a &&& b = a

theorem subBits.clear {a b : UInt8} (c : UInt8) (h : subBits a b) : subBits (a &&& c) b := by
  unfold subBits at *
  rw [UInt8.and_assoc, UInt8.and_comm c b, ← UInt8.and_assoc, h]

theorem refused_send8 {cfg : Cfg} (hs : ShortOk cfg) (s : St) (c : UInt8) : Refused cfg s (send8 cfg s [0xFE, c]) c :=
  ⟨send8_answers hs (by simp) rfl, send8_same ..⟩

theorem Refused.of_bump {cfg : Cfg} {s s' : St} {c : UInt8} (h : Refused cfg (bumpReceived cfg s) s' c) :
    Refused cfg s s' c := by
  obtain ⟨⟨f, h1, h2⟩, h3⟩ := h
  exact ⟨⟨f, by simpa using h1, h2⟩, (bumpReceived_same cfg s).trans h3⟩

/-- An executed packet has the effect of its handler. -/
theorem executes_step {cfg : Cfg} (env : Env) {s : St} {p : Pdu} {c : Cmd} (h : executes cfg s p c) :
    step cfg env s (.cmd p) = handler cfg env (bumpReceived cfg s) p c :=
  Spec.Ready.stepc env ⟨h.1, h.2.1⟩ c h.2.2.1 h.2.2.2

theorem executes_refused {cfg : Cfg} {env : Env} {s : St} {p : Pdu} {c : Cmd} {e : UInt8} (h : executes cfg s p c)
    (hh : Post (handler cfg env (bumpReceived cfg s) p c) (fun t => Refused cfg (bumpReceived cfg s) t e)) :
    Post (step cfg env s (.cmd p)) (fun t => Refused cfg s t e) := by
  rw [executes_step env h]
  exact hh.mono (fun _ h => Refused.of_bump h)

theorem Spec.executes.unique {cfg : Cfg} {s : St} {p : Pdu} {c d : Cmd} (h : executes cfg s p c)
    (h' : code p = some (cmdCode d)) : c = d := by
  have h1 := h.2.2.1
  rw [h'] at h1
  injection h1 with h1
  have := table_code c
  rw [← h1, table_code d] at this
  exact (Option.some.inj this).symm

/-- The hook accepts no key for a set of resources that touches `r`. -/
def Spec.NoKey (r : UInt8) (env : Env) : Prop := ∀ m k n, m &&& r ≠ 0 → env.unlock m k n = false

/-- All of `r` is protected. -/
def Spec.Locked (cfg : Cfg) (s : St) (r : UInt8) : Prop := cfg.resourceProtection = true ∧ s.resProt &&& r = r

theorem Spec.Locked.isProtected {cfg : Cfg} {s : St} {r : UInt8} (h : Locked cfg s r) : isProtected cfg s r = true := by
  simp [Xcp.isProtected, h.1, h.2]

theorem apiDisconnect_resProt {cfg : Cfg} (s : St) (h : cfg.resourceProtection = true) :
    (apiDisconnect cfg s).resProt = defaultProt cfg := by
  unfold apiDisconnect defaultResourceProtection
  rw [if_pos h]
  split <;> rfl
theorem apiDisconnect_seedReq {cfg : Cfg} (s : St) (h : cfg.resourceProtection = true) :
    (apiDisconnect cfg s).seedReq = 0 := by
  unfold apiDisconnect defaultResourceProtection
  rw [if_pos h]
  split <;> rfl
theorem apiDisconnect_daq {cfg : Cfg} (s : St) :
    (apiDisconnect cfg s).daq = if cfg.daq then daqInit s.daq else s.daq := by
  unfold apiDisconnect defaultResourceProtection
  repeat' split
  all_goals rfl

/-- What UNLOCK can do. -/
theorem unlock_cases {cfg : Cfg} (hrp : cfg.resourceProtection = true) (env : Env) {s : St} (p : Pdu) :
    Post (unlockRes cfg env s p) (fun t =>
      (t.resProt = s.resProt ∧ t.seedReq = s.seedReq ∧ t.daq = s.daq ∧ (s.pgm = .active ∨ s.seedReq = 0)) ∨
      (∃ len : UInt8, p.buf[1]? = some len ∧ env.unlock s.seedReq (p.buf.drop 2) len.toNat = true ∧ s.pgm ≠ .active ∧
        s.seedReq ≠ 0 ∧ t.resProt = s.resProt &&& ~~~s.seedReq ∧ t.seedReq = 0 ∧ t.daq = s.daq) ∨
      (t.resProt = defaultProt cfg ∧ t.seedReq = 0 ∧ t.daq = (if cfg.daq then daqInit s.daq else s.daq) ∧ s.pgm ≠ .active)) := by
  unfold unlockRes
  apply Post.bindAny
  intro len hlen
  have hb : p.buf[1]? = some len := by
    unfold Pdu.byte at hlen
    split at hlen
    · cases hlen; assumption
    · cases hlen
  apply Post.assertPgmIdle
  · intro h; exact Or.inl ⟨rfl, rfl, rfl, Or.inl h⟩
  · intro hpg
    apply Post.ite
    · intro h; exact Post.ok (Or.inl ⟨rfl, rfl, rfl, Or.inr h⟩)
    · intro h
      apply Post.ite
      · intro hu; exact Post.ok (Or.inr (Or.inl ⟨len, hb, hu, hpg, h, rfl, rfl, rfl⟩))
      · intro _
        refine Post.ok (Or.inr (Or.inr ⟨apiDisconnect_resProt _ hrp, rfl, ?_, hpg⟩))
        exact apiDisconnect_daq _

/-- A protected resource stays protected as long as no key for it is accepted. -/
theorem step_locked {cfg : Cfg} {r : UInt8} (hd : defaultProt cfg &&& r = r) {env : Env} (hk : NoKey r env)
    {s : St} (h : Locked cfg s r) (op : Op) : Post (step cfg env s op) (fun t => Locked cfg t r) := by
  obtain ⟨hrp, h⟩ := h
  refine Post.mono (P := fun t => t.resProt &&& r = r) ?_ (fun t ht => ⟨hrp, ht⟩)
  cases op with
  | cmd p =>
    apply Post.cmd
    · intro t h1 _; rw [h1.resProt]; exact h
    · intro _ t _ h1 _; rw [h1.resProt]; exact h
    · intro c _
      by_cases hu : c = .unlock
      · subst hu
        refine (unlock_cases hrp env p).mono ?_
        rintro t (⟨h1, -⟩ | ⟨len, -, h1, -, -, h2, -⟩ | ⟨h1, -⟩)
        · rw [h1]; simpa using h
        · rw [h2]
          simp only [bumpReceived_resProt, bumpReceived_seedReq] at *
          apply u8_keep h
          apply Decidable.byContradiction
          intro hne
          rw [hk _ _ _ hne] at h1
          cases h1
        · rw [h1]; exact hd
      · by_cases hc : c = .disconnect
        · subst hc
          show Post (disconnectRes _ _) _
          unfold disconnectRes
          post
          · simpa using h
          · rw [apiDisconnect_resProt _ hrp]; exact hd
        · refine (handler_resProt env p c hu hc).mono ?_
          intro t ht; rw [ht]; simpa using h
  | main => exact (main_eff env).mono (fun t ht => by rw [ht.resProt]; exact h)
  | trigger ev =>
    unfold step
    apply Post.ite
    · intro _; exact (trigger_eff env _).mono (fun t ht => by rw [ht.resProt]; exact h)
    · intro _; exact Post.ok h
  | eventPkt code data => exact special_eff.mono (fun t ht => by rw [ht.same.resProt]; exact h)
  | servPkt code data => exact special_eff.mono (fun t ht => by rw [ht.same.resProt]; exact h)
  | appWrite a b => exact Post.ok h
  | apiDisconnect => exact Post.ok (by rw [apiDisconnect_resProt _ hrp]; exact hd)

theorem init_locked {cfg : Cfg} {r : UInt8} (hrp : cfg.resourceProtection = true) (hd : defaultProt cfg &&& r = r)
    (mem : Mem) : Locked cfg (St.init cfg mem) r := ⟨hrp, by simpa [St.init, hrp] using hd⟩

theorem default_daq {cfg : Cfg} (h : cfg.protDaq = true) : defaultProt cfg &&& RES_DAQ = RES_DAQ := by
  unfold defaultProt
  rw [h]
  generalize (cfg.protCal || cfg.protPag) = a
  cases a <;> cases cfg.protStim <;> cases cfg.protPgm <;> decide

theorem default_pgm {cfg : Cfg} (h : cfg.protPgm = true) : defaultProt cfg &&& RES_PGM = RES_PGM := by
  unfold defaultProt
  rw [h]
  generalize (cfg.protCal || cfg.protPag) = a
  cases a <;> cases cfg.protStim <;> cases cfg.protDaq <;> decide

/-- Induction over a history from start-up, with a property of its elements. -/
theorem run_induction' {cfg : Cfg} {I : St → Prop} {H : Env × Op → Prop}
    (hstep : ∀ x s s', H x → I s → step cfg x.1 s x.2 = .ok s' → I s')
    {s s' : St} {h : List (Env × Op)} (hh : ∀ x ∈ h, H x) (hs : I s) (hr : run cfg s h = .ok s') : I s' := by
  induction h generalizing s with
  | nil => cases hr; exact hs
  | cons x rest ih =>
    obtain ⟨s1, h1, h2⟩ := run_cons_ok hr
    exact ih (fun y hy => hh y (List.mem_cons_of_mem _ hy)) (hstep x s s1 (hh x List.mem_cons_self) hs h1) h2

end Xcp
