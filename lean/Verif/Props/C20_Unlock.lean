import Verif.Proofs.Refuse
import Verif.Model.Example
/-
C20: protection is lifted only by an accepted key.
-/
set_option autoImplicit false
namespace Xcp
open Spec

/-- Resource `r` is protected: GET_SEED and UNLOCK are compiled in and the mask has the bit. -/
def Spec.Protected (cfg : Cfg) (s : St) (r : UInt8) : Prop := cfg.resourceProtection = true ∧ s.resProt &&& r = r

/-- One of the four resources. -/
def Spec.isResource (r : UInt8) : Prop := r = 0x01 ∨ r = 0x04 ∨ r = 0x08 ∨ r = 0x10

/-- An executed UNLOCK or DISCONNECT, or a disconnect by the application: operations after
which the seeds requested before do not count any more. -/
def Spec.endsSeed (cfg : Cfg) (s : St) (op : Op) : Prop :=
  op = .apiDisconnect ∨
  ∃ p, op = .cmd p ∧ (executes cfg s p .unlock ∨ executes cfg s p .disconnect) ∧ s.pgm ≠ .active

/-- No operation of the history, run from `s`, ends the validity of requested seeds. -/
def Spec.keepsSeed (cfg : Cfg) : St → List (Env × Op) → Prop
  | _, [] => True
  | s, x :: h => ¬ endsSeed cfg s x.2 ∧ ∀ s1, step cfg x.1 s x.2 = .ok s1 → keepsSeed cfg s1 h

/-- A GET_SEED for `r` that is executed. -/
def Spec.asksSeed (cfg : Cfg) (s : St) (op : Op) (r : UInt8) : Prop :=
  ∃ p, op = .cmd p ∧ executes cfg s p .getSeed ∧ p.buf[2]? = some r

/-- What GET_SEED does to the set of requested seeds. -/
theorem getSeed_cases {cfg : Cfg} (env : Env) {s : St} (p : Pdu) :
    Post (getSeedRes cfg env s p) (fun t => t.seedReq = s.seedReq ∨
      ∃ r, p.buf[2]? = some r ∧ isResource r ∧ t.seedReq = s.seedReq ||| r) := by
  unfold getSeedRes
  apply Post.bindAny
  intro _ _
  apply Post.bindAny
  intro r hr
  have hb : p.buf[2]? = some r := by
    unfold Pdu.byte at hr
    split at hr
    · cases hr; assumption
    · cases hr
  have hres : ¬ (¬ seedResourceOk cfg r) → isResource r := by
    intro h
    have h : seedResourceOk cfg r = true := Decidable.of_not_not h
    simp only [seedResourceOk, Bool.or_eq_true, Bool.and_eq_true, beq_iff_eq] at h
    unfold isResource
    rcases h with ((⟨rfl, -⟩ | ⟨rfl, -⟩) | ⟨rfl, -⟩) | ⟨rfl, -⟩
    · exact Or.inr (Or.inr (Or.inr rfl))
    · exact Or.inr (Or.inr (Or.inl rfl))
    · exact Or.inr (Or.inl rfl)
    · exact Or.inl rfl
  post
  · exact Or.inl rfl
  · exact Or.inl rfl
  · exact Or.inr ⟨r, hb, hres (by assumption), rfl⟩
  · exact Or.inr ⟨r, hb, hres (by assumption), rfl⟩

theorem resource_disjoint {q r : UInt8} (hq : isResource q) (hr : isResource r) (hne : q &&& r ≠ 0) : q = r := by
  unfold isResource at hq hr
  rcases hq with rfl | rfl | rfl | rfl <;> rcases hr with rfl | rfl | rfl | rfl <;> first | rfl | (exfalso; exact hne (by decide))

theorem or_and_ne {a b r : UInt8} (h : (a ||| b) &&& r ≠ 0) : a &&& r ≠ 0 ∨ b &&& r ≠ 0 := by
  apply Decidable.byContradiction
  intro hn
  simp only [not_or, Decidable.not_not] at hn
  apply h
  rw [UInt8.and_comm, u8_and_or, UInt8.and_comm r a, UInt8.and_comm r b, hn.1, hn.2]
  decide

/-- One operation and the requested seeds. -/
theorem step_seed {cfg : Cfg} (hrp : cfg.resourceProtection = true) {r : UInt8} (hres : isResource r) (env : Env) {s : St} (op : Op) :
    Post (step cfg env s op) (fun t => t.seedReq &&& r ≠ 0 →
      (s.seedReq &&& r ≠ 0 ∧ ¬ endsSeed cfg s op) ∨ asksSeed cfg s op r) := by
  cases op with
  | cmd p =>
    have hkeep : ∀ {c}, (executes cfg s p c → c ≠ .unlock ∧ c ≠ .disconnect ∨ s.pgm = .active) →
        (∀ d, executes cfg s p d → d = c) → ¬ endsSeed cfg s (.cmd p) := by
      rintro c h1 h2 (h | ⟨q, hq, h | h, hp⟩)
      · cases h
      · cases hq
        have := h2 _ h
        subst this
        rcases h1 h with h3 | h3
        · exact h3.1 rfl
        · exact hp h3
      · cases hq
        have := h2 _ h
        subst this
        rcases h1 h with h3 | h3
        · exact h3.2 rfl
        · exact hp h3
    by_cases hex : ∃ c, executes cfg s p c
    · obtain ⟨c, hx⟩ := hex
      have huniq : ∀ d, executes cfg s p d → d = c := fun d hd => (hx.unique hd.2.2.1).symm
      rw [executes_step env hx]
      by_cases h1 : c = .unlock
      · subst h1
        refine (unlock_cases hrp env p).mono ?_
        rintro t (⟨-, h3, -, h4⟩ | ⟨_, -, -, -, -, -, h3, -⟩ | ⟨-, h3, -⟩) hne
        · left
          refine ⟨by rw [h3] at hne; simpa using hne, ?_⟩
          rcases h4 with h4 | h4
          · exact hkeep (fun _ => Or.inr (by simpa using h4)) huniq
          · rw [h3, h4] at hne; simp at hne
        · rw [h3] at hne; simp at hne
        · rw [h3] at hne; simp at hne
      · by_cases h2 : c = .disconnect
        · subst h2
          show Post (disconnectRes _ _) _
          unfold disconnectRes
          apply Post.assertPgmIdle
          · intro hpg hne
            exact Or.inl ⟨by simpa using hne, hkeep (fun _ => Or.inr (by simpa using hpg)) huniq⟩
          · intro _
            apply Post.ok
            intro hne
            rw [apiDisconnect_seedReq _ hrp] at hne
            simp at hne
        · have hk := hkeep (fun _ => Or.inl ⟨h1, h2⟩) huniq
          by_cases h3 : c = .getSeed
          · subst h3
            refine (getSeed_cases env p).mono ?_
            rintro t (h4 | ⟨q, h4, h5, h6⟩) hne
            · left; exact ⟨by rw [h4] at hne; simpa using hne, hk⟩
            · rw [h6] at hne
              rcases or_and_ne hne with h7 | h7
              · left; exact ⟨by simpa using h7, hk⟩
              · have := resource_disjoint h5 hres h7
                subst this
                exact Or.inr ⟨p, rfl, hx, h4⟩
          · refine (handler_seedReq env p c h1 h2 h3).mono ?_
            intro t ht hne
            left; exact ⟨by rw [ht] at hne; simpa using hne, hk⟩
    · apply Post.cmd
      · intro t h1 _ hne
        left
        refine ⟨by rw [h1.seedReq] at hne; exact hne, ?_⟩
        rintro (h | ⟨q, hq, h | h, -⟩)
        · cases h
        · cases hq; exact hex ⟨_, h⟩
        · cases hq; exact hex ⟨_, h⟩
      · intro _ t _ h1 _ hne
        left
        refine ⟨by rw [h1.seedReq] at hne; exact hne, ?_⟩
        rintro (h | ⟨q, hq, h | h, -⟩)
        · cases h
        · cases hq; exact hex ⟨_, h⟩
        · cases hq; exact hex ⟨_, h⟩
      · intro c hx; exact absurd ⟨c, hx⟩ hex
  | main =>
    refine (main_eff env).mono (fun t ht hne => Or.inl ⟨by rw [ht.seedReq] at hne; exact hne, ?_⟩)
    rintro (h | ⟨_, h, -⟩) <;> cases h
  | trigger ev =>
    have hk : ¬ endsSeed cfg s (.trigger ev) := by rintro (h | ⟨_, h, -⟩) <;> cases h
    unfold step
    apply Post.ite
    · intro _; exact (trigger_eff env _).mono (fun t ht hne => Or.inl ⟨by rw [ht.seedReq] at hne; exact hne, hk⟩)
    · intro _; exact Post.ok (fun hne => Or.inl ⟨hne, hk⟩)
  | eventPkt code data =>
    refine special_eff.mono (fun t ht hne => Or.inl ⟨by rw [ht.same.seedReq] at hne; exact hne, ?_⟩)
    rintro (h | ⟨_, h, -⟩) <;> cases h
  | servPkt code data =>
    refine special_eff.mono (fun t ht hne => Or.inl ⟨by rw [ht.same.seedReq] at hne; exact hne, ?_⟩)
    rintro (h | ⟨_, h, -⟩) <;> cases h
  | appWrite a b =>
    refine Post.ok (fun hne => Or.inl ⟨hne, ?_⟩)
    rintro (h | ⟨_, h, -⟩) <;> cases h
  | apiDisconnect =>
    refine Post.ok (fun hne => ?_)
    rw [apiDisconnect_seedReq _ hrp] at hne
    simp at hne

/-- A requested seed goes back to a GET_SEED with nothing in between that ends it. -/
theorem seed_origin {cfg : Cfg} (hrp : cfg.resourceProtection = true) {r : UInt8} (hres : isResource r)
    {h : List (Env × Op)} {s0 s : St} (hr : run cfg s0 h = .ok s) (hne : s.seedReq &&& r ≠ 0) :
    (s0.seedReq &&& r ≠ 0 ∧ keepsSeed cfg s0 h) ∨
    ∃ h1 x h2 s1 s2, h = h1 ++ x :: h2 ∧ run cfg s0 h1 = .ok s1 ∧ asksSeed cfg s1 x.2 r ∧
      step cfg x.1 s1 x.2 = .ok s2 ∧ keepsSeed cfg s2 h2 := by
  induction h generalizing s0 with
  | nil => cases hr; exact Or.inl ⟨hne, trivial⟩
  | cons x rest ih =>
    obtain ⟨s1, h1, h2⟩ := run_cons_ok hr
    rcases ih h2 with ⟨h3, h4⟩ | ⟨g1, y, g2, t1, t2, h3, h4, h5, h6, h7⟩
    · rcases step_seed hrp hres x.1 x.2 s1 h1 h3 with ⟨h5, h6⟩ | h5
      · refine Or.inl ⟨h5, h6, ?_⟩
        intro s1' h1'
        rw [h1] at h1'
        cases h1'
        exact h4
      · exact Or.inr ⟨[], x, rest, s0, s1, rfl, rfl, h5, h1, h4⟩
    · refine Or.inr ⟨x :: g1, y, g2, t1, t2, by rw [h3]; rfl, ?_, h5, h6, h7⟩
      obtain ⟨env, op⟩ := x
      simp only [run]
      rw [h1]
      exact h4

/-- The mask never has bits outside the configured protection. -/
theorem step_subBits {cfg : Cfg} (hrp : cfg.resourceProtection = true) (env : Env) {s : St} (h : subBits s.resProt (defaultProt cfg)) (op : Op) :
    Post (step cfg env s op) (fun t => subBits t.resProt (defaultProt cfg)) := by
  have hdd : subBits (defaultProt cfg) (defaultProt cfg) := by unfold subBits; simp
  cases op with
  | cmd p =>
    apply Post.cmd
    · intro t h1 _; rw [h1.resProt]; exact h
    · intro _ t _ h1 _; rw [h1.resProt]; exact h
    · intro c _
      by_cases hu : c = .unlock
      · subst hu
        refine (unlock_cases hrp env p).mono ?_
        rintro t (⟨h1, -⟩ | ⟨_, -, -, -, -, h2, -⟩ | ⟨h1, -⟩)
        · rw [h1]; simpa using h
        · rw [h2]; exact subBits.clear _ (by simpa using h)
        · rw [h1]; exact hdd
      · by_cases hc : c = .disconnect
        · subst hc
          show Post (disconnectRes _ _) _
          unfold disconnectRes
          post
          · simpa using h
          · rw [apiDisconnect_resProt _ hrp]; exact hdd
        · refine (handler_resProt env p c hu hc).mono ?_
          intro t ht; rw [ht]; simpa using h
  | main => exact (main_eff env).mono (fun t ht => by rw [ht.resProt]; exact h)
  | trigger ev =>
    unfold step
    apply Post.ite
    · intro _; exact (trigger_eff env _).mono (fun t ht => by rw [ht.resProt]; exact h)
    · intro _; exact Post.ok h
  | eventPkt code data => exact special_eff.mono (fun t ht => by rw [ht.same.resProt]; exact h)
  | servPkt code data => exact special_eff.mono (fun t ht => by rw [ht.same.resProt]; exact h)
  | appWrite a b => exact Post.ok h
  | apiDisconnect => exact Post.ok (by rw [apiDisconnect_resProt _ hrp]; exact hdd)

theorem run_subBits {cfg : Cfg} (hrp : cfg.resourceProtection = true) {mem : Mem} {h : List (Env × Op)} {s : St}
    (hr : run cfg (St.init cfg mem) h = .ok s) : subBits s.resProt (defaultProt cfg) :=
  run_induction (I := fun s => subBits s.resProt (defaultProt cfg))
    (fun env op _ s' hs h' => step_subBits hrp env hs op s' h')
    (by simp [St.init, hrp, subBits]) hr

theorem default_covers {m d r : UInt8} (h1 : m &&& r = r) (h2 : subBits m d) : d &&& r = r := by
  unfold subBits at h2
  rw [← h1, ← UInt8.and_assoc, UInt8.and_comm d m, h2]

/-- C20: if a protected resource is unprotected after an operation, then the operation is an
executed UNLOCK whose key the hook accepted for a set of resources that includes it, and
the resource had been named in an executed GET_SEED after which no UNLOCK or disconnect
came. -/
theorem C20_unlock_only {cfg : Cfg} {mem : Mem} {h : List (Env × Op)} {s s' : St} {env : Env} {op : Op} {r : UInt8}
    (hres : isResource r) (hr : run cfg (St.init cfg mem) h = .ok s) (h' : step cfg env s op = .ok s')
    (hp : Protected cfg s r) (hu : ¬ Protected cfg s' r) :
    (∃ p len, op = .cmd p ∧ executes cfg s p .unlock ∧ p.buf[1]? = some len ∧
      ∃ m, m &&& r ≠ 0 ∧ env.unlock m (p.buf.drop 2) len.toNat = true) ∧
    ∃ h1 x h2 s1 s2, h = h1 ++ x :: h2 ∧ run cfg (St.init cfg mem) h1 = .ok s1 ∧ asksSeed cfg s1 x.2 r ∧
      step cfg x.1 s1 x.2 = .ok s2 ∧ keepsSeed cfg s2 h2 := by
  obtain ⟨hrp, hp⟩ := hp
  replace hu : ¬ s'.resProt &&& r = r := fun hh => hu ⟨hrp, hh⟩
  have hd := default_covers hp (run_subBits hrp hr)
  have key : (∃ p len, op = .cmd p ∧ executes cfg s p .unlock ∧ p.buf[1]? = some len ∧
      env.unlock s.seedReq (p.buf.drop 2) len.toNat = true) ∧ s.seedReq &&& r ≠ 0 := by
    revert h' hu s'
    suffices Post (step cfg env s op) (fun t => ¬ t.resProt &&& r = r → (∃ p len, op = .cmd p ∧
      executes cfg s p .unlock ∧ p.buf[1]? = some len ∧
      env.unlock s.seedReq (p.buf.drop 2) len.toNat = true) ∧ s.seedReq &&& r ≠ 0) from fun {s'} h1 h2 => this s' h1 h2
    cases op with
    | cmd p =>
      apply Post.cmd
      · intro t h1 _ hn; rw [h1.resProt] at hn; exact absurd hp hn
      · intro _ t _ h1 _ hn; rw [h1.resProt] at hn; exact absurd hp hn
      · intro c hx
        by_cases hcu : c = .unlock
        · subst hcu
          refine (unlock_cases hrp env p).mono ?_
          rintro t (⟨h1, -⟩ | ⟨len, h0, h1, -, -, h2, -⟩ | ⟨h1, -⟩) hn
          · rw [h1] at hn; exact absurd (by simpa using hp) hn
          · refine ⟨⟨p, len, rfl, hx, h0, by simpa using h1⟩, ?_⟩
            intro h0
            rw [h2] at hn
            exact hn (u8_keep (by simpa using hp) (by simpa using h0))
          · rw [h1] at hn; exact absurd hd hn
        · by_cases hc : c = .disconnect
          · subst hc
            show Post (disconnectRes _ _) _
            unfold disconnectRes
            apply Post.assertPgmIdle
            · intro _ hn; exact absurd (by simpa using hp) hn
            · intro _
              apply Post.ok
              intro hn; rw [apiDisconnect_resProt _ hrp] at hn; exact absurd hd hn
          · refine (handler_resProt env p c hcu hc).mono ?_
            intro t ht hn; rw [ht] at hn; exact absurd (by simpa using hp) hn
    | main => exact (main_eff env).mono (fun t ht hn => by rw [ht.resProt] at hn; exact absurd hp hn)
    | trigger ev =>
      unfold step
      apply Post.ite
      · intro _; exact (trigger_eff env _).mono (fun t ht hn => by rw [ht.resProt] at hn; exact absurd hp hn)
      · intro _; exact Post.ok (fun hn => absurd hp hn)
    | eventPkt code data => exact special_eff.mono (fun t ht hn => by rw [ht.same.resProt] at hn; exact absurd hp hn)
    | servPkt code data => exact special_eff.mono (fun t ht hn => by rw [ht.same.resProt] at hn; exact absurd hp hn)
    | appWrite a b => exact Post.ok (fun hn => absurd hp hn)
    | apiDisconnect => exact Post.ok (fun hn => by rw [apiDisconnect_resProt _ hrp] at hn; exact absurd hd hn)
  obtain ⟨⟨p, len, h1, h2, h3, h4⟩, h5⟩ := key
  refine ⟨⟨p, len, h1, h2, h3, _, h5, h4⟩, ?_⟩
  rcases seed_origin hrp hres hr h5 with ⟨h6, -⟩ | h6
  · simp [St.init] at h6
  · exact h6

/-- C20: UNLOCK without a preceding GET_SEED is answered ERR_SEQUENCE and changes nothing. -/
theorem C20_unlock_sequence {cfg : Cfg} (hs : ShortOk cfg) {mem : Mem} {h : List (Env × Op)} {s : St}
    (hr : run cfg (St.init cfg mem) h = .ok s) (hrp : cfg.resourceProtection = true)
    (hno : ∀ r, isResource r → ¬ ∃ h1 x h2 s1 s2, h = h1 ++ x :: h2 ∧ run cfg (St.init cfg mem) h1 = .ok s1 ∧
      asksSeed cfg s1 x.2 r ∧ step cfg x.1 s1 x.2 = .ok s2 ∧ keepsSeed cfg s2 h2)
    (env : Env) {p : Pdu} {len : UInt8} (hx : executes cfg s p .unlock) (hpg : s.pgm ≠ .active) (hl : p.buf[1]? = some len) :
    ∃ s', step cfg env s (.cmd p) = .ok s' ∧ Refused cfg s s' 0x29 := by
  have hz : ∀ r, isResource r → s.seedReq &&& r = 0 := by
    intro r hres
    apply Decidable.byContradiction
    intro hne
    rcases seed_origin hrp hres hr hne with ⟨h6, -⟩ | h6
    · simp [St.init] at h6
    · exact hno r hres h6
  have hbits : subBits s.seedReq 0x1D := by
    refine run_induction (I := fun s => subBits s.seedReq 0x1D) ?_ (by simp [St.init, subBits]) hr
    intro env op s s' hI h'
    revert h'
    suffices Post (step cfg env s op) (fun t => subBits t.seedReq 0x1D) from fun h' => this s' h'
    have hz0 : subBits 0 0x1D := by unfold subBits; decide
    cases op with
    | cmd p =>
      apply Post.cmd
      · intro t h1 _; rw [h1.seedReq]; exact hI
      · intro _ t _ h1 _; rw [h1.seedReq]; exact hI
      · intro c _
        by_cases h1 : c = .unlock
        · subst h1
          refine (unlock_cases hrp env p).mono ?_
          rintro t (⟨-, h1, -⟩ | ⟨_, -, -, -, -, -, h1, -⟩ | ⟨-, h1, -⟩)
          · rw [h1]; simpa using hI
          · rw [h1]; exact hz0
          · rw [h1]; exact hz0
        · by_cases h2 : c = .disconnect
          · subst h2
            show Post (disconnectRes _ _) _
            unfold disconnectRes
            post
            · simpa using hI
            · rw [apiDisconnect_seedReq _ hrp]; exact hz0
          · by_cases h3 : c = .getSeed
            · subst h3
              refine (getSeed_cases env p).mono ?_
              rintro t (h4 | ⟨q, -, h5, h6⟩)
              · rw [h4]; simpa using hI
              · rw [h6]
                have hq : subBits q 0x1D := by
                  unfold isResource at h5; unfold subBits
                  rcases h5 with rfl | rfl | rfl | rfl <;> decide
                unfold subBits at *
                rw [UInt8.and_comm, u8_and_or, UInt8.and_comm _ q, hq, UInt8.and_comm]
                simp only [bumpReceived_seedReq]
                rw [hI]
            · refine (handler_seedReq env p c h1 h2 h3).mono ?_
              intro t ht; rw [ht]; simpa using hI
    | main => exact (main_eff env).mono (fun t ht => by rw [ht.seedReq]; exact hI)
    | trigger ev =>
      unfold step
      apply Post.ite
      · intro _; exact (trigger_eff env _).mono (fun t ht => by rw [ht.seedReq]; exact hI)
      · intro _; exact Post.ok hI
    | eventPkt code data => exact special_eff.mono (fun t ht => by rw [ht.same.seedReq]; exact hI)
    | servPkt code data => exact special_eff.mono (fun t ht => by rw [ht.same.seedReq]; exact hI)
    | appWrite a b => exact Post.ok hI
    | apiDisconnect => exact Post.ok (by rw [apiDisconnect_seedReq _ hrp]; exact hz0)
  have h0 : s.seedReq = 0 := by
    have e : (0x1D : UInt8) = 0x01 ||| 0x04 ||| 0x08 ||| 0x10 := by decide
    unfold subBits at hbits
    rw [e, u8_and_or, u8_and_or, u8_and_or, hz 0x01 (Or.inl rfl), hz 0x04 (Or.inr (Or.inl rfl)),
      hz 0x08 (Or.inr (Or.inr (Or.inl rfl))), hz 0x10 (Or.inr (Or.inr (Or.inr rfl)))] at hbits
    rw [← hbits]; decide
  refine ⟨send8 cfg (bumpReceived cfg s) [0xFE, 0x29], ?_, Refused.of_bump (refused_send8 hs _ _)⟩
  rw [executes_step env hx]
  simp only [handler, unlockRes, byte_eq hl, ok_bind, assertPgmIdle, bumpReceived_pgm, bumpReceived_seedReq, h0, if_true]
  rw [if_neg hpg]
  rfl

/-- Seed and key for DAQ lift the DAQ protection (0x1D to 0x19); a second UNLOCK with the same
key but no new seed is refused with ERR_SEQUENCE. -/
example : Ex.frames Ex.sec [Ex.c [0xFF], Ex.c [0xF8, 0, 4], Ex.c [0xF7, 4, 1, 2, 3, 4], Ex.c [0xFD],
      Ex.c [0xF7, 4, 1, 2, 3, 4]] =
    some [[8, 0, 0, 0, 0xFF, 0x15, 0x80, 64, 64, 0, 1, 1], [6, 0, 1, 0, 0xFF, 4, 1, 2, 3, 4], [2, 0, 2, 0, 0xFF, 0x19],
      [6, 0, 3, 0, 0xFF, 0, 0x19, 0, 0, 0], [2, 0, 4, 0, 0xFE, 0x29]] := by decide +kernel

/-- Requests add up: after GET_SEED for DAQ and for PGM one accepted key lifts both, although
the hook only ever saw one key. -/
example : Ex.obs Ex.sec [Ex.c [0xFF], Ex.c [0xF8, 0, 4], Ex.c [0xF8, 0, 0x10], Ex.c [0xF7, 4, 1, 2, 3, 4]]
      (fun s => s.resProt) = some 0x09 := by decide +kernel

end Xcp
