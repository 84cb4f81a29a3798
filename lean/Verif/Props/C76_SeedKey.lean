import Verif.Model.Hooks
import Verif.Props.C20_Unlock
import Verif.Proofs.TxHandlers
/-
C76: seed and key of the example application.
-/
set_option autoImplicit false
namespace Xcp
open Spec

/-- The key for a seed, as the master computes it. -/
def Spec.keyFor (seed key : List UInt8) : Prop :=
  ∃ s0 s1 s2 s3 : UInt8, seed = [s0, s1, s2, s3] ∧
    key = [(s0 + s3) ^^^ 0xBC, s1 ^^^ ((s0 + s3) ^^^ 0xBC), s2 ^^^ s1 ^^^ ((s0 + s3) ^^^ 0xBC), s3 ^^^ s2 ^^^ s1 ^^^ ((s0 + s3) ^^^ 0xBC)]

/-- A GET_SEED to be answered with a new seed: for a known resource that is still protected. -/
def Spec.givesSeed (cfg : Cfg) (s : St) (op : Op) : Prop :=
  ∃ p r, op = .cmd p ∧ executes cfg s p .getSeed ∧ s.pgm ≠ .active ∧ p.buf[2]? = some r ∧ seedResourceOk cfg r = true ∧ Protected cfg s r

/-- No operation of the history ends the validity of requested seeds or gives a newer one. -/
def Spec.SimKeeps (cfg : Cfg) : SimSt → List (Env × Op) → Prop
  | _, [] => True
  | x, o :: h => ¬ endsSeed cfg x.s o.2 ∧ ¬ givesSeed cfg x.s o.2 ∧ ∀ y, x.step cfg o.1 o.2 = .ok y → SimKeeps cfg y h

/-- During the history `h` from `x0` to its end a GET_SEED was answered with `seed`, and nothing that came later
ended its validity or gave a newer seed. -/
def Spec.SeedGiven (cfg : Cfg) (x0 : SimSt) (h : List (Env × Op)) (seed : List UInt8) : Prop :=
  ∃ h1 o h2 x1 x2, h = h1 ++ o :: h2 ∧ x0.run cfg h1 = .ok x1 ∧ x1.step cfg o.1 o.2 = .ok x2 ∧
    (∃ r, asksSeed cfg x1.s o.2 r) ∧ Answers cfg x1.s x2.s (0xFF :: 4 :: seed) ∧ SimKeeps cfg x2 h2

theorem simSeed_eq (ts : UInt32) :
    simSeed ts = [0, 0, UInt8.ofNat (ts.toNat / 256), UInt8.ofNat ts.toNat] := by
  unfold simSeed macHiWord macLoWord macHiByte macLoByte
  have e1 : (((ts &&& 0xFF00) >>> 8 &&& 0xFFFF0000) >>> 16).toUInt8 = 0 := by
    rw [← UInt8.toNat_inj]
    simp only [UInt32.toNat_toUInt8, UInt32.toNat_shiftRight, UInt32.toNat_and]
    have h1 : ts.toNat &&& 65280 ≤ 65280 := Nat.and_le_right
    have h2 : (ts.toNat &&& 65280) >>> 8 ≤ 255 := by rw [Nat.shiftRight_eq_div_pow]; omega
    have h3 : ((ts.toNat &&& 65280) >>> 8) &&& 4294901760 ≤ (ts.toNat &&& 65280) >>> 8 := Nat.and_le_left
    show ((((ts.toNat &&& 65280) >>> 8) &&& 4294901760) >>> 16) % 256 = 0
    rw [Nat.shiftRight_eq_div_pow]; omega
  have e2 : (((ts &&& 0xFF) &&& 0xFFFF0000) >>> 16).toUInt8 = 0 := by
    rw [← UInt8.toNat_inj]
    simp only [UInt32.toNat_toUInt8, UInt32.toNat_shiftRight, UInt32.toNat_and]
    have h1 : ts.toNat &&& 255 ≤ 255 := Nat.and_le_right
    have h3 : (ts.toNat &&& 255) &&& 4294901760 ≤ ts.toNat &&& 255 := Nat.and_le_left
    show (((ts.toNat &&& 255) &&& 4294901760) >>> 16) % 256 = 0
    rw [Nat.shiftRight_eq_div_pow]; omega
  have e3 : ((ts &&& 0xFF00) >>> 8 &&& 0xFFFF).toUInt8 = UInt8.ofNat (ts.toNat / 256) := by
    rw [← UInt8.toNat_inj]
    simp only [UInt32.toNat_toUInt8, UInt32.toNat_shiftRight, UInt32.toNat_and, UInt8.toNat_ofNat']
    show (((ts.toNat &&& 65280) >>> 8) &&& 65535) % 256 = _
    rw [show (65535 : Nat) = 2 ^ 16 - 1 from rfl, Nat.and_two_pow_sub_one_eq_mod, Nat.shiftRight_and_distrib,
      show (65280 : Nat) >>> 8 = 2 ^ 8 - 1 from rfl, Nat.and_two_pow_sub_one_eq_mod, Nat.shiftRight_eq_div_pow]
    omega
  have e4 : ((ts &&& 0xFF) &&& 0xFFFF).toUInt8 = UInt8.ofNat ts.toNat := by
    rw [← UInt8.toNat_inj]
    simp only [UInt32.toNat_toUInt8, UInt32.toNat_and, UInt8.toNat_ofNat']
    show ((ts.toNat &&& 255) &&& 65535) % 256 = _
    rw [show (65535 : Nat) = 2 ^ 16 - 1 from rfl, Nat.and_two_pow_sub_one_eq_mod, show (255 : Nat) = 2 ^ 8 - 1 from rfl,
      Nat.and_two_pow_sub_one_eq_mod]
    omega
  rw [e1, e2, e3, e4]

theorem simKey_keyFor (ts : UInt32) : keyFor (simSeed ts) (simKey (simSeed ts)) := by
  rw [simSeed_eq]
  refine ⟨_, _, _, _, rfl, ?_⟩
  simp only [simKey, List.getD, List.getElem?_cons_zero, List.getElem?_cons_succ, Option.getD_some, UInt8.xor_assoc]

theorem keyFor_unique {seed k k' : List UInt8} (h : keyFor seed k) (h' : keyFor seed k') : k = k' := by
  obtain ⟨a, b, c, d, h1, h2⟩ := h
  obtain ⟨a', b', c', d', h3, h4⟩ := h'
  rw [h1] at h3
  simp only [List.cons.injEq, and_true] at h3
  obtain ⟨rfl, rfl, rfl, rfl⟩ := h3
  rw [h2, h4]

theorem SimSt.run_cons_ok {cfg : Cfg} {x z : SimSt} {o : Env × Op} {h : List (Env × Op)} (hr : x.run cfg (o :: h) = .ok z) :
    ∃ y, x.step cfg o.1 o.2 = .ok y ∧ y.run cfg h = .ok z := by
  obtain ⟨env, op⟩ := o
  unfold SimSt.run at hr
  cases h1 : x.step cfg env op with
  | error e => rw [h1] at hr; cases hr
  | ok y => rw [h1] at hr; exact ⟨y, rfl, hr⟩

theorem SimSt.run_snoc {cfg : Cfg} {x y z : SimSt} {h : List (Env × Op)} {o : Env × Op} (hr : x.run cfg h = .ok y)
    (hs : y.step cfg o.1 o.2 = .ok z) : x.run cfg (h ++ [o]) = .ok z := by
  induction h generalizing x with
  | nil =>
    cases hr
    obtain ⟨env, op⟩ := o
    simp only [List.nil_append, SimSt.run]
    rw [hs]; rfl
  | cons a h ih =>
    obtain ⟨w, h1, h2⟩ := SimSt.run_cons_ok hr
    obtain ⟨env, op⟩ := a
    simp only [List.cons_append, SimSt.run]
    rw [h1]
    exact ih h2

/-- A property of histories holds if it holds at the start and is kept by every operation. -/
theorem SimSt.induct {cfg : Cfg} {x0 : SimSt} {P : List (Env × Op) → SimSt → Prop} (h0 : P [] x0)
    (hstep : ∀ h x o y, x0.run cfg h = .ok x → P h x → x.step cfg o.1 o.2 = .ok y → P (h ++ [o]) y)
    {h : List (Env × Op)} {x : SimSt} (hr : x0.run cfg h = .ok x) : P h x := by
  suffices ∀ (g h : List (Env × Op)) (w x : SimSt), x0.run cfg h = .ok w → P h w → w.run cfg g = .ok x → P (h ++ g) x from by
    simpa using this h [] x0 x rfl h0 hr
  intro g
  induction g with
  | nil => intro h w x _ hp hx; cases hx; simpa using hp
  | cons o g ih =>
    intro h w x hw hp hx
    obtain ⟨y, h1, h2⟩ := SimSt.run_cons_ok hx
    have := ih (h ++ [o]) y x (SimSt.run_snoc hw h1) (hstep h w o y hw hp h1) h2
    simpa using this

theorem SimSt.step_ok {cfg : Cfg} {env : Env} {x y : SimSt} {op : Op} (h : x.step cfg env op = .ok y) :
    Xcp.step cfg (simEnv env x.key) x.s op = .ok y.s ∧ y.key = if seedHookCalled cfg x.s op then simKey (simSeed env.timer) else x.key := by
  unfold SimSt.step at h
  cases hs : Xcp.step cfg (simEnv env x.key) x.s op with
  | error e => rw [hs] at h; cases h
  | ok s => rw [hs] at h; cases h; exact ⟨rfl, rfl⟩

/-- The slave part of a history of the example is a history of the slave. -/
theorem SimSt.run_slave {cfg : Cfg} {x y : SimSt} {h : List (Env × Op)} (hr : x.run cfg h = .ok y) :
    ∃ g : List (Env × Op), Xcp.run cfg x.s g = .ok y.s := by
  induction h generalizing x with
  | nil => cases hr; exact ⟨[], rfl⟩
  | cons o h ih =>
    obtain ⟨z, h1, h2⟩ := SimSt.run_cons_ok hr
    obtain ⟨g, hg⟩ := ih h2
    refine ⟨(simEnv o.1 x.key, o.2) :: g, ?_⟩
    simp only [Xcp.run]
    rw [(SimSt.step_ok h1).1]
    exact hg

theorem Spec.SimKeeps.snoc {cfg : Cfg} {x y : SimSt} {h : List (Env × Op)} {o : Env × Op} (hk : SimKeeps cfg x h)
    (hr : x.run cfg h = .ok y) (ho : ¬ endsSeed cfg y.s o.2) (hg : ¬ givesSeed cfg y.s o.2) : SimKeeps cfg x (h ++ [o]) := by
  induction h generalizing x with
  | nil => cases hr; exact ⟨ho, hg, fun _ _ => trivial⟩
  | cons a h ih =>
    obtain ⟨z, h1, h2⟩ := SimSt.run_cons_ok hr
    refine ⟨hk.1, hk.2.1, ?_⟩
    intro z' hz'
    rw [h1] at hz'
    cases hz'
    exact ih (hk.2.2 z h1) h2

theorem SimSt.run_suffix {cfg : Cfg} {x z : SimSt} {h g : List (Env × Op)} (hr : x.run cfg (h ++ g) = .ok z) :
    ∃ y, x.run cfg h = .ok y ∧ y.run cfg g = .ok z := by
  induction h generalizing x with
  | nil => exact ⟨x, rfl, hr⟩
  | cons a h ih =>
    obtain ⟨w, h1, h2⟩ := SimSt.run_cons_ok hr
    obtain ⟨y, h3, h4⟩ := ih h2
    refine ⟨y, ?_, h4⟩
    obtain ⟨env, op⟩ := a
    simp only [SimSt.run]
    rw [h1]
    exact h3

/-- Without UNLOCK and disconnect the protection mask stays. -/
theorem step_resProt {cfg : Cfg} (hrp : cfg.resourceProtection = true) (env : Env) {s : St} (op : Op) (hn : ¬ endsSeed cfg s op) :
    Post (step cfg env s op) (fun t => t.resProt = s.resProt) := by
  cases op with
  | cmd p =>
    apply Post.cmd
    · intro t h1 _; exact h1.resProt
    · intro _ t _ h1 _; exact h1.resProt
    · intro c hx
      by_cases hp : s.pgm = .active
      · by_cases hu : c = .unlock
        · subst hu
          refine (unlock_cases hrp env p).mono ?_
          rintro t (⟨h1, -⟩ | ⟨_, -, -, h1, -⟩ | ⟨-, -, -, h1⟩)
          · rw [h1]; simp
          · exact absurd (by simpa using hp) h1
          · exact absurd (by simpa using hp) h1
        · by_cases hc : c = .disconnect
          · subst hc
            show Post (disconnectRes _ _) _
            unfold disconnectRes
            apply Post.assertPgmIdle
            · intro _; simp
            · intro h; exact absurd (by simpa using hp) h
          · exact (handler_resProt env p c hu hc).mono (fun t ht => by rw [ht]; simp)
      · have hu : c ≠ .unlock := by
          rintro rfl; exact hn (Or.inr ⟨p, rfl, Or.inl hx, hp⟩)
        have hc : c ≠ .disconnect := by
          rintro rfl; exact hn (Or.inr ⟨p, rfl, Or.inr hx, hp⟩)
        exact (handler_resProt env p c hu hc).mono (fun t ht => by rw [ht]; simp)
  | main => exact (main_eff env).mono (fun t ht => ht.resProt)
  | trigger ev =>
    unfold step
    apply Post.ite
    · intro _; exact (trigger_eff env _).mono (fun t ht => ht.resProt)
    · intro _; exact Post.ok rfl
  | eventPkt code data => exact special_eff.mono (fun t ht => ht.same.resProt)
  | servPkt code data => exact special_eff.mono (fun t ht => ht.same.resProt)
  | appWrite a b => exact Post.ok rfl
  | apiDisconnect => exact absurd (Or.inl rfl) hn

/-- A GET_SEED for a protected resource that gets that far calls the hook and answers the seed. -/
theorem getSeed_hook {cfg : Cfg} (hc : cfg.Ok) (env : Env) {s : St} {p : Pdu} (ho : s.ctoOut.length = cfg.maxCto)
    (hx : executes cfg s p .getSeed) {r : UInt8} (hr : p.buf[2]? = some r) (hp : s.pgm ≠ .active) (hok : seedResourceOk cfg r = true)
    (hprot : isProtected cfg s r = true) (hl : (env.seed r).length = 4) :
    ∃ t, step cfg env s (.cmd p) = .ok t ∧ Answers cfg s t (0xFF :: 4 :: env.seed r) ∧ t.seedReq = s.seedReq ||| r ∧ t.resProt = s.resProt := by
  have h8 := hc.cto_lo
  obtain ⟨m, hm⟩ : ∃ m, p.buf[1]? = some m := by
    have := (List.getElem?_eq_some_iff.mp hr).1
    exact ⟨_, List.getElem?_eq_getElem (by omega)⟩
  have hmin : min (cfg.maxCto - 2) ((env.seed r).length % 256) = 4 := by rw [hl]; omega
  refine ⟨sendRaw cfg { bumpReceived cfg s with seedReq := (bumpReceived cfg s).seedReq ||| r } (0xFF :: 4 :: env.seed r), ?_, ?_, ?_, ?_⟩
  · rw [executes_step env hx]
    simp only [handler, getSeedRes, byte_eq hm, byte_eq hr, ok_bind, assertPgmIdle, bumpReceived_pgm]
    have hprot' : isProtected cfg (bumpReceived cfg s) r = true := by simpa [isProtected] using hprot
    rw [if_neg hp, if_neg (by simp [hok]), if_pos hprot', hmin]
    simp only [copyGuard]
    rw [if_neg (by simp)]
    unfold sendBytes
    rw [List.take_of_length_le (by omega), if_neg (by simp [hl]; omega)]
    rfl
  · refine sendRaw_answers (by simp [hl]; omega) ?_ ?_
    · show (bumpReceived cfg s).ctoOut.length = _
      rw [bumpReceived_ctoOut]; exact ho
    · show (bumpReceived cfg s).tx = s.tx
      simp
  · rw [(sendRaw_same ..).seedReq]; simp
  · rw [(sendRaw_same ..).resProt]; simp

theorem hook_called {cfg : Cfg} {s : St} {op : Op} (h : seedHookCalled cfg s op = true) :
    ∃ p r, op = .cmd p ∧ executes cfg s p .getSeed ∧ s.pgm ≠ .active ∧ p.buf[2]? = some r ∧ seedResourceOk cfg r = true ∧ isProtected cfg s r = true := by
  unfold seedHookCalled at h
  split at h
  · next p =>
    simp only [Bool.and_eq_true, Bool.not_eq_true', beq_iff_eq, bne_iff_ne, ne_eq] at h
    obtain ⟨⟨⟨⟨⟨h1, h2⟩, h3⟩, h4⟩, h5⟩, h6⟩ := h
    split at h6
    · next r hr =>
      simp only [Bool.and_eq_true] at h6
      exact ⟨p, r, rfl, ⟨h1, h2, h3, h4⟩, h5, hr, h6.1, h6.2⟩
    · cases h6
  · cases h

/-- What the hook answers matters only when it is called. -/
theorem hook_not_called {cfg : Cfg} {s : St} {op : Op} (h : seedHookCalled cfg s op = false) (env : Env) (f : UInt8 → List UInt8) :
    step cfg { env with seed := f } s op = step cfg env s op := by
  cases op with
  | cmd p =>
    by_cases hx : executes cfg s p .getSeed
    · rw [executes_step _ hx, executes_step _ hx]
      simp only [handler, getSeedRes]
      cases p.byte 1 with
      | error e => rfl
      | ok m =>
        cases hr : p.byte 2 with
        | error e => rfl
        | ok r =>
          have hb : p.buf[2]? = some r := by
            unfold Pdu.byte at hr
            split at hr
            · cases hr; assumption
            · cases hr
          simp only [ok_bind, assertPgmIdle, bumpReceived_pgm]
          by_cases hp : s.pgm = .active
          · rw [if_pos hp, if_pos hp]
          · rw [if_neg hp, if_neg hp]
            by_cases hok : seedResourceOk cfg r = true
            · have hnp : isProtected cfg s r = false := by
                cases hi : isProtected cfg s r
                · rfl
                · obtain ⟨h1, h2, h3, h4⟩ := hx
                  unfold code at h3
                  unfold seedHookCalled at h
                  simp [h1, h2, h4, hb, hok, hi, hp] at h
                  exact absurd h3 h
              have hprot' : ¬ isProtected cfg (bumpReceived cfg s) r = true := by
                have : isProtected cfg (bumpReceived cfg s) r = isProtected cfg s r := by simp [isProtected]
                rw [this, hnp]; simp
              simp only [hok, hprot', not_true_eq_false, Bool.false_eq_true, if_false]
            · rw [if_pos hok, if_pos hok]
    · simp only [step, dispatch]
      cases hb : p.byte 0 with
      | error e => rfl
      | ok c =>
        have hb0 : p.buf[0]? = some c := by
          unfold Pdu.byte at hb
          split at hb
          · cases hb; assumption
          · cases hb
        simp only [ok_bind]
        by_cases hcn : s.connected = true
        · rw [if_pos hcn, if_pos hcn]
          by_cases hbs : s.busy = true
          · rw [if_pos hbs, if_pos hbs]
          · rw [if_neg hbs, if_neg hbs]
            cases ht : cmdTable[0xFF - c.toNat]? with
            | none => rfl
            | some d =>
              simp only [tableEntry]
              by_cases hsup : cfg.supports d = true
              · rw [if_pos hsup, if_pos hsup]
                have hd : d ≠ .getSeed := by
                  rintro rfl
                  apply hx
                  refine ⟨hcn, by simpa using hbs, ?_, hsup⟩
                  show p.buf[0]? = _
                  rw [hb0]
                  by_cases hlo : c.toNat < 0xC7
                  · rw [table_lo hlo] at ht; cases ht
                  · obtain ⟨d, h1, h2⟩ := table_hi (b := c) (by omega)
                    rw [ht] at h1
                    cases h1
                    rw [h2]
                cases d <;> first | rfl | exact absurd rfl hd
              · rw [if_neg hsup, if_neg hsup]
        · rw [if_neg hcn, if_neg hcn]
  | main => rfl
  | trigger ev => rfl
  | eventPkt code data => rfl
  | servPkt code data => rfl
  | appWrite a b => rfl
  | apiDisconnect => rfl

/-- The key of the example belongs to a seed that was given and still counts, as soon as a seed for a protected
resource was requested. -/
theorem key_given {cfg : Cfg} (hc : cfg.Ok) (hrp : cfg.resourceProtection = true) {mem : Mem} {h : List (Env × Op)} {x : SimSt}
    (hr : (SimSt.init cfg mem).run cfg h = .ok x) {r : UInt8} (hres : isResource r) (hreq : x.s.seedReq &&& r ≠ 0)
    (hprot : Protected cfg x.s r) : ∃ seed, SeedGiven cfg (SimSt.init cfg mem) h seed ∧ keyFor seed x.key := by
  refine SimSt.induct (x0 := SimSt.init cfg mem)
    (P := fun h x => ∀ r, isResource r → x.s.seedReq &&& r ≠ 0 → Protected cfg x.s r →
      ∃ seed, SeedGiven cfg (SimSt.init cfg mem) h seed ∧ keyFor seed x.key) ?_ ?_ hr r hres hreq hprot
  · intro r _ h1 _
    simp [SimSt.init, St.init] at h1
  · intro h x o y hx ih hs r hres hreq hprot
    obtain ⟨h1, h2⟩ := SimSt.step_ok hs
    have htx : x.s.ctoOut.length = cfg.maxCto := by
      obtain ⟨g, hg⟩ := SimSt.run_slave hx
      exact (run_tx hc hg).out_len
    cases hk : seedHookCalled cfg x.s o.2 with
    | true =>
      rw [hk, if_pos rfl] at h2
      obtain ⟨p, q, h3, h4, h5, h6, h7, h8⟩ := hook_called hk
      obtain ⟨t, h9, h10, -, -⟩ := getSeed_hook hc (simEnv o.1 x.key) htx h4 h6 h5 h7 h8 rfl
      rw [h3, h9] at h1
      cases h1
      refine ⟨simSeed o.1.timer, ⟨h, o, [], x, y, rfl, hx, hs, ⟨q, p, h3, h4, h6⟩, h10, trivial⟩, ?_⟩
      rw [h2]
      exact simKey_keyFor _
    | false =>
      rw [hk, if_neg (by decide)] at h2
      by_cases hold : x.s.seedReq &&& r ≠ 0 ∧ ¬ endsSeed cfg x.s o.2
      · obtain ⟨h3, h4⟩ := hold
        have hrp' := step_resProt hrp (simEnv o.1 x.key) o.2 h4 y.s h1
        obtain ⟨seed, ⟨g1, a, g2, x1, x2, e1, e2, e3, e4, e5, e6⟩, h6⟩ := ih r hres h3 ⟨hrp, by rw [← hrp']; exact hprot.2⟩
        refine ⟨seed, ⟨g1, a, g2 ++ [o], x1, x2, by rw [e1]; simp, e2, e3, e4, e5, ?_⟩, by rw [h2]; exact h6⟩
        rw [e1] at hx
        obtain ⟨z, e7, e8⟩ := SimSt.run_suffix hx
        rw [e2] at e7
        cases e7
        obtain ⟨w, e9, e10⟩ := SimSt.run_cons_ok e8
        rw [e3] at e9
        cases e9
        refine e6.snoc e10 h4 ?_
        rintro ⟨p, q, f1, ⟨f2, f3, f4, f5⟩, f6, f7, f8, f9, f10⟩
        rw [f1] at hk
        have f4' : p.buf[0]? = some 0xF8 := f4
        simp [seedHookCalled, f2, f3, f4', f5, f6, f7, f8, isProtected, f9, f10] at hk
      · exfalso
        rcases step_seed hrp hres (simEnv o.1 x.key) o.2 y.s h1 hreq with h3 | ⟨p, h3, h4, h5⟩
        · exact hold h3
        have hne : ¬ endsSeed cfg x.s o.2 := by
          rintro (h | ⟨q, hq, h | h, -⟩)
          · rw [h3] at h; cases h
          · rw [h3] at hq; cases hq; have := h4.unique h.2.2.1; cases this
          · rw [h3] at hq; cases hq; have := h4.unique h.2.2.1; cases this
        have hz : x.s.seedReq &&& r = 0 := Decidable.of_not_not (fun h => hold ⟨h, hne⟩)
        have hrp' := step_resProt hrp (simEnv o.1 x.key) o.2 hne y.s h1
        have hpr : isProtected cfg x.s r = true := by
          simp only [isProtected, hrp, Bool.true_and, beq_iff_eq, ← hrp']; exact hprot.2
        rw [h3] at hk h1
        unfold seedHookCalled at hk
        obtain ⟨g1, g2, g3, g4⟩ := h4
        have g3' : p.buf[0]? = some 0xF8 := g3
        simp only [g1, g2, g3', g4, h5, hpr, Bool.and_true, Bool.true_and, Bool.not_false, beq_self_eq_true] at hk
        rw [executes_step _ ⟨g1, g2, g3, g4⟩] at h1
        obtain ⟨m, hm⟩ : ∃ m, p.buf[1]? = some m := by
          have := (List.getElem?_eq_some_iff.mp h5).1
          exact ⟨_, List.getElem?_eq_getElem (by omega)⟩
        simp only [handler, getSeedRes, byte_eq hm, byte_eq h5, ok_bind, assertPgmIdle, bumpReceived_pgm] at h1
        have hsr : y.s.seedReq = x.s.seedReq := by
          by_cases hp : x.s.pgm = .active
          · rw [if_pos hp] at h1
            simp only [Except.ok.injEq] at h1
            rw [← h1]
            simp
          · rw [if_neg hp] at h1
            have hok : ¬ seedResourceOk cfg r = true := by simpa [hp] using hk
            rw [if_pos hok] at h1
            simp only [Except.ok.injEq] at h1
            rw [← h1]
            simp
        rw [hsr] at hreq
        exact hreq hz

/-- C76: in every history of the example application, if a protected resource is unprotected after an operation,
then the operation is an UNLOCK whose first four key bytes are the key for the last seed given, and
since that seed was given there was no UNLOCK and no disconnect. -/
theorem C76_unlock_only {cfg : Cfg} (hc : cfg.Ok) {mem : Mem} {h : List (Env × Op)} {x y : SimSt} {env : Env} {op : Op} {r : UInt8}
    (hres : isResource r) (hr : (SimSt.init cfg mem).run cfg h = .ok x) (hs : x.step cfg env op = .ok y)
    (hp : Protected cfg x.s r) (hu : ¬ Protected cfg y.s r) :
    ∃ p seed, op = .cmd p ∧ executes cfg x.s p .unlock ∧ SeedGiven cfg (SimSt.init cfg mem) h seed ∧
      keyFor seed ((p.buf.drop 2).take 4) := by
  obtain ⟨g, hg⟩ := SimSt.run_slave hr
  obtain ⟨h1, -⟩ := SimSt.step_ok hs
  obtain ⟨⟨p, len, h2, h3, h4, m, h5, h6⟩, g1, o, g2, s1, s2, e1, e2, e3, e4, e5⟩ := C20_unlock_only hres hg h1 hp hu
  have hreq : x.s.seedReq &&& r ≠ 0 := by
    intro hz
    apply hu
    refine ⟨hp.1, ?_⟩
    rw [h2, executes_step _ h3] at h1
    rcases unlock_cases hp.1 (simEnv env x.key) p y.s h1 with ⟨h7, -⟩ | ⟨_, -, -, -, -, h7, -⟩ | ⟨h7, -⟩
    · rw [h7]; simpa using hp.2
    · rw [h7]; exact u8_keep (by simpa using hp.2) (by simpa using hz)
    · rw [h7]; exact default_covers hp.2 (run_subBits hp.1 hg)
  obtain ⟨seed, h7, h8⟩ := key_given hc hp.1 hr hres hreq hp
  refine ⟨p, seed, h2, h3, h7, ?_⟩
  have h9 : ((p.buf.drop 2).take 4 == x.key) = true := h6
  rw [beq_iff_eq] at h9
  rw [h9]
  exact h8

/-- The other direction: GET_SEED for a protected resource is answered with a seed of four bytes, and UNLOCK with the
key for it lifts the protection (and of what else was requested before).  Before the UNLOCK the
application may do what does not end the session, here nothing. -/
theorem C76_seed_then_key {cfg : Cfg} (hc : cfg.Ok) (hs : ShortOk cfg) {x : SimSt} (ho : x.s.ctoOut.length = cfg.maxCto) (e1 e2 : Env)
    {p q : Pdu} {r len : UInt8} (hx : executes cfg x.s p .getSeed) (hpg : x.s.pgm ≠ .active) (hr : p.buf[2]? = some r)
    (hok : seedResourceOk cfg r = true) (hprot : Protected cfg x.s r) (hz : r ≠ 0) (hq : code q = some 0xF7) (hql : q.buf[1]? = some len)
    (hsup : cfg.supports .unlock = true) :
    ∃ y seed, x.step cfg e1 (.cmd p) = .ok y ∧ Answers cfg x.s y.s (0xFF :: 4 :: seed) ∧
      ∀ key, keyFor seed key → (q.buf.drop 2).take 4 = key → Ready y.s → y.s.pgm ≠ .active →
        ∃ z mask, y.step cfg e2 (.cmd q) = .ok z ∧ Answers cfg y.s z.s [0xFF, mask] ∧ ¬ Protected cfg z.s r := by
  obtain ⟨hrp, hpr⟩ := hprot
  have hisp : isProtected cfg x.s r = true := by simp [isProtected, hrp, hpr]
  obtain ⟨t, h1, h2, h3, h4⟩ := getSeed_hook hc (simEnv e1 x.key) ho hx hr hpg hok hisp rfl
  have hhook : seedHookCalled cfg x.s (.cmd p) = true := by
    obtain ⟨g1, g2, g3, g4⟩ := hx
    have g3' : p.buf[0]? = some 0xF8 := g3
    simp [seedHookCalled, g1, g2, g3', g4, hr, hok, hisp, hpg]
  refine ⟨⟨t, simKey (simSeed e1.timer)⟩, simSeed e1.timer, ?_, h2, ?_⟩
  · unfold SimSt.step
    rw [h1, hhook]
    rfl
  · intro key hk he hrd hpg'
    have hkey : (q.buf.drop 2).take 4 = simKey (simSeed e1.timer) := by
      rw [he]; exact keyFor_unique hk (simKey_keyFor _)
    have hne : t.seedReq ≠ 0 := by
      rw [h3]
      intro h0
      apply hz
      rw [← UInt8.toNat_inj] at h0 ⊢
      rw [UInt8.toNat_or] at h0
      have : r.toNat ≤ x.s.seedReq.toNat ||| r.toNat := Nat.right_le_or
      have h00 : (0 : UInt8).toNat = 0 := rfl
      omega
    let b := bumpReceived cfg t
    have eb1 : b.pgm = t.pgm := by simp [b]
    have eb2 : b.seedReq = t.seedReq := by simp [b]
    have eb3 : b.tx = t.tx := by simp [b]
    refine ⟨⟨{ send8 cfg { b with resProt := b.resProt &&& ~~~b.seedReq } [0xFF, b.resProt &&& ~~~b.seedReq] with seedReq := 0 },
      simKey (simSeed e1.timer)⟩, b.resProt &&& ~~~b.seedReq, ?_, ?_, ?_⟩
    · have hnh : seedHookCalled cfg t (.cmd q) = false := by
        have : q.buf[0]? = some 0xF7 := hq
        simp [seedHookCalled, this]
      unfold SimSt.step
      have hst : step cfg (simEnv e2 (simKey (simSeed e1.timer))) t (.cmd q) =
          .ok { send8 cfg { b with resProt := b.resProt &&& ~~~b.seedReq } [0xFF, b.resProt &&& ~~~b.seedReq] with seedReq := 0 } := by
        rw [hrd.stepc _ .unlock hq hsup]
        show unlockRes cfg _ b q = _
        simp only [unlockRes, byte_eq hql, ok_bind, assertPgmIdle]
        have hacc : (simEnv e2 (simKey (simSeed e1.timer))).unlock b.seedReq (q.buf.drop 2) len.toNat = true := by
          show ((q.buf.drop 2).take 4 == _) = true
          rw [hkey, beq_self_eq_true]
        rw [if_neg (by rw [eb1]; exact hpg'), if_neg (by rw [eb2]; exact hne), if_pos hacc]
      rw [hst, hnh]
      rfl
    · obtain ⟨f, g1, g2⟩ := send8_answers (cfg := cfg) (s := { b with resProt := b.resProt &&& ~~~b.seedReq }) (s0 := t)
        (bs := [0xFF, b.resProt &&& ~~~b.seedReq]) hs (by simp) eb3
      exact ⟨f, g1, g2⟩
    · rintro ⟨-, h5⟩
      have h6 : (b.resProt &&& ~~~b.seedReq) &&& r = r := by
        have e5 : (send8 cfg { b with resProt := b.resProt &&& ~~~b.seedReq } [0xFF, b.resProt &&& ~~~b.seedReq]).resProt =
          b.resProt &&& ~~~b.seedReq := (send8_same ..).resProt
        exact (congrArg (· &&& r) e5.symm).trans h5
      rw [eb2, h3] at h6
      apply hz
      have : ∀ a c d : UInt8, (a &&& ~~~(c ||| d)) &&& d = 0 := by
        intro a c d
        rw [← UInt8.toBitVec_inj]
        simp only [UInt8.toBitVec_and, UInt8.toBitVec_not, UInt8.toBitVec_or]
        ext i hi
        simp only [BitVec.getElem_and, BitVec.getElem_not, BitVec.getElem_or]
        cases a.toBitVec[i] <;> cases c.toBitVec[i] <;> cases d.toBitVec[i] <;> simp
      rw [this] at h6
      exact h6.symm

/-- The seed is not four random bytes: the first two are always zero, the others are the low bytes of the timer. -/
theorem C76_seed_fails (ts : UInt32) : simSeed ts = [0, 0, UInt8.ofNat (ts.toNat / 256), UInt8.ofNat ts.toNat] := simSeed_eq ts

/-- So seeds repeat exactly when the timer agrees in 16 bits, and a key seen once opens the slave again. -/
theorem C76_replay_fails (t1 t2 : UInt32) : simSeed t1 = simSeed t2 ↔ t1.toNat % 65536 = t2.toNat % 65536 := by
  rw [simSeed_eq, simSeed_eq]
  simp only [List.cons.injEq, true_and, and_true, ← UInt8.toNat_inj, UInt8.toNat_ofNat']
  omega

/-- The length byte of UNLOCK plays no part: with length 0 the four bytes that follow are compared. -/
example (e : Env) (m : UInt8) (k : List UInt8) (key : List UInt8) : (simEnv e key).unlock m k 0 = (simEnv e key).unlock m k 4 := rfl

def Ex.simObs (h : List (UInt32 × List UInt8)) : Option (List (List UInt8)) :=
  match SimSt.run Ex.sec (SimSt.init Ex.sec Ex.mem) (h.map fun (ts, bs) => ({ Ex.env with timer := ts }, (Ex.c bs).2)) with
  | .ok x => some (x.s.tx.map Frame.bytes)
  | .error _ => none

/-- A session of the example: timer 0x12345678, seed 0 0 56 78, key C4 C4 92 EA.  The DAQ protection is lifted; the
same key again is refused (ERR_SEQUENCE). -/
example : Ex.simObs [(0, [0xFF]), (0x12345678, [0xF8, 0, 4]), (0, [0xF7, 4, 0xC4, 0xC4, 0x92, 0xEA]), (0, [0xF7, 4, 0xC4, 0xC4, 0x92, 0xEA])] =
    some [[8, 0, 0, 0, 0xFF, 0x15, 0x80, 64, 64, 0, 1, 1], [6, 0, 1, 0, 0xFF, 4, 0, 0, 0x56, 0x78], [2, 0, 2, 0, 0xFF, 0x19],
      [2, 0, 3, 0, 0xFE, 0x29]] := by decide +kernel

theorem checkMem_sim (cfg : Cfg) (env : Env) (key : List UInt8) (s : St) (m : Mta) (len : Nat) (a : Access) (pgm : Bool) (k : R) :
    checkMem cfg (simEnv env key) s m len a pgm k = k := by
  simp [checkMem, simEnv]

theorem handler_sim_open (cfg : Cfg) (env : Env) (key : List UInt8) (s : St) (p : Pdu) (c : Cmd) :
    handler cfg (simEnv env key) s p c = handler { cfg with memCheck := false } (simEnv env key) s p c := by
  obtain ⟨⟩ := cfg
  cases c <;> first
    | rfl
    | (simp only [handler, uploadRes, shortUploadRes, buildChecksumRes, downloadRes, shortDownloadRes, modifyBitsRes, programRes, checkMem_sim]; rfl)

theorem SimSt.step_open (cfg : Cfg) (env : Env) (x : SimSt) (op : Op) :
    x.step cfg env op = x.step { cfg with memCheck := false } env op := by
  have h : Xcp.step cfg (simEnv env x.key) x.s op = Xcp.step { cfg with memCheck := false } (simEnv env x.key) x.s op := by
    cases op with
    | cmd p =>
      have hh := handler_sim_open cfg env x.key
      simp only [Xcp.step, dispatch, tableEntry, hh]
      rfl
    | main => obtain ⟨⟩ := cfg; rfl
    | trigger ev => obtain ⟨⟩ := cfg; rfl
    | eventPkt c d => rfl
    | servPkt c d => rfl
    | appWrite a b => rfl
    | apiDisconnect => rfl
  simp only [SimSt.step, h]
  rfl

/-- C76: the memory access hook of the example denies nothing: every history is the one of a slave without
memory access checks. -/
theorem C76_memory_open (cfg : Cfg) (x : SimSt) (h : List (Env × Op)) :
    x.run cfg h = x.run { cfg with memCheck := false } h := by
  induction h generalizing x with
  | nil => rfl
  | cons o h ih =>
    obtain ⟨e, o⟩ := o
    simp only [SimSt.run, ← SimSt.step_open, ih]

/-- With the checks of memory accesses switched on, the example answers an UPLOAD from an address that does not belong to it, and
MODIFY_BITS changes it. -/
example : (SimSt.run { Ex.sim with memCheck := true, on := fun _ => true } (SimSt.init { Ex.sim with memCheck := true, on := fun _ => true } Ex.mem)
      [Ex.c [0xFF], Ex.c [0xF6, 0, 0, 0, 0xF0, 0xFF, 0xFF, 0x0F], Ex.c [0xF5, 1], Ex.c [0xEC, 0, 0xFF, 0xFF, 1, 0]]).toOption.map
      (fun x => (x.s.tx.drop 2).map fun f => f.bytes.drop 4) = some [[0xFF, Ex.mem 0x0FFFFFF0], [0xFF]] := by decide +kernel

end Xcp
