import Verif.Spec.Guarded
import Verif.Props.C86_Live
import Verif.Props.C18_LockedDaq
import Verif.Props.C19_LockedPgm
/-
C96: sessions of a slave with seed and key.
-/
set_option autoImplicit false
namespace Xcp
open Spec

/-- The resources that are protected in a build. -/
def Spec.protectedSet (cfg : Cfg) : UInt8 :=
  (if cfg.protCal || cfg.protPag then 1 else 0) + (if cfg.protDaq then 4 else 0) + (if cfg.protStim then 8 else 0) + (if cfg.protPgm then 16 else 0)

/-- Something that happens, as it reaches the slave: in one operation, or a whole measurement. -/
inductive Spec.Act where
  | one (a : Around) (d : Deal)
  | turn (x : Turn)

/-- The operation of the slave (not for measurements, which are many). -/
def Spec.Deal.op (len : Nat) (behind : List UInt8) : Deal → Op
  | .plain h => h.op len behind
  | .getSeed res _ => .cmd ⟨len, [0xF8, 0, res] ++ behind⟩
  | .unlock key _ => .cmd ⟨len, [0xF7, UInt8.ofNat key.length] ++ key ++ behind⟩
  | .disconnect => .cmd ⟨len, [0xFE] ++ behind⟩
  | .tries c params => .cmd ⟨len, [cmdCode c] ++ params ++ behind⟩
  | .measure _ _ => .main

def Spec.Act.ops : Act → List (Env × Op)
  | .one a d => [(a.env, d.op a.len a.behind)]
  | .turn x => x.ops

def Spec.Act.deal : Act → Deal
  | .one _ d => d
  | .turn x => .measure x.plan x.round.live

def Spec.Act.envs : Act → List Env
  | .one a _ => [a.env]
  | .turn x => x.envs

/-- The number of packets with samples. -/
def Spec.Act.amount : Act → Nat
  | .one _ _ => 0
  | .turn x => x.plan.amount (x.live.map (·.2))

/-- What a tool may do.  Outside of a session only CONNECT.  Legal requests (C79), and (because of deviations) parameters are changed
only when calibration is unlocked (C17), a seed is asked for only for a locked resource and when no seed for another one is
pending (`C96_fails_seeds`).  Seeds and keys fit in one packet, and are those of the application; commands of locked
resources are complete or stand in a buffer of eight bytes.  Measurements as in C86. -/
def Spec.Act.Admitted (cfg : Cfg) (k : About) (g : Guarded) : Act → Prop
  | .one _ (.plain (.request (.connect _))) => True
  | .one _ (.plain (.request q)) => g.opened = true ∧ Legal cfg g.remote q ∧ (q.calibrates = true → g.locked &&& 1 = 0)
  | .one _ (.plain _) => True
  | .one a (.getSeed res seed) => g.opened = true ∧ (k.has res = true → g.locked &&& res = res ∧ (g.asked = 0 ∨ g.asked = res) ∧
      0 < seed.length ∧ seed.length + 2 ≤ cfg.maxCto ∧ a.env.seed res = seed)
  | .one a (.unlock key ok) => g.opened = true ∧ key.length + 2 ≤ cfg.maxCto ∧
      (g.asked ≠ 0 → a.env.unlock g.asked (key ++ a.behind) key.length = ok)
  | .one _ .disconnect => g.opened = true
  | .one a (.tries c params) => g.opened = true ∧ cfg.supports c = true ∧
      (∃ b1 b2 b3 b4 b5 b6 b7 rest, params ++ a.behind = [b1, b2, b3, b4, b5, b6, b7] ++ rest ∧ (cfg.wrapv = true ∨ b7 < 128)) ∧
      (daqCode (cmdCode c) ∧ c ≠ .writeDaqMultiple ∧ c ≠ .readDaq ∧ g.locked &&& 4 = 4 ∨ c = .programStart ∧ g.locked &&& 16 = 16)
  | .one _ (.measure _ _) => False
  | .turn x => g.opened = true ∧ g.locked &&& 4 = 0 ∧ x.Fine cfg k g.remote ∧ x.rest = [] ∧
      ∀ y ∈ x.live, ∀ q, y.2 = .request q → q.calibrates = true → g.locked &&& 1 = 0

/-- A history in which the tool does what it may, and at most four packets with samples are sent in a session (C34, C83). -/
def Spec.AllAdmitted (cfg : Cfg) (k : About) : Guarded → Nat → List Act → Prop
  | _, _, [] => True
  | g, h, x :: xs => x.Admitted cfg k g ∧ h + x.amount ≤ 4 ∧
      AllAdmitted cfg k (g.after k (protectedSet cfg) x.deal) (if (g.after k (protectedSet cfg) x.deal).opened then h + x.amount else 0) xs

/-- The state of the slave corresponds to what the tool sees. -/
structure Guards (cfg : Cfg) (s : St) (g : Guarded) (h : Nat) : Prop where
  reach : ∃ mem hist, run cfg (St.init cfg mem) hist = .ok s
  mirrors : Mirrors cfg s.daq { s with connected := true } g.remote
  conn : g.opened = true → s.connected = true
  stopped : s.daq.running = false
  queue : Holds s.daq.queue [] h
  prot : s.resProt = g.locked
  seed : s.seedReq = g.asked
  fresh : g.opened = false → h = 0

theorem protectedSet_eq (cfg : Cfg) : defaultProt cfg = protectedSet cfg := by
  unfold defaultProt protectedSet RES_CAL_PAG RES_DAQ RES_STIM RES_PGM
  cases (cfg.protCal || cfg.protPag) <;> cases cfg.protDaq <;> cases cfg.protStim <;> cases cfg.protPgm <;> decide

theorem Guards.open_mirrors {cfg : Cfg} {s : St} {g : Guarded} {h : Nat} (hg : Guards cfg s g h) (ho : g.opened = true) :
    Mirrors cfg s.daq s g.remote := by
  have := hg.mirrors
  have e : { s with connected := true } = s := by rw [← hg.conn ho]
  rwa [e] at this

/-- Operations that do not concern the locks. -/
def Harmless (cfg : Cfg) : Op → Prop
  | .cmd p => ∀ c, code p = some (cmdCode c) → cfg.supports c = true → c ≠ .unlock ∧ c ≠ .disconnect ∧ c ≠ .getSeed
  | .apiDisconnect => False
  | _ => True

theorem harmless_step {cfg : Cfg} {env : Env} {s s' : St} {op : Op} (hh : Harmless cfg op) (h : step cfg env s op = .ok s') :
    s'.resProt = s.resProt ∧ s'.seedReq = s.seedReq := by
  revert s'
  suffices Post (step cfg env s op) (fun t => t.resProt = s.resProt ∧ t.seedReq = s.seedReq) from fun {s'} h => this s' h
  cases op with
  | cmd p =>
    apply Post.cmd
    · intro t h1 _; exact ⟨h1.resProt, h1.seedReq⟩
    · intro _ t _ h1 _; exact ⟨h1.resProt, h1.seedReq⟩
    · intro c hx
      obtain ⟨h1, h2, h3⟩ := hh c hx.2.2.1 hx.2.2.2
      refine Post.and ((handler_resProt env p c h1 h2).mono ?_) ((handler_seedReq env p c h1 h2 h3).mono ?_)
      · intro t ht; rw [ht]; simp
      · intro t ht; rw [ht]; simp
  | main => exact (main_eff env).mono (fun t ht => ⟨ht.resProt, ht.seedReq⟩)
  | trigger ev =>
    unfold step
    apply Post.ite
    · intro _; exact (trigger_eff env _).mono (fun t ht => ⟨ht.resProt, ht.seedReq⟩)
    · intro _; exact Post.ok ⟨rfl, rfl⟩
  | eventPkt code data => exact special_eff.mono (fun t ht => ⟨ht.same.resProt, ht.same.seedReq⟩)
  | servPkt code data => exact special_eff.mono (fun t ht => ⟨ht.same.resProt, ht.same.seedReq⟩)
  | appWrite a b => exact Post.ok ⟨rfl, rfl⟩
  | apiDisconnect => exact hh.elim

theorem harmless_run {cfg : Cfg} : ∀ {ops : List (Env × Op)} {s s' : St}, (∀ x ∈ ops, Harmless cfg x.2) → run cfg s ops = .ok s' →
    s'.resProt = s.resProt ∧ s'.seedReq = s.seedReq
  | [], s, s', _, h => by cases h; exact ⟨rfl, rfl⟩
  | (env, op) :: ops, s, s', hh, h => by
    obtain ⟨s1, h1, h2⟩ := run_cons_ok h
    obtain ⟨a, b⟩ := harmless_step (hh (env, op) (by simp)) h1
    obtain ⟨c, d⟩ := harmless_run (fun x hx => hh x (by simp [hx])) h2
    exact ⟨c.trans a, d.trans b⟩

theorem same_cmd_of_code {c d : Cmd} (h : cmdCode c = cmdCode d) : c = d := by
  have := table_code c
  rw [h, table_code d] at this
  exact (Option.some.inj this).symm

/-- Legal requests are harmless. -/
theorem harmless_op {cfg : Cfg} {r : Remote} {h : Happening} (hq : ∀ q, h = .request q → Legal cfg r q) (len : Nat) (b : List UInt8) :
    Harmless cfg (h.op len b) := by
  cases h with
  | request q =>
    intro c hc hs
    have hl := hq q rfl
    rw [remote_code] at hc
    have := same_cmd_of_code (Option.some.inj hc)
    subst this
    cases q with
    | other c => exact absurd (hs.symm.trans hl) (by simp)
    | _ => simp [Req.cmd]
  | write => trivial
  | main => trivial
  | event => trivial

theorem harmless_ops {cfg : Cfg} {k : About} : ∀ {hs : List (Around × Happening)} {r : Remote}, AllLegal cfg k r (hs.map (·.2)) →
    ∀ x ∈ ops hs, Harmless cfg x.2
  | [], _, _, x, hx => by simp [ops] at hx
  | (a, h) :: hs, r, hl, x, hx => by
    simp only [ops, List.map_cons, List.mem_cons] at hx
    rcases hx with rfl | hx
    · exact harmless_op hl.1 _ _
    · exact harmless_ops hl.2 x hx

theorem connect_any {cfg : Cfg} (env : Env) (s : St) (hb : s.busy = false) {p : Pdu} (hc : code p = some 0xFF) :
    step cfg env s (.cmd p) = step cfg env { s with connected := true } (.cmd p) := by
  have hon : cfg.supports .connect = true := supports_mandatory.1
  rw [step_cmd (s := { s with connected := true }) env rfl hb (c := .connect) hc rfl]
  cases hs : s.connected with
  | true =>
    rw [step_cmd env hs hb (c := .connect) hc rfl]
    have e : { s with connected := true } = s := by rw [← hs]
    rw [e]
  | false =>
    have hcode := byte_of_code hc
    simp only [step, dispatch, hcode, ok_bind, tableEntry, hon, hs]
    simp [handler, connectRes, bumpReceived]
    cases cfg.statistics <;> rfl

/-- A DAQ command with eight bytes does not fail while DAQ is locked. -/
theorem tries_ok {cfg : Cfg} (env : Env) {s : St} (hl : Locked cfg s RES_DAQ) (hpg : s.pgm ≠ .active) (hrun : s.daq.running = false)
    {c : Cmd} (hg : c.group = .daq) (h1 : c ≠ .writeDaqMultiple) (h2 : c ≠ .readDaq) {len : Nat} {b0 b1 b2 b3 b4 b5 b6 b7 : UInt8}
    {rest : List UInt8} (hm : cfg.motorola = false) (hw : cfg.wrapv = true ∨ b7 < 128) :
    ∃ t, handler cfg env s ⟨len, b0 :: b1 :: b2 :: b3 :: b4 :: b5 :: b6 :: b7 :: rest⟩ c = .ok t := by
  have hpr := hl.isProtected
  cases c <;> first | (simp [Cmd.group] at hg; done) | contradiction | skip
  all_goals unfold_handlers
  all_goals simp [Pdu.byte, Pdu.word, assertPgmIdle, assertDaqStopped, assertUnlocked, hpr, hpg, hrun]
  have hv : ¬ (32768 ≤ b7.toNat * 256 + b6.toNat ∧ cfg.wrapv = false) := by
    rintro ⟨h3, h4⟩
    rcases hw with hw | hw
    · rw [h4] at hw; cases hw
    · have := UInt8.lt_iff_toNat_lt.mp hw
      have := b6.toNat_lt
      simp at *
      omega
  simp [Pdu.dword, Pdu.word, Pdu.byte, hm, hv]

/-- After the end of a session. -/
theorem Guards.closed {cfg : Cfg} (hrp : cfg.resourceProtection = true) (hdaq : cfg.daq = true) {s t : St} {g : Guarded} {h : Nat}
    (hg : Guards cfg s g h) {bs : List UInt8} (hb : bs.length ≤ cfg.maxCto)
    (ht : t = { apiDisconnect cfg (send8 cfg (bumpReceived cfg s) bs) with seedReq := 0 })
    (hr : ∃ mem hist, run cfg (St.init cfg mem) hist = .ok t) : Guards cfg t (g.close (protectedSet cfg)) 0 := by
  have hm := hg.mirrors
  have e : apiDisconnect cfg (send8 cfg (bumpReceived cfg s) bs) = { send8 cfg (bumpReceived cfg s) bs with
      resProt := defaultProt cfg, seedReq := 0, daq := daqInit (bumpReceived cfg s).daq } := by
    simp [apiDisconnect, defaultResourceProtection, hrp, hdaq]
  rw [e] at ht
  subst ht
  refine ⟨hr, ⟨⟨rfl, ?_⟩, ?_, ?_, ?_, ?_, rfl, ?_, fun h => by simp [Guarded.close] at h⟩, fun h => by simp [Guarded.close] at h,
    (daqInit_idle _).1, holds_init, protectedSet_eq cfg, rfl, fun _ => rfl⟩
  · show (bumpReceived cfg s).busy = false
    simpa using hm.ready.idle
  · show (bumpReceived cfg s).pgm ≠ .active
    simpa using hm.pgm
  · exact send8_ctoOut_length (by simpa using hm.out) hb
  · show (bumpReceived cfg s).ck.state = .idle
    simpa using hm.ck
  · show (bumpReceived cfg s).slaveBlk.active = false
    simpa using hm.blk
  · show (bumpReceived cfg s).mem = g.remote.mem
    simpa using hm.mem

theorem says_one {cfg : Cfg} {s t : St} {bs : List UInt8} (h : Answers cfg s t bs) :
    ∃ fs, t.tx = s.tx ++ fs ∧ Says cfg fs [.answer bs] := by
  obtain ⟨f, h1, h2⟩ := h
  exact ⟨[f], h1, h2, trivial⟩

theorem run_one {cfg : Cfg} {env : Env} {s t : St} {op : Op} (h : step cfg env s op = .ok t) : run cfg s [(env, op)] = .ok t := by
  simp [run, h]

/-- The state after an answer that changes only the connection, the pending seed and the locks. -/
theorem Guards.kept {cfg : Cfg} {s t : St} {g g' : Guarded} {h : Nat} (hg : Guards cfg s g h) (ho : g'.opened = true)
    (hr : ∃ mem hist, run cfg (St.init cfg mem) hist = .ok t) (hm : Mirrors cfg s.daq t g'.remote) (hp : t.resProt = g'.locked)
    (hs : t.seedReq = g'.asked) : Guards cfg t g' h := by
  have e : { t with connected := true } = t := by rw [← hm.ready.conn]
  exact ⟨hr, by rw [e, hm.daq]; exact hm, fun _ => hm.ready.conn, by rw [hm.daq]; exact hg.stopped, by rw [hm.daq]; exact hg.queue, hp, hs,
    fun h => absurd (ho.symm.trans h) (by simp)⟩

theorem has_ok {k : About} {cfg : Cfg} {envs : List Env} (hc : cfg.Ok) (hd : Describes k cfg envs) (r : UInt8) : seedResourceOk cfg r = k.has r := by
  simp only [seedResourceOk, About.has, hd.cal, hd.daq, hd.pgm, hc.noPag, hc.noStim, RES_PGM, RES_DAQ, RES_CAL_PAG, Bool.or_false, Bool.and_false]
  cases (r == 16 && cfg.pgm) <;> cases (r == 4 && cfg.daq) <;> cases (r == 1 && cfg.cal) <;> rfl

theorem not_locked {cfg : Cfg} {s : St} {g : Guarded} {h : Nat} (hg : Guards cfg s g h) (h4 : g.locked &&& 4 = 0) : ¬ Locked cfg s RES_DAQ := by
  rintro ⟨-, h2⟩
  rw [hg.prot] at h2
  rw [show RES_DAQ = 4 from rfl, h4] at h2
  exact absurd h2 (by decide)

/-- One operation. -/
theorem deal_run {cfg : Cfg} (hp : Faithful cfg) (hrp : cfg.resourceProtection = true) (hdaq : cfg.daq = true) {k : About} {a : Around} {d : Deal}
    (hd : Describes k cfg [a.env]) {s : St} {g : Guarded} {h : Nat} (hg : Guards cfg s g h) (ha : (Act.one a d).Admitted cfg k g) :
    ∃ t fs, step cfg a.env s (d.op a.len a.behind) = .ok t ∧ t.tx = s.tx ++ fs ∧ Says cfg fs (g.says k (stampSize cfg) d) ∧
      Guards cfg t (g.after k (protectedSet cfg) d) (if (g.after k (protectedSet cfg) d).opened then h else 0) := by
  have h8 := hp.ok.cto_lo
  have h9 := hp.ok.cto_hi
  have he : a.env ∈ [a.env] := List.mem_singleton.mpr rfl
  have hon2 : cfg.on .getSeed = true ∧ cfg.on .unlock = true := by simpa [Cfg.resourceProtection] using hrp
  have hidle : s.busy = false := hg.mirrors.ready.idle
  -- operations that send nothing
  have quiet : ∀ (t : St) (r : Remote), step cfg a.env s (d.op a.len a.behind) = .ok t → t.tx = s.tx → t.connected = s.connected →
      t.daq = s.daq → t.resProt = s.resProt → t.seedReq = s.seedReq → Mirrors cfg s.daq { t with connected := true } r →
      ∃ t fs, step cfg a.env s (d.op a.len a.behind) = .ok t ∧ t.tx = s.tx ++ fs ∧ Says cfg fs [] ∧
        Guards cfg t { g with remote := r } (if g.opened then h else 0) := by
    intro t r h1 h2 h3 h4 h5 h6 h7
    refine ⟨t, [], h1, by simp [h2], trivial, reach_append hg.reach (run_one h1), ⟨h7.ready, h7.pgm, h7.out, h7.ck, h7.blk, rfl, h7.mem, h7.mta⟩, fun h => h3.trans (hg.conn h),
      by rw [h4]; exact hg.stopped, ?_, h5.trans hg.prot, h6.trans hg.seed, ?_⟩
    · rw [h4]
      cases ho : g.opened with
      | true => exact hg.queue
      | false => have := hg.fresh ho; subst this; exact hg.queue
    · intro (ho : g.opened = false); simp [ho]
  cases d with
  | plain hh =>
    cases hh with
    | request q =>
      by_cases hq : ∃ m, q = .connect m
      · obtain ⟨m, rfl⟩ := hq
        obtain ⟨t, h1, h2, h3⟩ := live_request hp hd he hg.mirrors (q := .connect m) a.len a.behind trivial (fun h => by cases h)
        rw [← connect_any a.env s hidle (remote_code (.connect m) a.len a.behind)] at h1
        obtain ⟨fs, h4, h5⟩ := says_one h2
        obtain ⟨k1, k2⟩ := harmless_step (harmless_op (r := g.remote) (h := .request (.connect m)) (fun q hq => by cases hq; trivial) a.len a.behind) h1
        refine ⟨t, fs, h1, h4, h5, ?_⟩
        have hnext : g.remote.next k (.connect m) = g.remote := by simp [Remote.next]
        rw [hnext] at h3
        exact hg.kept rfl (reach_append hg.reach (run_one h1)) h3 (k1.trans hg.prot) (k2.trans hg.seed)
      · have hadm : g.opened = true ∧ Legal cfg g.remote q ∧ (q.calibrates = true → g.locked &&& 1 = 0) := by
          cases q <;> first | exact ha | exact absurd ⟨_, rfl⟩ hq
        obtain ⟨ho, hl, -⟩ := hadm
        have hm := hg.open_mirrors ho
        have haft : g.after k (protectedSet cfg) (.plain (.request q)) = { g with remote := g.remote.next k q } := by
          cases q <;> first | rfl | exact absurd ⟨_, rfl⟩ hq
        by_cases hst : q = .getStatus
        · subst hst
          have h1 := hm.ready.stepc (cfg := cfg) a.env .getStatus (remote_code .getStatus a.len a.behind) supports_mandatory.2.1
          have h2 : step cfg a.env s (.cmd ⟨a.len, Req.getStatus.bytes ++ a.behind⟩) =
              .ok (send8 cfg (bumpReceived cfg s) [0xFF, 0, g.locked, 0, 0, 0]) := by
            rw [h1]
            simp [handler, getStatusRes, hrp, hg.prot]
          obtain ⟨fs, h4, h5⟩ := says_one (send8_answers (s := bumpReceived cfg s) (s0 := s) (bs := [0xFF, 0, g.locked, 0, 0, 0]) hp.short (by simp) (by simp))
          refine ⟨_, fs, h2, h4, h5, ?_⟩
          have hnext : g.remote.next k .getStatus = g.remote := by simp [Remote.next]
          rw [haft, hnext]
          show Guards cfg _ _ (if g.opened then h else 0)
          rw [if_pos ho]
          refine hg.kept ho (reach_append hg.reach (run_one h2)) (hm.bump.send8 (by simp; omega)) ?_ ?_
          · show (bumpReceived cfg s).resProt = _
            simpa using hg.prot
          · show (bumpReceived cfg s).seedReq = _
            simpa using hg.seed
        · obtain ⟨t, h1, h2, h3⟩ := live_request hp hd he hm (q := q) a.len a.behind hl (fun h => absurd h hst)
          obtain ⟨fs, h4, h5⟩ := says_one h2
          obtain ⟨k1, k2⟩ := harmless_step (harmless_op (r := g.remote) (h := .request q) (fun q' hq => by cases hq; exact hl) a.len a.behind) h1
          have hsay : g.says k (stampSize cfg) (.plain (.request q)) = [.answer (g.remote.answer k q)] := by
            cases q <;> first | rfl | exact absurd rfl hst
          refine ⟨t, fs, h1, h4, by rw [hsay]; exact h5, ?_⟩
          rw [haft]
          show Guards cfg _ _ (if g.opened then h else 0)
          rw [if_pos ho]
          exact hg.kept (g' := { g with remote := g.remote.next k q }) ho (reach_append hg.reach (run_one h1)) h3 (k1.trans hg.prot) (k2.trans hg.seed)
    | write x b =>
      have hm := hg.mirrors
      exact quiet { s with mem := s.mem.write x [b] } (g.remote.after k (.write x b)) rfl rfl rfl rfl rfl rfl
        ⟨⟨rfl, hm.ready.idle⟩, hm.pgm, hm.out, hm.ck, hm.blk, rfl, by
          have : s.mem = g.remote.mem := hm.mem
          simp only [this]; rfl, hm.mta⟩
    | main =>
      have hck : checksumMain cfg s = s := by
        have : s.ck.state = .idle := hg.mirrors.ck
        unfold checksumMain; rw [this]
      have hblk : s.slaveBlk.active = false := hg.mirrors.blk
      exact quiet s g.remote (by simp [Deal.op, Happening.op, step, mainFunction, mainUpload, uploadSingleBlock, hblk, mainChecksum, hck]) rfl rfl rfl rfl rfl hg.mirrors
    | event ev =>
      exact quiet s g.remote (by simp [Deal.op, Happening.op, step, triggerEvent, hg.stopped]) rfl rfl rfl rfl rfl hg.mirrors
  | getSeed res seed =>
    obtain ⟨ho, hx⟩ := ha
    have hm := hg.open_mirrors ho
    have hstep := hm.ready.stepc (cfg := cfg) a.env .getSeed (p := ⟨a.len, [0xF8, 0, res] ++ a.behind⟩) rfl (by simp [Cfg.supports, Cmd.group, hon2.1])
    simp only [handler, getSeedRes, byte_eq (p := ⟨a.len, [0xF8, 0, res] ++ a.behind⟩) (i := 1) (b := 0) rfl,
      byte_eq (p := ⟨a.len, [0xF8, 0, res] ++ a.behind⟩) (i := 2) (b := res) rfl, ok_bind, has_ok hp.ok hd] at hstep
    rw [assertPgmIdle_pass hm.bump.pgm] at hstep
    cases hh : k.has res with
    | false =>
      rw [hh, if_pos (by simp)] at hstep
      obtain ⟨fs, h4, h5⟩ := says_one (send8_answers (s := bumpReceived cfg s) (s0 := s) (bs := [0xFE, 0x22]) hp.short (by simp) (by simp))
      refine ⟨_, fs, hstep, h4, by simpa [Guarded.says, hh] using h5, ?_⟩
      have haft : g.after k (protectedSet cfg) (.getSeed res seed) = g := by simp [Guarded.after, hh]
      rw [haft]
      show Guards cfg _ _ (if g.opened then h else 0)
      rw [if_pos ho]
      refine hg.kept ho (reach_append hg.reach (run_one hstep)) (hm.bump.send8 (by simp; omega)) ?_ ?_
      · show (bumpReceived cfg s).resProt = _
        simpa using hg.prot
      · show (bumpReceived cfg s).seedReq = _
        simpa using hg.seed
    | true =>
      obtain ⟨x1, x2, x3, x4, x5⟩ := hx hh
      have hprot : isProtected cfg (bumpReceived cfg s) res = true := by simp [isProtected, hrp, hg.prot, x1]
      have hmin : min (cfg.maxCto - 2) (seed.length % 256) = seed.length := by
        rw [Nat.mod_eq_of_lt (by omega)]; omega
      rw [hh, if_neg (by simp), hprot, if_pos rfl] at hstep
      simp only [x5, hmin] at hstep
      rw [copyGuard_pos (by omega), sendBytes_ok (by simp; omega)] at hstep
      have hor : (bumpReceived cfg s).seedReq ||| res = res := by
        rw [show (bumpReceived cfg s).seedReq = g.asked by simpa using hg.seed]
        rcases x2 with h | h <;> rw [h] <;> simp
      rw [hor, List.take_length] at hstep
      have hb := hm.bump
      obtain ⟨fs, h4, h5⟩ := says_one (sendRaw_answers (cfg := cfg) (s := { bumpReceived cfg s with seedReq := res }) (s0 := s)
        (bs := 0xFF :: UInt8.ofNat seed.length :: seed) (by simp; omega) hb.out (by simp))
      refine ⟨_, fs, hstep, h4, by simpa [Guarded.says, hh] using h5, ?_⟩
      have haft : g.after k (protectedSet cfg) (.getSeed res seed) = { g with asked := res } := by simp [Guarded.after, hh]
      rw [haft]
      show Guards cfg _ _ (if g.opened then h else 0)
      rw [if_pos ho]
      refine hg.kept (g' := { g with asked := res }) ho (reach_append hg.reach (run_one hstep)) (Mirrors.sendRaw (s := { bumpReceived cfg s with seedReq := res })
        ⟨⟨hb.ready.conn, hb.ready.idle⟩, hb.pgm, hb.out, hb.ck, hb.blk, hb.daq, hb.mem, hb.mta⟩ (by simp; omega)) ?_ rfl
      show (bumpReceived cfg s).resProt = _
      simpa using hg.prot
  | unlock key ok =>
    obtain ⟨ho, x1, x2⟩ := ha
    have hm := hg.open_mirrors ho
    have hb := hm.bump
    have hlen : (UInt8.ofNat key.length).toNat = key.length := by simp; omega
    have hstep := hm.ready.stepc (cfg := cfg) a.env .unlock (p := ⟨a.len, [0xF7, UInt8.ofNat key.length] ++ key ++ a.behind⟩) rfl
      (by simp [Cfg.supports, Cmd.group, hon2.2])
    have hsd : (bumpReceived cfg s).seedReq = g.asked := by simpa using hg.seed
    have hpr : (bumpReceived cfg s).resProt = g.locked := by simpa using hg.prot
    simp only [handler, unlockRes, byte_eq (p := ⟨a.len, [0xF7, UInt8.ofNat key.length] ++ key ++ a.behind⟩) (i := 1) (b := UInt8.ofNat key.length) rfl,
      ok_bind, hlen, hsd] at hstep
    rw [assertPgmIdle_pass hb.pgm, show List.drop 2 ([0xF7, UInt8.ofNat key.length] ++ key ++ a.behind) = key ++ a.behind from rfl] at hstep
    by_cases h0 : g.asked = 0
    · rw [if_pos h0] at hstep
      obtain ⟨fs, h4, h5⟩ := says_one (send8_answers (s := bumpReceived cfg s) (s0 := s) (bs := [0xFE, 0x29]) hp.short (by simp) (by simp))
      refine ⟨_, fs, hstep, h4, by simpa [Guarded.says, h0] using h5, ?_⟩
      have haft : g.after k (protectedSet cfg) (.unlock key ok) = g := by simp [Guarded.after, h0]
      rw [haft]
      show Guards cfg _ _ (if g.opened then h else 0)
      rw [if_pos ho]
      exact hg.kept ho (reach_append hg.reach (run_one hstep)) (hb.send8 (by simp; omega)) hpr hsd
    · rw [if_neg h0, x2 h0] at hstep
      cases ok with
      | true =>
        rw [if_pos rfl] at hstep
        simp only [hpr] at hstep
        obtain ⟨fs, h4, h5⟩ := says_one (send8_answers (s := { bumpReceived cfg s with resProt := g.locked &&& ~~~g.asked }) (s0 := s)
          (bs := [0xFF, g.locked &&& ~~~g.asked]) hp.short (by simp) (by simp))
        refine ⟨_, fs, hstep, h4, by simpa [Guarded.says, h0] using h5, ?_⟩
        have haft : g.after k (protectedSet cfg) (.unlock key true) = { g with locked := g.locked &&& ~~~g.asked, asked := 0 } := by
          simp [Guarded.after, h0]
        rw [haft]
        show Guards cfg _ _ (if g.opened then h else 0)
        rw [if_pos ho]
        refine hg.kept (g' := { g with locked := g.locked &&& ~~~g.asked, asked := 0 }) ho (reach_append hg.reach (run_one hstep)) ?_ rfl rfl
        have hmm : Mirrors cfg s.daq (Xcp.send8 cfg { bumpReceived cfg s with resProt := g.locked &&& ~~~g.asked } [0xFF, g.locked &&& ~~~g.asked]) g.remote :=
          Mirrors.send8 (s := { bumpReceived cfg s with resProt := g.locked &&& ~~~g.asked })
            ⟨⟨hb.ready.conn, hb.ready.idle⟩, hb.pgm, hb.out, hb.ck, hb.blk, hb.daq, hb.mem, hb.mta⟩ (by simp; omega)
        exact ⟨⟨hmm.ready.conn, hmm.ready.idle⟩, hmm.pgm, hmm.out, hmm.ck, hmm.blk, hmm.daq, hmm.mem, hmm.mta⟩
      | false =>
        rw [if_neg (by simp)] at hstep
        obtain ⟨fs, h4, h5⟩ := says_one (send8_answers (s := bumpReceived cfg s) (s0 := s) (bs := [0xFE, 0x25]) hp.short (by simp) (by simp))
        have htx : ∀ u : St, ({ apiDisconnect cfg u with seedReq := 0 } : St).tx = u.tx := by
          intro u
          simp [apiDisconnect, defaultResourceProtection, hrp, hdaq]
        refine ⟨_, fs, hstep, (htx _).trans h4, by simpa [Guarded.says, h0] using h5, ?_⟩
        have haft : g.after k (protectedSet cfg) (.unlock key false) = g.close (protectedSet cfg) := by simp [Guarded.after, h0]
        rw [haft]
        exact hg.closed hrp hdaq (bs := [0xFE, 0x25]) (by simp; omega) rfl (reach_append hg.reach (run_one hstep))
  | disconnect =>
    have ho : g.opened = true := ha
    have hm := hg.open_mirrors ho
    have hstep := hm.ready.stepc (cfg := cfg) a.env .disconnect (p := ⟨a.len, [0xFE] ++ a.behind⟩) rfl (by simp [Cfg.supports, Cmd.group, Cmd.mandatory])
    simp only [handler, disconnectRes] at hstep
    rw [assertPgmIdle_pass hm.bump.pgm] at hstep
    obtain ⟨fs, h4, h5⟩ := says_one (send8_answers (s := bumpReceived cfg s) (s0 := s) (bs := [0xFF]) hp.short (by simp) (by simp))
    have htx : ∀ u : St, (apiDisconnect cfg u).tx = u.tx := by
      intro u
      simp [apiDisconnect, defaultResourceProtection, hrp, hdaq]
    refine ⟨_, fs, hstep, (htx _).trans h4, h5, ?_⟩
    exact hg.closed hrp hdaq (bs := [0xFF]) (by simp; omega) (by simp [apiDisconnect, defaultResourceProtection, hrp, hdaq, positive])
      (reach_append hg.reach (run_one hstep))
  | tries c params =>
    obtain ⟨ho, x1, ⟨b1, b2, b3, b4, b5, b6, b7, rest, x2, x3⟩, x4⟩ := ha
    have hm := hg.open_mirrors ho
    have hx : executes cfg s ⟨a.len, [cmdCode c] ++ params ++ a.behind⟩ c := ⟨hm.ready.conn, hm.ready.idle, rfl, x1⟩
    have key : ∃ t, step cfg a.env s (.cmd ⟨a.len, [cmdCode c] ++ params ++ a.behind⟩) = .ok t ∧ Refused cfg s t 0x25 := by
      rcases x4 with ⟨y1, y2, y3, y4⟩ | ⟨rfl, y4⟩
      · have hl : Locked cfg s RES_DAQ := ⟨hrp, by rw [hg.prot]; exact y4⟩
        have hlb : Locked cfg (bumpReceived cfg s) RES_DAQ := by simpa [Locked] using hl
        obtain ⟨t, ht⟩ := tries_ok (len := a.len) (b0 := cmdCode c) (b1 := b1) (b2 := b2) (b3 := b3) (b4 := b4) (b5 := b5) (b6 := b6) (rest := rest)
          a.env hlb hm.bump.pgm (by simpa using hg.stopped) (group_of_daqCode y1) y2 y3 hp.intel x3
        have hstep : step cfg a.env s (.cmd ⟨a.len, [cmdCode c] ++ params ++ a.behind⟩) = .ok t := by
          rw [executes_step a.env hx, ← ht, List.append_assoc, x2]
          rfl
        exact ⟨t, hstep, C18_access_locked hp.short a.env hl hm.pgm hg.stopped hx y1 y2 y3 hstep⟩
      · exact C19_start_refused hp.short a.env ⟨hrp, by rw [hg.prot]; exact y4⟩ hx
    obtain ⟨t, h1, h2, h3⟩ := key
    obtain ⟨fs, h4, h5⟩ := says_one h2
    refine ⟨t, fs, h1, h4, h5, ?_⟩
    show Guards cfg t g (if g.opened then h else 0)
    rw [if_pos ho]
    have hreach := reach_append hg.reach (run_one h1)
    have hout : t.ctoOut.length = cfg.maxCto := by
      obtain ⟨mem, hist, hr⟩ := hreach
      exact (run_tx hp.ok hr).out_len
    exact hg.kept ho hreach ⟨⟨h3.connected.trans hm.ready.conn, h3.busy.trans hm.ready.idle⟩, by rw [h3.pgm]; exact hm.pgm, hout, by rw [h3.ck]; exact hm.ck, by rw [h3.slaveBlk]; exact hm.blk,
      h3.daq, h3.mem.trans hm.mem, fun hk => h3.mta.trans (hm.mta hk)⟩ (h3.resProt.trans hg.prot) (h3.seedReq.trans hg.seed)
  | measure p live => exact ha.elim

/-- One measurement. -/
theorem guarded_turn {cfg : Cfg} (hp : Faithful cfg) (ho : OffersDaq cfg) (hdaq : cfg.daq = true) {k : About} {x : Turn}
    (hd : Describes k cfg x.envs) {s : St} {g : Guarded} {h : Nat} (hg : Guards cfg s g h) (ha : (Act.turn x).Admitted cfg k g)
    (hcnt : h + x.plan.amount (x.live.map (·.2)) ≤ 4) :
    ∃ t fs, run cfg s x.ops = .ok t ∧ t.tx = s.tx ++ fs ∧ Says cfg fs (g.says k (stampSize cfg) (.measure x.plan x.round.live)) ∧
      Guards cfg t (g.after k (protectedSet cfg) (.measure x.plan x.round.live)) (h + x.plan.amount (x.live.map (·.2))) := by
  obtain ⟨hop, h4, hx, hrest, -⟩ := ha
  have hm := hg.open_mirrors hop
  have hlk := not_locked hg h4
  have hfresh : Fresh cfg s h := by
    obtain ⟨mem, hist, hr⟩ := hg.reach
    exact ⟨⟨hm.ready, hm.pgm, hlk⟩, hg.stopped,
      daq_invariant (I := fun d => d.allocState ≠ .idle) not_idle_op hr (init_not_idle cfg mem), hg.queue⟩
  obtain ⟨t1, ⟨a1, f1, a2, a3⟩, a4, a5⟩ := setup_runs hp.ok hp.short ho hx.suits hfresh (ps := x.setup) (by rw [hp.intel]; exact hx.setup)
  have hreach1 := reach_append hg.reach a1
  have hout : t1.ctoOut.length = cfg.maxCto := by
    obtain ⟨mem, hist, hr⟩ := hreach1
    exact (run_tx hp.ok hr).out_len
  have hm1 : Mirrors cfg t1.daq t1 g.remote :=
    ⟨⟨a5.connected.trans hm.ready.conn, a5.busy.trans hm.ready.idle⟩, by rw [a5.pgm]; exact hm.pgm, hout, by rw [a5.ck]; exact hm.ck, by rw [a5.slaveBlk]; exact hm.blk, rfl,
      a5.mem.trans hm.mem, fun hk => a5.mta.trans (hm.mta hk)⟩
  obtain ⟨t2, f2, b1, b2, b3, b4, b5⟩ := live_run hp hdaq hx.suits x.live (describes_left hd) hm1 a4 hx.legal hx.events hcnt
  obtain ⟨p2, q2⟩ := harmless_run (harmless_ops hx.legal) b1
  have hlk2 : ¬ Locked cfg t2 RES_DAQ := by
    unfold Locked at hlk ⊢
    rw [p2, a5.resProt]; exact hlk
  obtain ⟨t3, c1, ⟨f3, c2, c3⟩, c4, c5, c6⟩ := stop_one hp ho b4 hlk2 hx.stop
  obtain ⟨p3, q3⟩ := harmless_step (op := .cmd x.stop.2) (by
    intro c hc _
    have h0 : code x.stop.2 = some (cmdCode .startStopSynch) := pre_get hx.stop rfl
    rw [h0] at hc
    have := same_cmd_of_code (Option.some.inj hc)
    subst this
    simp) c1
  have hrun : run cfg s x.ops = .ok t3 := by
    unfold Turn.ops
    rw [run_append, run_append, run_append, a1]
    simp only [ok_bind]
    rw [b1]
    simp only [ok_bind, run]
    rw [c1]
    simp [hrest, ops, run]
  have e : x.round.live.map (·.2) = x.live.map (·.2) := by simp [Turn.round]
  have ec : { t3 with connected := true } = t3 := by rw [← c4.ready.conn]
  refine ⟨t3, f1 ++ f2 ++ [f3], hrun, by rw [c2, b2, a2]; simp, ?_, reach_append hg.reach hrun, ?_, fun _ => c4.ready.conn, c5,
    by rw [c6]; exact b5.queue, ?_, ?_, fun h => absurd (hop.symm.trans h) (by simp)⟩
  · exact ((says_answers a3).append b3).append (b := [f3]) (y := [.answer [0xFF]]) ⟨c3, trivial⟩
  · rw [ec]
    simp only [Guarded.after, e]
    exact c4
  · rw [p3, p2, a5.resProt]; exact hg.prot
  · rw [q3, q2, a5.seedReq]; exact hg.seed

theorem guarded_run {cfg : Cfg} (hp : Faithful cfg) (hrp : cfg.resourceProtection = true) (ho : OffersDaq cfg) (hdaq : cfg.daq = true) {k : About} :
    ∀ (xs : List Act) {s : St} {g : Guarded} {h : Nat}, Describes k cfg (xs.flatMap Act.envs) → Guards cfg s g h → AllAdmitted cfg k g h xs →
    ∃ t fs, run cfg s (xs.flatMap Act.ops) = .ok t ∧ t.tx = s.tx ++ fs ∧
      Says cfg fs (g.saysAll k (stampSize cfg) (protectedSet cfg) (xs.map Act.deal)) ∧
      ∃ h', Guards cfg t (g.final k (protectedSet cfg) (xs.map Act.deal)) h'
  | [], s, g, h, _, hg, _ => ⟨s, [], rfl, by simp, trivial, h, hg⟩
  | x :: xs, s, g, h, hd, hg, ha => by
    rw [List.flatMap_cons] at hd
    obtain ⟨x1, x2, x3⟩ := ha
    have one : ∃ t fs, run cfg s x.ops = .ok t ∧ t.tx = s.tx ++ fs ∧ Says cfg fs (g.says k (stampSize cfg) x.deal) ∧
        Guards cfg t (g.after k (protectedSet cfg) x.deal) (if (g.after k (protectedSet cfg) x.deal).opened then h + x.amount else 0) := by
      cases x with
      | one a d =>
        obtain ⟨t, fs, h1, h2, h3, h4⟩ := deal_run hp hrp hdaq (describes_left hd) hg x1
        exact ⟨t, fs, run_one h1, h2, h3, h4⟩
      | turn x =>
        obtain ⟨t, fs, h1, h2, h3, h4⟩ := guarded_turn hp ho hdaq (describes_left hd) hg x1 x2
        refine ⟨t, fs, h1, h2, h3, ?_⟩
        have : (g.after k (protectedSet cfg) (Act.turn x).deal).opened = true := x1.1
        rw [if_pos this]
        exact h4
    obtain ⟨t, fs, h1, h2, h3, h4⟩ := one
    obtain ⟨u, gs, k1, k2, k3, k4⟩ := guarded_run hp hrp ho hdaq xs (describes_right hd) h4 x3
    refine ⟨u, fs ++ gs, ?_, by rw [k2, h2, List.append_assoc], h3.append k3, k4⟩
    rw [List.flatMap_cons, run_append, h1]
    exact k1

/-- C96, partial: start-up of a slave with seed and key, then any history of what a tool may do (`AllAdmitted`): sessions that are opened
and closed, seeds and keys, requests, commands of locked resources, measurements, writes by the application, main function calls
and events.  The slave never fails and says exactly what the guarded slave of the specification says: a resource is unlocked
by an accepted key for its seed and by nothing else, a wrong key closes the session, at the end of a session
everything is locked again.  Memory, locks and pending seed are those of the specification. -/
theorem C96_guarded_partial {cfg : Cfg} (hp : Faithful cfg) (hrp : cfg.resourceProtection = true) (ho : OffersDaq cfg) {k : About} {xs : List Act}
    (hd : Describes k cfg (xs.flatMap Act.envs)) {mem : Mem}
    (ha : AllAdmitted cfg k ⟨⟨mem, 0, 0, true⟩, false, protectedSet cfg, 0⟩ 0 xs) :
    ∃ s, run cfg (St.init cfg mem) (xs.flatMap Act.ops) = .ok s ∧
      Says cfg s.tx (Guarded.saysAll k (stampSize cfg) (protectedSet cfg) ⟨⟨mem, 0, 0, true⟩, false, protectedSet cfg, 0⟩ (xs.map Act.deal)) ∧
      s.mem = (Guarded.final k (protectedSet cfg) ⟨⟨mem, 0, 0, true⟩, false, protectedSet cfg, 0⟩ (xs.map Act.deal)).remote.mem ∧
      s.resProt = (Guarded.final k (protectedSet cfg) ⟨⟨mem, 0, 0, true⟩, false, protectedSet cfg, 0⟩ (xs.map Act.deal)).locked ∧
      s.seedReq = (Guarded.final k (protectedSet cfg) ⟨⟨mem, 0, 0, true⟩, false, protectedSet cfg, 0⟩ (xs.map Act.deal)).asked := by
  have hdaq : cfg.daq = true := by
    have := ho .freeDaq (by simp)
    simp [Cfg.supports, Cmd.group] at this
    exact this.1
  have hg : Guards cfg (St.init cfg mem) ⟨⟨mem, 0, 0, true⟩, false, protectedSet cfg, 0⟩ 0 :=
    ⟨⟨mem, [], rfl⟩, ⟨⟨rfl, rfl⟩, by simp [St.init], by simp [St.init], rfl, rfl, rfl, rfl, fun _ => rfl⟩, fun h => by simp at h, rfl, holds_init,
      by simp [St.init, hrp, protectedSet_eq], rfl, fun _ => rfl⟩
  obtain ⟨t, fs, h1, h2, h3, h', h4⟩ := guarded_run hp hrp ho hdaq xs hd hg ha
  refine ⟨t, h1, ?_, h4.mirrors.mem, h4.prot, h4.seed⟩
  rw [h2]
  exact h3

/-- C96 is false when seeds for two resources are pending: the key asked for last unlocks both.  Here calibration and DAQ, with one key. -/
theorem C96_fails_seeds :
    Ex.frames Ex.sec [Ex.c [0xFF], Ex.c [0xF8, 0, 1], Ex.c [0xF8, 0, 4], Ex.c [0xF7, 4, 1, 2, 3, 4]] =
      (Ex.frames Ex.sec [Ex.c [0xFF], Ex.c [0xF8, 0, 1], Ex.c [0xF8, 0, 4]]).map (· ++ [[2, 0, 3, 0, 0xFF, 0x18]]) := by decide +kernel

/-- The slave of the examples, with everything protected. -/
def Ex.secAbout : About :=
  { Ex.about with offers := Ex.sec.supports, masterBlock := true }

/-- The measurement of C86, without what follows it. -/
def Ex.secTurn : Turn := { Ex.turn with rest := [] }

def Ex.around : Around := ⟨Ex.env, 8, List.replicate 8 0⟩

/-- A tool tries to measure, unlocks measurement and calibration, measures and calibrates, closes the session; in the next one its key
is wrong. -/
def Ex.guarded : List Act :=
  [.one Ex.around (.plain (.request (.connect 0))), .one Ex.around (.plain (.request .getStatus)), .one Ex.around (.tries .freeDaq []),
   .one Ex.around (.getSeed 4 [1, 2, 3, 4]), .one Ex.around (.unlock [1, 2, 3, 4] true),
   .one Ex.around (.getSeed 1 [1, 2, 3, 4]), .one Ex.around (.unlock [1, 2, 3, 4] true), .turn Ex.secTurn,
   .one Ex.around .disconnect, .one Ex.around (.plain (.write 0x10 0x77)), .one Ex.around (.plain (.request (.connect 0))),
   .one Ex.around (.tries .programStart []), .one Ex.around (.getSeed 16 [1, 2, 3, 4]), .one Ex.around (.unlock [1, 2, 3] false),
   .one Ex.around (.plain (.request (.connect 0))), .one Ex.around (.unlock [1, 2, 3, 4] false), .one Ex.around (.plain (.request .getStatus))]

example : Faithful Ex.sec := ⟨by constructor <;> decide, Or.inl rfl, rfl, rfl, by decide, Or.inl rfl⟩

example : Ex.sec.resourceProtection = true ∧ OffersDaq Ex.sec ∧ protectedSet Ex.sec = 0x1D := ⟨by decide, by unfold OffersDaq; decide, by decide⟩

/-- What is said; 0x1D: calibration, measurement, stimulation and programming are locked. -/
example : Guarded.saysAll Ex.secAbout 4 0x1D ⟨⟨Ex.mem, 0, 0, true⟩, false, 0x1D, 0⟩ (Ex.guarded.map Act.deal) =
    [.answer [0xFF, 0x15, 0x80, 64, 64, 0, 1, 1], .answer [0xFF, 0, 0x1D, 0, 0, 0], .answer [0xFE, 0x25],
     .answer [0xFF, 4, 1, 2, 3, 4], .answer [0xFF, 0x19], .answer [0xFF, 4, 1, 2, 3, 4], .answer [0xFF, 0x18]] ++
    List.replicate 7 (.answer [0xFF]) ++ [.answer [0xFF, 0, 0, 0, 0, 0, 0, 0], .answer [0xFF]] ++
    [.sample [0, 0x10, 0x11], .answer [0xFF], .answer [0xFF], .sample [0, 0x10, 0xAA], .answer [0xFE, 0], .answer [0xFF]] ++
    [.answer [0xFF], .answer [0xFF, 0x15, 0x80, 64, 64, 0, 1, 1], .answer [0xFE, 0x25], .answer [0xFF, 4, 1, 2, 3, 4], .answer [0xFE, 0x25],
     .answer [0xFF, 0x15, 0x80, 64, 64, 0, 1, 1], .answer [0xFE, 0x29], .answer [0xFF, 0, 0x1D, 0, 0, 0]] := by decide +kernel

/-- The slave says the same. -/
example : Ex.obs Ex.sec (Ex.guarded.flatMap Act.ops) (fun s => (s.tx.map fun f => f.bytes.drop 4, s.resProt, s.seedReq, s.mem 0x10, s.mem 0x11)) =
    some ((Guarded.saysAll Ex.secAbout 4 0x1D ⟨⟨Ex.mem, 0, 0, true⟩, false, 0x1D, 0⟩ (Ex.guarded.map Act.deal)).map (fun
      | .answer b => b
      | .sample b => b), 0x1D, 0, 0x77, 0xAA) := by decide +kernel

/-- The tool may do all that. -/
example : AllAdmitted Ex.sec Ex.secAbout ⟨⟨Ex.mem, 0, 0, true⟩, false, protectedSet Ex.sec, 0⟩ 0 Ex.guarded := by
  have hf : ∀ r, Ex.secTurn.Fine Ex.sec Ex.secAbout r := fun r =>
    ⟨⟨by decide, by decide, by decide, by decide, by decide, by decide, by decide, by decide⟩,
      by
        have e : Ex.secTurn.plan.setup false = Ex.secTurn.setup.map (·.2.buf) := by decide +kernel
        rw [e]; simp [Ex.secTurn, Ex.turn, Begin], by decide,
      by
        have e : Ex.sec.supports .setMta = true := by decide
        simp [Ex.secTurn, Ex.turn, AllLegal, Legal, Remote.after, Remote.next, Ex.secAbout, Ex.about, Req.cmd, e]; decide,
      by simp [Ex.secTurn, Ex.turn],
      by simp [Ex.secTurn, AllLegal]⟩
  have e0 : protectedSet Ex.sec = 0x1D := by decide
  have hb : ∃ b1 b2 b3 b4 b5 b6 b7 rest, ([] : List UInt8) ++ Ex.around.behind = [b1, b2, b3, b4, b5, b6, b7] ++ rest ∧ (Ex.sec.wrapv = true ∨ b7 < 128) :=
    ⟨0, 0, 0, 0, 0, 0, 0, [0], rfl, Or.inr (by decide)⟩
  rw [e0]
  refine ⟨trivial, by decide, ⟨rfl, trivial, by decide⟩, by decide, ⟨rfl, by decide, hb, Or.inl ⟨by unfold daqCode; decide, by decide, by decide, by decide⟩⟩, by decide,
    ⟨rfl, fun _ => by decide⟩, by decide, ⟨rfl, by decide, by decide⟩, by decide, ⟨rfl, fun _ => by decide⟩, by decide, ⟨rfl, by decide, by decide⟩, by decide,
    ⟨rfl, by decide, hf _, rfl, fun _ _ _ _ _ => by decide⟩, by decide, rfl, by decide, trivial, by decide, trivial, by decide,
    ⟨rfl, by decide, hb, Or.inr ⟨rfl, by decide⟩⟩, by decide, ⟨rfl, fun _ => by decide⟩, by decide, ⟨rfl, by decide, by decide⟩, by decide,
    trivial, by decide, ⟨rfl, by decide, by decide⟩, by decide, ⟨rfl, trivial, by decide⟩, by decide, trivial⟩

end Xcp
