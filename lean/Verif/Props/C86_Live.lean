import Verif.Spec.Live
import Verif.Props.C83_Measurement
import Verif.Props.C22_Status
/-
C86: calibration while measuring.  Measurement and memory access do not disturb each other.
-/
set_option autoImplicit false
namespace Xcp
open Spec

/-- The frames say this, in order. -/
def Spec.Says (cfg : Cfg) : List Frame → List Said → Prop
  | [], [] => True
  | f :: fs, .answer bs :: xs => Carries cfg f bs ∧ Says cfg fs xs
  | f :: fs, .sample bs :: xs => (f.kind = .dto ∧ payload cfg f = bs) ∧ Says cfg fs xs
  | _, _ => False

theorem Spec.Says.append {cfg : Cfg} : ∀ {a b : List Frame} {x y : List Said}, Says cfg a x → Says cfg b y → Says cfg (a ++ b) (x ++ y)
  | [], _, [], _, _, h => h
  | [], _, _ :: _, _, h, _ => h.elim
  | _ :: _, _, [], _, h, _ => h.elim
  | _ :: _, _, .answer _ :: _, _, h, h' => ⟨h.1, Says.append h.2 h'⟩
  | _ :: _, _, .sample _ :: _, _, h, h' => ⟨h.1, Says.append h.2 h'⟩

theorem says_samples {cfg : Cfg} : ∀ {fs : List Frame} {ps : List (List UInt8)}, Dtos cfg fs ps → Says cfg fs (ps.map .sample)
  | [], [], _ => trivial
  | [], _ :: _, h => by simp [Dtos] at h
  | _ :: _, [], h => by simp [Dtos] at h
  | f :: fs, p :: ps, h => by
    obtain ⟨h1, h2⟩ := h
    simp only [List.map_cons, List.cons.injEq] at h2
    exact ⟨⟨h1 f (by simp), h2.1⟩, says_samples ⟨fun g hg => h1 g (by simp [hg]), h2.2⟩⟩

theorem says_answers {cfg : Cfg} : ∀ {fs : List Frame} {as : List (List UInt8)}, CarryAll cfg fs as → Says cfg fs (as.map .answer)
  | [], [], _ => trivial
  | [], _ :: _, h => h.elim
  | _ :: _, [], h => h.elim
  | _ :: _, _ :: _, h => ⟨h.1, says_answers h.2⟩

theorem Measuring.same {cfg : Cfg} {p : Plan} {s t : St} {h : Nat} (hm : Measuring cfg p s h) (hd : t.daq = s.daq) : Measuring cfg p t h :=
  ⟨by rw [hd]; exact hm.running, ⟨hm.armed.loaded.pool (by rw [hd]; exact .refl _), by rw [hd]; exact hm.armed.events, by
    rw [hd]; exact hm.armed.mode⟩, by rw [hd]; exact hm.queue⟩

theorem mirrors_trig {cfg : Cfg} {d : Daq} {s t : St} {r : Remote} (h : Mirrors cfg d s r) (he : TrigEff s t) : Mirrors cfg t.daq t r :=
  ⟨⟨he.connected.trans h.ready.conn, he.busy.trans h.ready.idle⟩, by rw [he.pgm]; exact h.pgm, by rw [he.ctoOut]; exact h.out,
    by rw [he.ck]; exact h.ck, by rw [he.slaveBlk]; exact h.blk, rfl, he.mem.trans h.mem, fun hk => he.mta.trans (h.mta hk)⟩

/-- One request while measuring. -/
theorem live_request {cfg : Cfg} (hp : Faithful cfg) {k : About} {envs : List Env} (hd : Describes k cfg envs) {env : Env} (he : env ∈ envs)
    {d : Daq} {s : St} {r : Remote} (ht : Mirrors cfg d s r) {q : Req} (len : Nat) (b : List UInt8) (hl : Legal cfg r q)
    (hst : q = .getStatus → cfg.resourceProtection = false) :
    ∃ s', step cfg env s (.cmd ⟨len, q.bytes ++ b⟩) = .ok s' ∧ Answers cfg s s' (r.answer k q) ∧ Mirrors cfg d s' (r.next k q) := by
  cases hon : cfg.supports q.cmd with
  | true => exact request_on hp hd he ht len b hon hl hst
  | false =>
    obtain ⟨s', h1, h2, h3⟩ := request_off hp env ht len b hon
    have hoff : k.offers q.cmd = false := by rw [hd.offers, hon]
    exact ⟨s', h1, by simpa [Remote.answer, hoff] using h2, by simpa [Remote.next, hoff] using h3⟩

/-- While the measurement runs. -/
theorem live_run {cfg : Cfg} (hp : Faithful cfg) (hdaq : cfg.daq = true) {p : Plan} (hs : p.Suits cfg) {k : About} :
    ∀ (hs : List (Around × Happening)) {s : St} {r : Remote} {h : Nat}, Describes k cfg (hs.map (·.1.env)) →
    Mirrors cfg s.daq s r → Measuring cfg p s h → AllLegal cfg k r (hs.map (·.2)) →
    (∀ x ∈ hs, x.2 ≠ .request .getStatus ∧ ∀ ev, x.2 = .event ev → ev.toNat ∈ p.events) → h + p.amount (hs.map (·.2)) ≤ 4 →
    ∃ t fs, run cfg s (ops hs) = .ok t ∧ t.tx = s.tx ++ fs ∧
      Says cfg fs (p.live k (stampSize cfg) r (hs.map fun x => (x.1.env.timer.toNat, x.2))) ∧
      Mirrors cfg t.daq t (r.final k (hs.map (·.2))) ∧ Measuring cfg p t (h + p.amount (hs.map (·.2)))
  | [], s, r, h, _, ht, hm, _, _, _ => ⟨s, [], rfl, by simp, trivial, ht, hm⟩
  | (a, x) :: hs, s, r, h, hd, ht, hm, hl, hx, hcnt => by
    have hd' : Describes k cfg (hs.map (·.1.env)) := { hd with hook := fun hm env he => hd.hook hm env (List.mem_cons_of_mem _ he) }
    have hx' : ∀ y ∈ hs, y.2 ≠ .request .getStatus ∧ ∀ ev, y.2 = .event ev → ev.toNat ∈ p.events := fun y hy => hx y (by simp [hy])
    obtain ⟨hx1, hx2⟩ := hx (a, x) (by simp)
    cases x with
    | request q =>
      obtain ⟨t, h1, ⟨f, h2, h3⟩, h4⟩ := live_request hp hd (List.mem_cons_self ..) ht a.len a.behind (hl.1 q rfl)
        (fun h => absurd (congrArg Happening.request h) hx1)
      obtain ⟨u, fs, k1, k2, k3, k4, k5⟩ := live_run hp hdaq ‹_› hs hd' (by rw [h4.daq]; exact h4) (hm.same h4.daq) hl.2 hx' hcnt
      refine ⟨u, f :: fs, ?_, by rw [k2, h2]; simp, ⟨?_, k3⟩, k4, k5⟩
      · simp only [ops, List.map_cons, run, Happening.op, h1, ok_bind]
        exact k1
      · have : r.answerLive k q = r.answer k q := by
          cases q <;> first | rfl | exact absurd rfl hx1
        rw [this]; exact h3
    | write y b =>
      have h4 : Mirrors cfg s.daq { s with mem := s.mem.write y [b] } (r.after k (.write y b)) :=
        ⟨⟨ht.ready.conn, ht.ready.idle⟩, ht.pgm, ht.out, ht.ck, ht.blk, rfl, by simp only [ht.mem]; rfl, ht.mta⟩
      obtain ⟨u, fs, k1, k2, k3, k4, k5⟩ := live_run (s := { s with mem := s.mem.write y [b] }) hp hdaq ‹_› hs hd' h4
        (hm.same rfl) hl.2 hx' hcnt
      exact ⟨u, fs, k1, k2, k3, k4, k5⟩
    | main =>
      have h1 : step cfg a.env s .main = .ok s := by
        have hck : checksumMain cfg s = s := by unfold checksumMain; rw [ht.ck]
        simp [step, mainFunction, mainUpload, uploadSingleBlock, ht.blk, mainChecksum, hck]
      obtain ⟨u, fs, k1, k2, k3, k4, k5⟩ := live_run hp hdaq ‹_› hs hd' ht hm hl.2 hx' hcnt
      refine ⟨u, fs, ?_, k2, k3, k4, k5⟩
      simp only [ops, List.map_cons, run, Happening.op, h1, ok_bind]
      exact k1
    | event ev =>
      have hev := hx2 ev rfl
      have hi := List.idxOf_lt_length_of_mem hev
      have hget : p.events[p.events.idxOf ev.toNat]? = some ev.toNat := by
        rw [List.getElem?_eq_getElem hi, List.getElem_idxOf]
      simp only [List.map_cons, Plan.amount] at hcnt
      obtain ⟨t, fs, h1, h2, h3, h4, h5⟩ := event_one hp.ok hdaq ‹_› a.env hm (l := p.events.idxOf ev.toNat)
        (by rw [← Spec.Plan.Suits.one ‹_›]; exact hi) (by omega)
      rw [hget, Option.getD_some, show UInt8.ofNat ev.toNat = ev by simp] at h1
      have heff : TrigEff s t := by
        have : triggerEvent cfg a.env s ev.toNat = .ok t := by simpa only [step, hdaq, if_true] using h1
        exact trigger_eff a.env ev.toNat t this
      obtain ⟨u, gs, k1, k2, k3, k4, k5⟩ := live_run hp hdaq ‹_› hs hd' (mirrors_trig ht heff) h4 hl.2 hx' (by omega)
      refine ⟨u, fs ++ gs, ?_, by rw [k2, h2, List.append_assoc], ?_, k4, ?_⟩
      · simp only [ops, List.map_cons, run, Happening.op, h1, ok_bind]
        exact k1
      · rw [ht.mem] at h3
        exact (says_samples h3).append k3
      · simp only [List.map_cons, Plan.amount]
        rw [← Nat.add_assoc]; exact k5

/-! ### Sessions -/

/-- A round as it reaches the slave: the packets that set the measurement up, what happens while it runs, the packet that stops it,
and what happens then. -/
structure Spec.Turn where
  plan : Plan
  setup : List (Env × Pdu)
  live : List (Around × Happening)
  stop : Env × Pdu
  rest : List (Around × Happening)

def Spec.Turn.ops (x : Turn) : List (Env × Op) :=
  (x.setup.map fun p => (p.1, .cmd p.2)) ++ Spec.ops x.live ++ [(x.stop.1, .cmd x.stop.2)] ++ Spec.ops x.rest

def Spec.Turn.round (x : Turn) : Round := ⟨x.plan, x.live.map fun y => (y.1.env.timer.toNat, y.2), x.rest.map (·.2)⟩

def Spec.Turn.envs (x : Turn) : List Env := x.live.map (·.1.env) ++ x.rest.map (·.1.env)

/-- The round is one a tool may ask for: the measurement fits in the slave and the packets are those of the measurement, the requests
are legal, events are those of the measurement, and (because of a deviation, see `C86_fails_status`) GET_STATUS is not
asked while the measurement runs. -/
structure Spec.Turn.Fine (cfg : Cfg) (k : About) (r : Remote) (x : Turn) : Prop where
  suits : x.plan.Suits cfg
  setup : Begin x.setup (x.plan.setup false)
  stop : [0xDD, 0] <+: x.stop.2.buf
  legal : AllLegal cfg k r (x.live.map (·.2))
  events : ∀ y ∈ x.live, y.2 ≠ .request .getStatus ∧ ∀ ev, y.2 = .event ev → ev.toNat ∈ x.plan.events
  after : AllLegal cfg k (r.final k (x.live.map (·.2))) (x.rest.map (·.2))

def Spec.AllFine (cfg : Cfg) (k : About) : Remote → List Turn → Prop
  | _, [] => True
  | r, x :: xs => x.Fine cfg k r ∧ AllFine cfg k (x.round.final k r) xs

/-- Between measurements. -/
structure Paused (cfg : Cfg) (s : St) (r : Remote) (h : Nat) : Prop where
  reach : ∃ mem hist, run cfg (St.init cfg mem) hist = .ok s
  mirrors : Mirrors cfg s.daq s r
  stopped : s.daq.running = false
  queue : Holds s.daq.queue [] h

theorem reach_append {cfg : Cfg} {s t : St} (h : ∃ mem hist, run cfg (St.init cfg mem) hist = .ok s) {ops : List (Env × Op)}
    (hr : run cfg s ops = .ok t) : ∃ mem hist, run cfg (St.init cfg mem) hist = .ok t := by
  obtain ⟨mem, hist, h⟩ := h
  refine ⟨mem, hist ++ ops, ?_⟩
  rw [run_append, h]
  exact hr

theorem Paused.fresh {cfg : Cfg} (hp : Plain cfg) {s : St} {r : Remote} {h : Nat} (hb : Paused cfg s r h) : Fresh cfg s h := by
  obtain ⟨mem, hist, hr⟩ := hb.reach
  exact ⟨⟨hb.mirrors.ready, hb.mirrors.pgm, by simp [Locked, hp.noProt]⟩, hb.stopped,
    daq_invariant (I := fun d => d.allocState ≠ .idle) not_idle_op hr (init_not_idle cfg mem), hb.queue⟩

/-- Stopping. -/
theorem stop_one {cfg : Cfg} (hp : Faithful cfg) (ho : OffersDaq cfg) {d : Daq} {s : St} {r : Remote} (hm : Mirrors cfg d s r)
    (hlk : ¬ Locked cfg s RES_DAQ) {x : Env × Pdu} (hx : [0xDD, 0] <+: x.2.buf) :
    ∃ t, step cfg x.1 s (.cmd x.2) = .ok t ∧ Answers cfg s t [0xFF] ∧ Mirrors cfg t.daq t r ∧ t.daq.running = false ∧
      t.daq.queue = s.daq.queue := by
  have hd : DaqReady cfg s := ⟨hm.ready, hm.pgm, hlk⟩
  rw [hd.ready.stepc x.1 .startStopSynch (pre_get hx rfl) (ho _ (by simp))]
  have hb := hd.bump
  have hmb := hm.bump
  have hsame := bumpReceived_same cfg s
  have htx : (bumpReceived cfg s).tx = s.tx := bumpReceived_tx cfg s
  have h1 : x.2.buf[1]? = some 0 := pre_get hx rfl
  generalize bumpReceived cfg s = b at *
  simp only [handler, startStopSynchRes, assertPgmIdle, assertUnlocked, byte_eq h1, ok_bind]
  rw [if_neg hb.pgm, if_neg hb.notProtected, if_neg (by decide), if_pos trivial]
  have := hp.ok.cto_lo
  refine ⟨_, rfl, send8_answers hp.short (by simp) htx, ?_, rfl, ?_⟩
  · exact Mirrors.send8 (s := { b with daq := _ }) ⟨⟨hmb.ready.conn, hmb.ready.idle⟩, hmb.pgm, hmb.out, hmb.ck, hmb.blk, rfl, hmb.mem, hmb.mta⟩
      (by simp; omega)
  · show b.daq.queue = _
    rw [hsame.daq]

theorem describes_left {k : About} {cfg : Cfg} {a b : List Env} (h : Describes k cfg (a ++ b)) : Describes k cfg a :=
  { h with hook := fun hm env he => h.hook hm env (List.mem_append_left _ he) }

theorem describes_right {k : About} {cfg : Cfg} {a b : List Env} (h : Describes k cfg (a ++ b)) : Describes k cfg b :=
  { h with hook := fun hm env he => h.hook hm env (List.mem_append_right _ he) }

theorem round_run {cfg : Cfg} (hp : Plain cfg) (ho : OffersDaq cfg) {k : About} {s : St} {r : Remote} {h : Nat} (hb : Paused cfg s r h)
    {x : Turn} (hd : Describes k cfg x.envs) (hx : x.Fine cfg k r) (hcnt : h + x.plan.amount (x.live.map (·.2)) ≤ 4) :
    ∃ t fs, run cfg s x.ops = .ok t ∧ t.tx = s.tx ++ fs ∧
      Says cfg fs (x.plan.answers.map .answer ++ x.plan.live k (stampSize cfg) r x.round.live ++ [.answer [0xFF]] ++
        ((r.final k (x.live.map (·.2))).answers k (x.rest.map (·.2))).map .answer) ∧
      Paused cfg t (x.round.final k r) (h + x.plan.amount (x.live.map (·.2))) := by
  have hdaq : cfg.daq = true := by
    have := ho .freeDaq (by simp)
    simp [Cfg.supports, Cmd.group] at this
    exact this.1
  obtain ⟨t1, ⟨a1, f1, a2, a3⟩, a4, a5⟩ := setup_runs hp.ok hp.short ho hx.suits (hb.fresh hp) (ps := x.setup)
    (by rw [hp.intel]; exact hx.setup)
  have hreach1 := reach_append hb.reach a1
  have hout : t1.ctoOut.length = cfg.maxCto := by
    obtain ⟨mem, hist, hr⟩ := hreach1
    exact (run_tx hp.ok hr).out_len
  have hm1 : Mirrors cfg t1.daq t1 r := by
    have hm := hb.mirrors
    exact ⟨⟨a5.connected.trans hm.ready.conn, a5.busy.trans hm.ready.idle⟩, by rw [a5.pgm]; exact hm.pgm, hout, by rw [a5.ck]; exact hm.ck, by rw [a5.slaveBlk]; exact hm.blk, rfl,
      a5.mem.trans hm.mem, fun hk => a5.mta.trans (hm.mta hk)⟩
  obtain ⟨t2, f2, b1, b2, b3, b4, b5⟩ := live_run hp.toFaithful hdaq hx.suits x.live (describes_left hd) hm1 a4 hx.legal hx.events hcnt
  obtain ⟨t3, c1, ⟨f3, c2, c3⟩, c4, c5, c6⟩ := stop_one hp.toFaithful ho b4 (by simp [Locked, hp.noProt]) hx.stop
  obtain ⟨t4, f4, d1, d2, d3, d4⟩ := remote_mirrors hp c5 (describes_right hd) c4 hx.after
  have hrun : run cfg s x.ops = .ok t4 := by
    unfold Turn.ops
    rw [run_append, run_append, run_append, a1]
    simp only [ok_bind]
    rw [b1]
    simp only [ok_bind, run]
    rw [c1]
    exact d1
  refine ⟨t4, f1 ++ f2 ++ [f3] ++ f4, hrun, by rw [d2, c2, b2, a2]; simp, ?_, reach_append hb.reach hrun, ?_, ?_, ?_⟩
  · exact (((says_answers a3).append b3).append (b := [f3]) (y := [.answer [0xFF]]) ⟨c3, trivial⟩).append (says_answers d3)
  · rw [d4.daq]
    have e : x.round.live.map (·.2) = x.live.map (·.2) := by simp [Turn.round]
    unfold Round.final
    rw [e]
    exact d4
  · rw [d4.daq]; exact c5
  · rw [d4.daq, c6]; exact b5.queue

/-- The number of packets of a session. -/
def Spec.total (xs : List Turn) : Nat := (xs.map fun x => x.plan.amount (x.live.map (·.2))).sum

theorem rounds_run {cfg : Cfg} (hp : Plain cfg) (ho : OffersDaq cfg) {k : About} : ∀ (xs : List Turn) {s : St} {r : Remote} {h : Nat},
    Paused cfg s r h → Describes k cfg (xs.flatMap Turn.envs) → AllFine cfg k r xs → h + total xs ≤ 4 →
    ∃ t fs, run cfg s (xs.flatMap Turn.ops) = .ok t ∧ t.tx = s.tx ++ fs ∧ Says cfg fs (rounds k (stampSize cfg) r (xs.map Turn.round)) ∧
      t.mem = ((xs.map Turn.round).foldl (fun r x => x.final k r) r).mem
  | [], s, r, h, hb, _, _, _ => ⟨s, [], rfl, by simp, trivial, hb.mirrors.mem⟩
  | x :: xs, s, r, h, hb, hd, hf, hcnt => by
    simp only [total, List.map_cons, List.sum_cons] at hcnt
    rw [List.flatMap_cons] at hd
    obtain ⟨t, fs, h1, h2, h3, h4⟩ := round_run hp ho hb (describes_left hd) hf.1 (by omega)
    obtain ⟨u, gs, k1, k2, k3, k4⟩ := rounds_run hp ho xs h4 (describes_right hd) hf.2 (by simp only [total]; omega)
    refine ⟨u, fs ++ gs, ?_, by rw [k2, h2, List.append_assoc], ?_, k4⟩
    · rw [List.flatMap_cons, run_append, h1]; exact k1
    · have e : x.round.live.map (·.2) = x.live.map (·.2) := by simp [Turn.round]
      simp only [List.map_cons, rounds, e]
      exact h3.append k3

/-- C86, partial: start-up, CONNECT, any requests and other happenings, then any sequence of measurements with requests, writes by the
application, main function calls and events while they run and between them.  As long as not more than four packets with
samples are sent in all, and GET_STATUS is not asked during a measurement: the slave never fails; requests are answered
exactly like by the remote memory, whether a measurement runs or not; every event of a running measurement produces
the packets asked for, with the contents of the remote memory at that time (also what was calibrated
before); nothing else is sent. -/
theorem C86_calibration_partial {cfg : Cfg} (hp : Plain cfg) (ho : OffersDaq cfg) {k : About} {a : Around} {mode : UInt8}
    {hs : List (Around × Happening)} {xs : List Turn} (hd : Describes k cfg (a.env :: hs.map (·.1.env) ++ xs.flatMap Turn.envs)) {mem : Mem}
    (hl : AllLegal cfg k ⟨mem, 0, 0, true⟩ (hs.map (·.2))) (hf : AllFine cfg k (Remote.final k ⟨mem, 0, 0, true⟩ (hs.map (·.2))) xs) (hcnt : total xs ≤ 4) :
    ∃ s, run cfg (St.init cfg mem) (ops ((a, .request (.connect mode)) :: hs) ++ xs.flatMap Turn.ops) = .ok s ∧
      Says cfg s.tx ((Remote.answers k ⟨mem, 0, 0, true⟩ (.request (.connect mode) :: hs.map (·.2))).map .answer ++
        rounds k (stampSize cfg) (Remote.final k ⟨mem, 0, 0, true⟩ (hs.map (·.2))) (xs.map Turn.round)) ∧
      s.mem = ((xs.map Turn.round).foldl (fun r x => x.final k r) (Remote.final k ⟨mem, 0, 0, true⟩ (hs.map (·.2)))).mem := by
  have hd1 := describes_left hd
  obtain ⟨s1, h1, ⟨f, hf', hc⟩, h3⟩ := remote_connect hp hd1 (List.mem_cons_self ..) mem mode a.len a.behind
  obtain ⟨s1', h1', hfresh, -⟩ := fresh_start hp.noProt a.env mem (remote_code (.connect mode) a.len a.behind)
  rw [h1] at h1'
  injection h1' with h1'
  subst h1'
  have hd' : Describes k cfg (hs.map (·.1.env)) := { hd1 with hook := fun hm env he => hd1.hook hm env (List.mem_cons_of_mem _ he) }
  obtain ⟨s2, fs, h4, h5, h6, h7⟩ := remote_mirrors hp hfresh.stopped hd' h3.mirrors hl
  have hrun : run cfg (St.init cfg mem) (ops ((a, .request (.connect mode)) :: hs)) = .ok s2 := by
    simp only [ops, List.map_cons, run, Happening.op, h1, ok_bind]
    exact h4
  have hb : Paused cfg s2 (Remote.final k ⟨mem, 0, 0, true⟩ (hs.map (·.2))) 0 :=
    ⟨⟨mem, _, hrun⟩, by rw [h7.daq]; exact h7, by rw [h7.daq]; exact hfresh.stopped, by rw [h7.daq]; exact hfresh.queue⟩
  obtain ⟨u, gs, k1, k2, k3, k4⟩ := rounds_run hp ho xs hb (describes_right hd) hf (by omega)
  refine ⟨u, by rw [run_append, hrun]; exact k1, ?_, k4⟩
  rw [k2, h5, hf']
  have hnext : Remote.next k ⟨mem, 0, 0, true⟩ (.connect mode) = ⟨mem, 0, 0, true⟩ := by simp [Remote.next]
  refine Says.append (a := ([] ++ [f]) ++ fs) (says_answers ?_) k3
  show CarryAll cfg (([] ++ [f]) ++ fs) (_ :: Remote.answers k (Remote.next k ⟨mem, 0, 0, true⟩ (.connect mode)) _)
  rw [hnext]
  exact ⟨hc, h6⟩

/-- C86 is false with GET_STATUS: after the commands of any measurement, the session status is reported as 0, without the bit of a running
measurement. -/
theorem C86_fails_status {cfg : Cfg} (hc : cfg.Ok) (hs : ShortOk cfg) (ho : OffersDaq cfg) {p : Plan} (hp : p.Suits cfg) {s : St} {h : Nat}
    (hf : Fresh cfg s h) {ps : List (Env × Pdu)} (hb : Begin ps (p.setup cfg.motorola)) {x : Env × Pdu} (hx : code x.2 = some 0xFD) :
    ∃ t u mask, run cfg s (ps.map fun y => (y.1, .cmd y.2)) = .ok t ∧ t.daq.running = true ∧ step cfg x.1 t (.cmd x.2) = .ok u ∧
      Answers cfg t u [0xFF, 0, mask, 0, 0, 0] := by
  obtain ⟨t, ⟨h1, -⟩, h4, h5⟩ := setup_runs hc hs ho hp hf hb
  have hr : Ready t := ⟨h5.connected.trans hf.ready.ready.conn, h5.busy.trans hf.ready.ready.idle⟩
  obtain ⟨u, mask, k1, k2, -⟩ := C22_get_status hs x.1 hr hx
  exact ⟨t, u, mask, h1, h4.running, k1, k2⟩

/-- A session: a byte of the first list of `Ex.plan` is calibrated while it is measured. -/
def Ex.live : List (Nat × Happening) :=
  [(7, .request (.setMta 0 0x11)), (7, .event 2), (8, .request (.download [0xAA])), (8, .main), (8, .write 0x40 0xAB), (9, .event 0),
   (9, .request (.upload 2))]

example : Ex.plan.live Ex.about 4 ⟨Ex.mem, 0, 0, true⟩ Ex.live =
    [.answer [0xFF], .sample [0, 7, 0, 0, 0, 0x10, 0x11, 0x20], .sample [1, 0x30, 0x31, 0x32, 0x33], .answer [0xFF],
     .sample [2, 9, 0, 0, 0, 0xAB], .answer [0xFF, 0x12, 0x13]] := by decide +kernel

/-- The round. -/
def Ex.turn : Turn :=
  { plan := { lists := [[[(2, 0x10)]]], events := [1], stamps := false }
    setup := ([[0xD6], [0xD5, 0, 1, 0], [0xD4, 0, 0, 0, 1], [0xD3, 0, 0, 0, 0, 1], [0xE2, 0, 0, 0, 0, 0], [0xE1, 0xFF, 2, 0, 0x10, 0, 0, 0],
      [0xE0, 0, 0, 0, 1, 0, 1, 0], [0xDE, 2, 0, 0], [0xDD, 1]]).map fun b => (Ex.env, ⟨b.length, b⟩)
    live := [.event 1, .request (.setMta 0 0x11), .request (.download [0xAA]), .event 1, .request .synch].map fun h => (⟨Ex.env, 8, []⟩, h)
    stop := (Ex.env, ⟨2, [0xDD, 0, 0x55]⟩)
    rest := [.event 1, .request (.shortUpload 2 0 0x10)].map fun h => (⟨Ex.env, 8, []⟩, h) }

/-- It is fine for the simulator, and can be repeated. -/
example : AllFine Ex.sim Ex.about ⟨Ex.mem, 0, 0, true⟩ [Ex.turn, Ex.turn] := by
  have h : ∀ r, Ex.turn.Fine Ex.sim Ex.about r := fun r =>
    ⟨⟨by decide, by decide, by decide, by decide, by decide, by decide, by decide, by decide⟩,
      by
        have e : Ex.turn.plan.setup false = Ex.turn.setup.map (·.2.buf) := by decide +kernel
        rw [e]; simp [Ex.turn, Begin], by decide,
      by
        have e : Ex.sim.supports .setMta = true := by decide
        simp [Ex.turn, AllLegal, Legal, Remote.after, Remote.next, Ex.about, Req.cmd, e]; decide,
      by simp [Ex.turn],
      by simp [Ex.turn, AllLegal, Legal, Remote.after, Ex.about]; decide⟩
  exact ⟨h _, h _, trivial⟩

example : total [Ex.turn, Ex.turn] = 4 := by decide

/-- What is said, twice. -/
example : rounds Ex.about 0 ⟨Ex.mem, 0, 0, true⟩ [Ex.turn.round, Ex.turn.round] =
    List.replicate 7 (.answer [0xFF]) ++ [.answer [0xFF, 0, 0, 0, 0, 0, 0, 0], .answer [0xFF]] ++
    [.sample [0, 0x10, 0x11], .answer [0xFF], .answer [0xFF], .sample [0, 0x10, 0xAA], .answer [0xFE, 0]] ++
    [.answer [0xFF], .answer [0xFF, 0x10, 0xAA]] ++
    List.replicate 7 (.answer [0xFF]) ++ [.answer [0xFF, 0, 0, 0, 0, 0, 0, 0], .answer [0xFF]] ++
    [.sample [0, 0x10, 0xAA], .answer [0xFF], .answer [0xFF], .sample [0, 0x10, 0xAA], .answer [0xFE, 0]] ++
    [.answer [0xFF], .answer [0xFF, 0x10, 0xAA]] := by decide +kernel

/-- The slave says that. -/
example : Ex.obs Ex.sim ((Ex.c [0xFF]) :: Ex.turn.ops ++ Ex.turn.ops) (fun s => (s.tx.filter (·.kind == .dto)).map fun f => f.bytes.drop 4) =
    some [[0, 0x10, 0x11], [0, 0x10, 0xAA], [0, 0x10, 0xAA], [0, 0x10, 0xAA]] := by decide +kernel

/-- The status during the first measurement: the bit is missing. -/
example : Ex.obs Ex.sim ((Ex.c [0xFF]) :: (Ex.turn.setup.map fun y => (y.1, .cmd y.2)) ++ [Ex.c [0xFD]])
      (fun s => (s.daq.running, (s.tx.getLast?.map fun f => f.bytes.drop 4))) =
    some (true, some [0xFF, 0, 0, 0, 0, 0]) := by decide +kernel

example (r : Remote) : r.answerLive Ex.about .getStatus = [0xFF, 0x40, 0, 0, 0, 0] := rfl

end Xcp
