import Verif.Spec.BlockLive
import Verif.Props.C98_BlockSessions
/-
C101: block transfers while measuring.  C86 and C98 together: samples and the packets of blocks do not disturb each other.
-/
set_option autoImplicit false
namespace Xcp
open Spec

/-- The history is one a tool may ask for while measurement `p` runs: requests as in C98, events of the measurement, and (because of a
deviation, see `C86_fails_status`) no GET_STATUS that would be answered with the status. -/
def Spec.BLive (cfg : Cfg) (k : About) (p : Plan) : Blocks → List BHappening → Prop
  | _, [] => True
  | b, h :: hs => (∀ q, h = .request q → BLegal cfg b q ∧ (q = .plain .getStatus → 0 < b.sending)) ∧
      (∀ ev, h = .event ev → ev.toNat ∈ p.events) ∧ BLive cfg k p (b.after k h) hs

theorem bmirrors_trig {cfg : Cfg} {d : Daq} {s t : St} {b : Blocks} (h : BMirrors cfg d s b) (he : TrigEff s t) : BMirrors cfg t.daq t b :=
  ⟨he.connected.trans h.conn, he.busy.trans h.busy, by rw [he.pgm]; exact h.pgm, by rw [he.ctoOut]; exact h.out, by rw [he.ck]; exact h.ck,
    by rw [he.slaveBlk]; exact h.blk, by rw [he.slaveBlk]; exact h.rem, by rw [he.masterBlk]; exact h.mblk, by rw [he.masterBlk]; exact h.mrem,
    rfl, he.mem.trans h.mem, fun hk => he.mta.trans (h.mta hk)⟩

/-- One happening while the measurement runs. -/
theorem block_live_one {cfg : Cfg} (hp : Plain cfg) (hbs : cfg.maxBs < 256) (hdaq : cfg.daq = true) {p : Plan} (hs : p.Suits cfg) {k : About}
    {envs : List Env} (hd : Describes k cfg envs) {a : Around} (he : a.env ∈ envs) {s : St} {b : Blocks} {h : Nat} (ht : BMirrors cfg s.daq s b)
    (hm : Measuring cfg p s h) {x : BHappening} (hq : ∀ q, x = .request q → BLegal cfg b q ∧ (q = .plain .getStatus → 0 < b.sending))
    (hev : ∀ ev, x = .event ev → ev.toNat ∈ p.events) (hcnt : h + p.blockAmount [x] ≤ 4) :
    ∃ t fs, step cfg a.env s (x.op a.len a.behind) = .ok t ∧ t.tx = s.tx ++ fs ∧
      Says cfg fs (p.blockSays k (stampSize cfg) b a.env.timer.toNat x) ∧ BMirrors cfg t.daq t (b.after k x) ∧
      Measuring cfg p t (h + p.blockAmount [x]) := by
  cases x with
  | request q =>
    obtain ⟨hl, hst⟩ := hq q rfl
    obtain ⟨t, h1, ⟨fs, h2, h3⟩, h4⟩ := block_request hp hbs hd he ht hl
    refine ⟨t, fs, h1, h2, ?_, by rw [h4.daq]; exact h4, hm.same h4.daq⟩
    have : b.answerLive k q = b.answer k q := by
      unfold Blocks.answerLive
      rw [if_neg]
      rintro ⟨g1, g2⟩
      have := hst g2
      omega
    simp only [Plan.blockSays, this]
    exact says_answers h3
  | write y z =>
    have h4 := ht.write k y z
    exact ⟨_, [], rfl, by simp, trivial, h4, hm.same rfl⟩
  | main =>
    obtain ⟨t, h1, ⟨fs, h2, h3⟩, h4⟩ := block_main hp hd a.env ht
    exact ⟨t, fs, h1, h2, says_answers h3, by rw [h4.daq]; exact h4, hm.same h4.daq⟩
  | event ev =>
    have hi := List.idxOf_lt_length_of_mem (hev ev rfl)
    have hget : p.events[p.events.idxOf ev.toNat]? = some ev.toNat := by
      rw [List.getElem?_eq_getElem hi, List.getElem_idxOf]
    simp only [Plan.blockAmount, Nat.add_zero] at hcnt ⊢
    obtain ⟨t, fs, h1, h2, h3, h4, -⟩ := event_one hp.ok hdaq hs a.env hm (l := p.events.idxOf ev.toNat)
      (by rw [← hs.one]; exact hi) (by omega)
    rw [hget, Option.getD_some, show UInt8.ofNat ev.toNat = ev by simp] at h1
    have heff : TrigEff s t := by
      have : triggerEvent cfg a.env s ev.toNat = .ok t := by simpa only [step, hdaq, if_true] using h1
      exact trigger_eff a.env ev.toNat t this
    refine ⟨t, fs, h1, h2, ?_, bmirrors_trig ht heff, h4⟩
    rw [ht.mem] at h3
    exact says_samples h3

theorem blockAmount_cons {p : Plan} (x : BHappening) (xs : List BHappening) : p.blockAmount (x :: xs) = p.blockAmount [x] + p.blockAmount xs := by
  cases x <;> simp [Plan.blockAmount]

/-- While the measurement runs. -/
theorem block_live_run {cfg : Cfg} (hp : Plain cfg) (hbs : cfg.maxBs < 256) (hdaq : cfg.daq = true) {p : Plan} (hs : p.Suits cfg) {k : About} :
    ∀ (xs : List (Around × BHappening)) {s : St} {b : Blocks} {h : Nat}, Describes k cfg (xs.map (·.1.env)) →
    BMirrors cfg s.daq s b → Measuring cfg p s h → BLive cfg k p b (xs.map (·.2)) → h + p.blockAmount (xs.map (·.2)) ≤ 4 →
    ∃ t fs, run cfg s (bops xs) = .ok t ∧ t.tx = s.tx ++ fs ∧
      Says cfg fs (p.blockLive k (stampSize cfg) b (xs.map fun x => (x.1.env.timer.toNat, x.2))) ∧
      BMirrors cfg t.daq t (b.final k (xs.map (·.2))) ∧ Measuring cfg p t (h + p.blockAmount (xs.map (·.2)))
  | [], s, b, h, _, ht, hm, _, _ => ⟨s, [], rfl, by simp, trivial, ht, hm⟩
  | (a, x) :: xs, s, b, h, hd, ht, hm, hl, hcnt => by
    have hd' : Describes k cfg (xs.map (·.1.env)) := { hd with hook := fun hm env he => hd.hook hm env (List.mem_cons_of_mem _ he) }
    simp only [List.map_cons] at hcnt ⊢
    rw [blockAmount_cons, ← Nat.add_assoc] at hcnt
    obtain ⟨t, fs, h1, h2, h3, h4, h5⟩ := block_live_one hp hbs hdaq hs hd (a := a) (List.mem_cons_self ..) ht hm hl.1 hl.2.1 (x := x) (by omega)
    obtain ⟨u, gs, k1, k2, k3, k4, k5⟩ := block_live_run hp hbs hdaq hs xs hd' h4 h5 hl.2.2 hcnt
    refine ⟨u, fs ++ gs, ?_, by rw [k2, h2, List.append_assoc], h3.append k3, k4, by rw [blockAmount_cons, ← Nat.add_assoc]; exact k5⟩
    simp only [bops, List.map_cons, run, h1, ok_bind]
    exact k1

/-- A round as it reaches the slave. -/
structure Spec.BTurn where
  plan : Plan
  setup : List (Env × Pdu)
  live : List (Around × BHappening)
  stop : Env × Pdu
  rest : List (Around × BHappening)

def Spec.BTurn.ops (x : BTurn) : List (Env × Op) :=
  (x.setup.map fun p => (p.1, .cmd p.2)) ++ bops x.live ++ [(x.stop.1, .cmd x.stop.2)] ++ bops x.rest

def Spec.BTurn.round (x : BTurn) : BRound := ⟨x.plan, x.live.map fun y => (y.1.env.timer.toNat, y.2), x.rest.map (·.2)⟩

def Spec.BTurn.envs (x : BTurn) : List Env := x.live.map (·.1.env) ++ x.rest.map (·.1.env)

/-- The round is one a tool may ask for: the measurement fits in the slave and the packets are those of the measurement; it is set up and
stopped when no block is being sent. -/
structure Spec.BTurn.Fine (cfg : Cfg) (k : About) (b : Blocks) (x : BTurn) : Prop where
  suits : x.plan.Suits cfg
  setup : Begin x.setup (x.plan.setup false)
  stop : [0xDD, 0] <+: x.stop.2.buf
  idle : b.sending = 0
  live : BLive cfg k x.plan b (x.live.map (·.2))
  done : (b.final k (x.live.map (·.2))).sending = 0
  after : AllBLegal cfg k (b.final k (x.live.map (·.2))) (x.rest.map (·.2))

def Spec.AllBFine (cfg : Cfg) (k : About) : Blocks → List BTurn → Prop
  | _, [] => True
  | b, x :: xs => x.Fine cfg k b ∧ AllBFine cfg k (x.round.final k b) xs

/-- Between measurements. -/
structure BPaused (cfg : Cfg) (s : St) (b : Blocks) (h : Nat) : Prop where
  reach : ∃ mem hist, run cfg (St.init cfg mem) hist = .ok s
  mirrors : BMirrors cfg s.daq s b
  stopped : s.daq.running = false
  queue : Holds s.daq.queue [] h

theorem BPaused.fresh {cfg : Cfg} (hp : Plain cfg) {s : St} {b : Blocks} {h : Nat} (hb : BPaused cfg s b h) (h0 : b.sending = 0) : Fresh cfg s h :=
  Paused.fresh hp ⟨hb.reach, hb.mirrors.mirrors h0, hb.stopped, hb.queue⟩

/-- Stopping does not concern an open block. -/
theorem block_stop {cfg : Cfg} (hp : Plain cfg) (ho : OffersDaq cfg) {s : St} {b : Blocks} (hm : BMirrors cfg s.daq s b) (h0 : b.sending = 0)
    {x : Env × Pdu} (hx : [0xDD, 0] <+: x.2.buf) :
    ∃ t, step cfg x.1 s (.cmd x.2) = .ok t ∧ Answers cfg s t [0xFF] ∧ BMirrors cfg t.daq t b ∧ t.daq.running = false ∧
      t.daq.queue = s.daq.queue := by
  obtain ⟨t, h1, h2, h3, h4, h5⟩ := stop_one hp.toFaithful ho (hm.mirrors h0) (by simp [Locked, hp.noProt]) hx
  have hblk : t.masterBlk = s.masterBlk :=
    step_masterBlk (hm.mirrors h0).ready (c := .startStopSynch) (pre_get hx rfl) (fun _ => ⟨by decide, by decide⟩) h1
  exact ⟨t, h1, h2, Mirrors.blocks h3 h0 (by rw [hblk]; exact hm.mblk) (by rw [hblk]; exact hm.mrem), h4, h5⟩

theorem block_round_run {cfg : Cfg} (hp : Plain cfg) (hbs : cfg.maxBs < 256) (ho : OffersDaq cfg) {k : About} {s : St} {b : Blocks} {h : Nat}
    (hb : BPaused cfg s b h) {x : BTurn} (hd : Describes k cfg x.envs) (hx : x.Fine cfg k b)
    (hcnt : h + x.plan.blockAmount (x.live.map (·.2)) ≤ 4) :
    ∃ t fs, run cfg s x.ops = .ok t ∧ t.tx = s.tx ++ fs ∧
      Says cfg fs (x.plan.answers.map .answer ++ x.plan.blockLive k (stampSize cfg) b x.round.live ++ [.answer [0xFF]] ++
        ((b.final k (x.live.map (·.2))).saysAll k (x.rest.map (·.2))).map .answer) ∧
      BPaused cfg t (x.round.final k b) (h + x.plan.blockAmount (x.live.map (·.2))) := by
  have hdaq : cfg.daq = true := by
    have := ho .freeDaq (by simp)
    simp [Cfg.supports, Cmd.group] at this
    exact this.1
  obtain ⟨t1, ⟨a1, f1, a2, a3⟩, a4, a5⟩ := setup_runs hp.ok hp.short ho hx.suits (hb.fresh hp hx.idle) (ps := x.setup)
    (by rw [hp.intel]; exact hx.setup)
  have hreach1 := reach_append hb.reach a1
  have hout : t1.ctoOut.length = cfg.maxCto := by
    obtain ⟨mem, hist, hr⟩ := hreach1
    exact (run_tx hp.ok hr).out_len
  have hm1 : BMirrors cfg t1.daq t1 b := by
    have hm := hb.mirrors
    exact ⟨a5.connected.trans hm.conn, a5.busy.trans hm.busy, by rw [a5.pgm]; exact hm.pgm, hout, by rw [a5.ck]; exact hm.ck,
      by rw [a5.slaveBlk]; exact hm.blk, by rw [a5.slaveBlk]; exact hm.rem, by rw [a5.masterBlk]; exact hm.mblk,
      by rw [a5.masterBlk]; exact hm.mrem, rfl, a5.mem.trans hm.mem, fun hk => a5.mta.trans (hm.mta hk)⟩
  obtain ⟨t2, f2, b1, b2, b3, b4, b5⟩ := block_live_run hp hbs hdaq hx.suits x.live (describes_left hd) hm1 a4 hx.live hcnt
  obtain ⟨t3, c1, ⟨f3, c2, c3⟩, c4, c5, c6⟩ := block_stop hp ho b4 hx.done hx.stop
  obtain ⟨t4, d1, ⟨f4, d2, d3⟩, d4⟩ := block_run hp hbs c5 (describes_right hd) c4 hx.after
  have hrun : run cfg s x.ops = .ok t4 := by
    unfold BTurn.ops
    rw [run_append, run_append, run_append, a1]
    simp only [ok_bind]
    rw [b1]
    simp only [ok_bind, run]
    rw [c1]
    exact d1
  refine ⟨t4, f1 ++ f2 ++ [f3] ++ f4, hrun, by rw [d2, c2, b2, a2]; simp, ?_, reach_append hb.reach hrun, ?_, ?_, ?_⟩
  · exact (((says_answers a3).append b3).append (b := [f3]) (y := [.answer [0xFF]]) ⟨c3, trivial⟩).append (says_answers d3)
  · rw [d4.daq]
    have e : x.round.live.map (·.2) = x.live.map (·.2) := by simp [BTurn.round]
    unfold BRound.final
    rw [e]
    exact d4
  · rw [d4.daq]; exact c5
  · rw [d4.daq, c6]; exact b5.queue

/-- The number of packets with samples of a session. -/
def Spec.blockTotal (xs : List BTurn) : Nat := (xs.map fun x => x.plan.blockAmount (x.live.map (·.2))).sum

theorem block_rounds_run {cfg : Cfg} (hp : Plain cfg) (hbs : cfg.maxBs < 256) (ho : OffersDaq cfg) {k : About} :
    ∀ (xs : List BTurn) {s : St} {b : Blocks} {h : Nat},
    BPaused cfg s b h → Describes k cfg (xs.flatMap BTurn.envs) → AllBFine cfg k b xs → h + blockTotal xs ≤ 4 →
    ∃ t fs, run cfg s (xs.flatMap BTurn.ops) = .ok t ∧ t.tx = s.tx ++ fs ∧ Says cfg fs (blockRounds k (stampSize cfg) b (xs.map BTurn.round)) ∧
      t.mem = ((xs.map BTurn.round).foldl (fun b x => x.final k b) b).remote.mem
  | [], s, b, h, hb, _, _, _ => ⟨s, [], rfl, by simp, trivial, hb.mirrors.mem⟩
  | x :: xs, s, b, h, hb, hd, hf, hcnt => by
    simp only [blockTotal, List.map_cons, List.sum_cons] at hcnt
    rw [List.flatMap_cons] at hd
    obtain ⟨t, fs, h1, h2, h3, h4⟩ := block_round_run hp hbs ho hb (describes_left hd) hf.1 (by omega)
    obtain ⟨u, gs, k1, k2, k3, k4⟩ := block_rounds_run hp hbs ho xs h4 (describes_right hd) hf.2 (by simp only [blockTotal]; omega)
    refine ⟨u, fs ++ gs, ?_, by rw [k2, h2, List.append_assoc], ?_, k4⟩
    · rw [List.flatMap_cons, run_append, h1]; exact k1
    · have e : x.round.live.map (·.2) = x.live.map (·.2) := by simp [BTurn.round]
      simp only [List.map_cons, blockRounds, e]
      exact h3.append k3

/-- C101, partial: start-up, CONNECT, any requests with block transfers and other happenings, then any sequence of measurements, with block
transfers in both directions, writes by the application, main function calls and events while they run and between them.  As long as not more
than four packets with samples are sent in all, the status is not asked for during a measurement, and measurements are set up and stopped
while no block is being sent: the slave never fails; requests are answered and blocks are sent exactly like by the remote memory
with block transfers, whether a measurement runs or not; every event of a running measurement produces the packets asked for, also
between the packets of a block, with the contents of the remote memory at that time; nothing else is sent. -/
theorem C101_blocks_live_partial {cfg : Cfg} (hp : Plain cfg) (hbs : cfg.maxBs < 256) (ho : OffersDaq cfg) {k : About} {a : Around} {mode : UInt8}
    {hs : List (Around × BHappening)} {xs : List BTurn} (hd : Describes k cfg (a.env :: hs.map (·.1.env) ++ xs.flatMap BTurn.envs)) {mem : Mem}
    (hl : AllBLegal cfg k ⟨⟨mem, 0, 0, true⟩, 0, 0⟩ (hs.map (·.2)))
    (hf : AllBFine cfg k (Blocks.final k ⟨⟨mem, 0, 0, true⟩, 0, 0⟩ (hs.map (·.2))) xs) (hcnt : blockTotal xs ≤ 4) :
    ∃ s, run cfg (St.init cfg mem) (bops ((a, .request (.plain (.connect mode))) :: hs) ++ xs.flatMap BTurn.ops) = .ok s ∧
      Says cfg s.tx ((Blocks.saysAll k ⟨⟨mem, 0, 0, true⟩, 0, 0⟩ (.request (.plain (.connect mode)) :: hs.map (·.2))).map .answer ++
        blockRounds k (stampSize cfg) (Blocks.final k ⟨⟨mem, 0, 0, true⟩, 0, 0⟩ (hs.map (·.2))) (xs.map BTurn.round)) ∧
      s.mem = ((xs.map BTurn.round).foldl (fun b x => x.final k b) (Blocks.final k ⟨⟨mem, 0, 0, true⟩, 0, 0⟩ (hs.map (·.2)))).remote.mem := by
  have hd1 := describes_left hd
  obtain ⟨s1, h1, ⟨f, hf', hc⟩, h3⟩ := remote_connect hp hd1 (List.mem_cons_self ..) mem mode a.len a.behind
  obtain ⟨s1', h1', hfresh, -⟩ := fresh_start hp.noProt a.env mem (remote_code (.connect mode) a.len a.behind)
  rw [h1] at h1'
  injection h1' with h1'
  subst h1'
  have hmb : s1.masterBlk = ⟨false, 0⟩ := by
    have hcode := byte_of_code (remote_code (.connect mode) a.len a.behind)
    have h1' := h1
    simp only [step, dispatch, hcode, ok_bind] at h1'
    rw [if_neg (by simp [St.init]), if_pos (show cmdCode (Req.connect mode).cmd = 255 from rfl)] at h1'
    cases h1'
    simp [St.init]
  have hd' : Describes k cfg (hs.map (·.1.env)) := { hd1 with hook := fun hm env he => hd1.hook hm env (List.mem_cons_of_mem _ he) }
  have hb1 : BMirrors cfg s1.daq s1 ⟨⟨mem, 0, 0, true⟩, 0, 0⟩ := Mirrors.blocks h3.mirrors rfl (by simp [hmb]) (fun h => absurd h (by simp))
  obtain ⟨s2, h4, ⟨fs, h5, h6⟩, h7⟩ := block_run hp hbs hfresh.stopped hd' hb1 hl
  have hrun : run cfg (St.init cfg mem) (bops ((a, .request (.plain (.connect mode))) :: hs)) = .ok s2 := by
    have h1' : step cfg a.env (St.init cfg mem) (.cmd ⟨a.len, (BReq.plain (.connect mode)).bytes ++ a.behind⟩) = .ok s1 := h1
    simp only [bops, List.map_cons, run, BHappening.op, h1', ok_bind]
    exact h4
  have hb : BPaused cfg s2 (Blocks.final k ⟨⟨mem, 0, 0, true⟩, 0, 0⟩ (hs.map (·.2))) 0 :=
    ⟨⟨mem, _, hrun⟩, by rw [h7.daq]; exact h7, by rw [h7.daq]; exact hfresh.stopped, by rw [h7.daq]; exact hfresh.queue⟩
  obtain ⟨u, gs, k1, k2, k3, k4⟩ := block_rounds_run hp hbs ho xs hb (describes_right hd) hf (by omega)
  refine ⟨u, by rw [run_append, hrun]; exact k1, ?_, k4⟩
  rw [k2, h5, hf']
  have hnext : Blocks.after k ⟨⟨mem, 0, 0, true⟩, 0, 0⟩ (.request (.plain (.connect mode))) = ⟨⟨mem, 0, 0, true⟩, 0, 0⟩ := by
    simp [Blocks.after, Blocks.next, Remote.next, Remote.long, Remote.ends]
  refine Says.append (a := ([] ++ [f]) ++ fs) (says_answers ?_) k3
  show CarryAll cfg (([] ++ [f]) ++ fs) (Blocks.says k _ _ ++ Blocks.saysAll k (Blocks.after k _ _) _)
  rw [hnext]
  exact CarryAll.append (cs := [_]) ⟨hc, trivial⟩ h6

/-- A round: 2 bytes are measured; a block of 16 bytes is uploaded and one of 8 bytes downloaded while the measurement runs.  The application
writes a byte of the block that is still to be sent; the last packet of the download changes a byte that is measured. -/
def Ex.blockTurn : BTurn :=
  { plan := { lists := [[[(2, 0x1306)]]], events := [1], stamps := false }
    setup := ([[0xD6], [0xD5, 0, 1, 0], [0xD4, 0, 0, 0, 1], [0xD3, 0, 0, 0, 0, 1], [0xE2, 0, 0, 0, 0, 0], [0xE1, 0xFF, 2, 0, 6, 0x13, 0, 0],
      [0xE0, 0, 0, 0, 1, 0, 1, 0], [0xDE, 2, 0, 0], [0xDD, 1]]).map fun b => (Ex.env, ⟨b.length, b⟩)
    live := [.request (.plain (.setMta 0 0x1240)), .request (.plain (.upload 16)), .event 1, .write 0x1248 0xAA, .main, .event 1,
      .request (.plain .getStatus), .main, .request (.plain (.setMta 0 0x1300)), .request (.first 8 [1, 2, 3, 4, 5, 6]), .event 1,
      .request (.next 2 [7, 8]), .event 1].map fun h => (⟨Ex.env, 8, []⟩, h)
    stop := (Ex.env, ⟨2, [0xDD, 0, 0x55]⟩)
    rest := [.event 1, .request (.plain (.shortUpload 2 0 0x1305))].map fun h => (⟨Ex.env, 8, []⟩, h) }

/-- It is fine for the slave with both block modes. -/
example : AllBFine Ex.blocks Ex.blocksAbout ⟨⟨Ex.mem, 0, 0, true⟩, 0, 0⟩ [Ex.blockTurn] := by
  refine ⟨⟨⟨by decide, by decide, by decide, by decide, by decide, by decide, by decide, by decide⟩, ?_, by decide, rfl, ?_, by decide +kernel, ?_⟩, trivial⟩
  · have e : Ex.blockTurn.plan.setup false = Ex.blockTurn.setup.map (·.2.buf) := by decide +kernel
    rw [e]; simp [Ex.blockTurn, Begin]
  · simp only [Ex.blockTurn, List.map_cons, List.map_nil, BLive, BHappening.request.injEq, BHappening.event.injEq, forall_eq', reduceCtorEq,
      false_implies, implies_true, true_and, BLegal, Legal, and_true, BReq.plain.injEq]
    decide +kernel
  · simp only [Ex.blockTurn, List.map_cons, List.map_nil, AllBLegal, BHappening.request.injEq, forall_eq', reduceCtorEq,
      false_implies, implies_true, true_and, BLegal, Legal, and_true]
    decide +kernel

example : OffersDaq Ex.blocks ∧ blockTotal [Ex.blockTurn] = 4 := ⟨by unfold OffersDaq; decide, by decide⟩

/-- What is said while the measurement runs, when it is stopped and afterwards. -/
example : (blockRounds Ex.blocksAbout 0 ⟨⟨Ex.mem, 0, 0, true⟩, 0, 0⟩ [Ex.blockTurn.round]).drop 9 =
    [.answer [0xFF], .answer [0xFF, 0x40, 0x41, 0x42, 0x43, 0x44, 0x45, 0x46], .sample [0, 6, 7], .answer [0xFF, 0x47, 0xAA, 0x49, 0x4A, 0x4B, 0x4C, 0x4D],
     .sample [0, 6, 7], .answer [0xFE, 0x10], .answer [0xFF, 0x4E, 0x4F], .answer [0xFF], .sample [0, 6, 7], .answer [0xFF], .sample [0, 7, 8],
     .answer [0xFF], .answer [0xFF, 6, 7]] := by decide +kernel

/-- The slave says that. -/
example : Ex.obs Ex.blocks (Ex.c [0xFF] :: Ex.blockTurn.ops) (fun s => (s.tx.drop 10).map Frame.bytes) =
    some [[0xFF], [0xFF, 0x40, 0x41, 0x42, 0x43, 0x44, 0x45, 0x46], [0, 6, 7], [0xFF, 0x47, 0xAA, 0x49, 0x4A, 0x4B, 0x4C, 0x4D],
      [0, 6, 7], [0xFE, 0x10], [0xFF, 0x4E, 0x4F], [0xFF], [0, 6, 7], [0xFF], [0, 7, 8], [0xFF], [0xFF, 6, 7]] := by decide +kernel

end Xcp
