import Verif.Proofs.Measure
/-
C83: a measurement delivers the samples the tool asked for.

Proved for every measurement that fits in the slave, as long as at most four packets are sent since the
slave was started.  The fifth packet is fatal, in every measurement (`C83_fails`).
-/
set_option autoImplicit false
namespace Xcp
open Spec

/-- Bytes of a timestamp. -/
def Spec.stampSize (cfg : Cfg) : Nat := if cfg.timestamping then cfg.tsSize else 0

/-- The measurement fits in the slave: one event per list, each for itself and existing; pool elements for lists,
ODTs and entries; no empty ODT (SET_DAQ_PTR refuses those); packets that fit in MAX_DTO and 255
bytes; addresses below 2^31 unless signed arithmetic wraps (C45); no empty elements in builds with assertions. -/
structure Spec.Plan.Suits (p : Plan) (cfg : Cfg) : Prop where
  one : p.events.length = p.lists.length
  distinct : p.events.Nodup
  known : ∀ e ∈ p.events, e < cfg.numEvents
  room : p.conf.size ≤ cfg.maxEnt
  filled : ∀ x ∈ p.cells, x.2.2 ≠ []
  short : ∀ x ∈ p.cells, 1 + (if x.2.1 = 0 then stampSize cfg else 0) + (x.2.2.map fun e => e.1.toNat).sum ≤ cfg.maxDto ∧
    1 + (if x.2.1 = 0 then stampSize cfg else 0) + (x.2.2.map fun e => e.1.toNat).sum < 256
  defined : ∀ x ∈ p.cells, ∀ e ∈ x.2.2, cfg.wrapv = true ∨ e.2.toNat < 2 ^ 31
  positive : cfg.asserts = true → ∀ x ∈ p.cells, ∀ e ∈ x.2.2, 0 < e.1.toNat

/-- The slave offers the commands of the setup. -/
def Spec.OffersDaq (cfg : Cfg) : Prop :=
  ∀ c ∈ [Cmd.freeDaq, .allocDaq, .allocOdt, .allocOdtEntry, .setDaqPtr, .writeDaq, .setDaqListMode, .startStopDaqList, .startStopSynch],
    cfg.supports c = true

/-- The slave is connected, not measuring, DAQ is not locked, and `h` DAQ packets have been sent since it was started. -/
structure Spec.Fresh (cfg : Cfg) (s : St) (h : Nat) : Prop where
  ready : DaqReady cfg s
  stopped : s.daq.running = false
  init : s.daq.allocState ≠ .idle
  queue : Holds s.daq.queue [] h

/-- The measurement runs. -/
structure Measuring (cfg : Cfg) (p : Plan) (s : St) (h : Nat) : Prop where
  running : s.daq.running = true
  armed : Armed cfg p s
  queue : Holds s.daq.queue [] h

theorem le_sum_mem {n : Nat} : ∀ {l : List Nat}, n ∈ l → n ≤ l.sum
  | [], h => by cases h
  | a :: l, h => by
    rw [List.sum_cons]
    rcases List.mem_cons.mp h with rfl | h
    · omega
    · have := le_sum_mem h; omega

/-- After CONNECT the slave is in such a state. -/
theorem fresh_start {cfg : Cfg} (hprot : cfg.resourceProtection = false) (env : Env) (mem : Mem) {c : Pdu}
    (hc : code c = some 0xFF) :
    ∃ s, step cfg env (St.init cfg mem) (.cmd c) = .ok s ∧ Fresh cfg s 0 ∧ s.mem = mem := by
  have e : step cfg env (St.init cfg mem) (.cmd c) = connectRes cfg (bumpReceived cfg (St.init cfg mem)) := by
    have hcode := byte_of_code hc
    simp only [step, dispatch, hcode, ok_bind]
    rfl
  have hd : (bumpReceived cfg (St.init cfg mem)).daq = (St.init cfg mem).daq := by simp
  rw [e]
  refine ⟨_, rfl, ⟨⟨⟨rfl, by simp [St.init]⟩, by simp [St.init], by simp [Locked, hprot]⟩, ?_, ?_, ?_⟩, ?_⟩
  · show (bumpReceived cfg (St.init cfg mem)).daq.running = false
    rw [hd]; rfl
  · show (bumpReceived cfg (St.init cfg mem)).daq.allocState ≠ .idle
    rw [hd]
    show AllocState.afterFree ≠ _
    simp
  · show Holds (bumpReceived cfg (St.init cfg mem)).daq.queue [] 0
    rw [hd]
    exact holds_init
  · simp [St.init]

theorem setup_runs {cfg : Cfg} (hc : cfg.Ok) (hs : ShortOk cfg) (ho : OffersDaq cfg) {p : Plan} (hp : p.Suits cfg) {s : St} {h : Nat}
    (hf : Fresh cfg s h) {ps : List (Env × Pdu)} (hb : Begin ps (p.setup cfg.motorola)) :
    ∃ t, Talk cfg s t ps p.answers ∧ Measuring cfg p t h ∧ SameCore { s with daq := t.daq } t := by
  have hlt := hc.ent_lt
  have hroom := hp.room
  have hlists : p.lists.length < 256 := by
    have : p.conf.length = p.lists.length := by simp [Plan.conf]
    unfold Conf.size at hroom; omega
  have hodt : ∀ (l : Nat) (odts : Odts), p.lists[l]? = some odts → l < 256 ∧ odts.length < 256 ∧ ∀ (o : Nat) (es : List (UInt8 × UInt32)), odts[o]? = some es → es.length < 256 := by
    intro l odts hl
    have h1 : odts.map List.length ∈ p.conf := by
      apply List.mem_of_getElem? (i := l)
      simp [Plan.conf, hl]
    have h2 : (odts.map List.length).length + (odts.map List.length).sum ≤ (p.conf.map fun o => o.length + o.sum).sum :=
      le_sum_mem (List.mem_map.mpr ⟨_, h1, rfl⟩)
    have h3 := getElem?_lt hl
    have h4 : odts.length < 256 := by
      unfold Conf.size at hroom
      rw [List.length_map] at h2
      omega
    refine ⟨by omega, h4, ?_⟩
    intro o es ho
    have h5 : es.length ≤ (odts.map List.length).sum :=
      le_sum_mem (List.mem_map.mpr ⟨es, List.mem_of_getElem? ho, rfl⟩)
    unfold Conf.size at hroom
    omega
  have hcell : ∀ x ∈ p.cells, x.2.2 ≠ [] ∧ x.1 < 256 ∧ x.2.1 < 256 ∧ x.2.2.length < 256 := by
    intro x hx
    obtain ⟨l, o, es⟩ := x
    obtain ⟨odts, h1, h2⟩ := mem_cells.mp hx
    obtain ⟨a, b, c⟩ := hodt l odts h1
    exact ⟨hp.filled _ hx, a, Nat.lt_trans (getElem?_lt h2) b, c o es h2⟩
  have hsmall : ∀ r ∈ p.reqs, Small r := by
    intro r hr
    unfold Plan.reqs at hr
    rcases List.mem_append.mp hr with hr | hr
    · rcases List.mem_cons.mp hr with rfl | hr
      · exact hlists
      · obtain ⟨⟨odts, l⟩, hx, rfl⟩ := List.mem_map.mp hr
        obtain ⟨a, b, -⟩ := hodt l odts (List.mem_zipIdx_iff_getElem?.mp hx)
        exact ⟨a, b⟩
    · obtain ⟨x, hx, rfl⟩ := List.mem_map.mp hr
      obtain ⟨-, a, b, c⟩ := hcell x hx
      exact ⟨a, b, c⟩
  have hon : AllocOn cfg := by
    intro r
    cases r <;> exact ho _ (by simp [reqCmd])
  unfold Plan.setup at hb
  obtain ⟨ps, p5, rfl, hb, hb5⟩ := begin_append hb
  obtain ⟨ps, p4, rfl, hb, hb4⟩ := begin_append hb
  obtain ⟨ps, p3, rfl, hb, hb3⟩ := begin_append hb
  obtain ⟨p1, p2, rfl, hb1, hb2⟩ := begin_append hb
  rw [reserve_reqs] at hb1
  -- FREE_DAQ
  cases p1 with
  | nil => exact hb1.elim
  | cons x p1 =>
  obtain ⟨hx, hb1⟩ := hb1
  obtain ⟨t0, a1, a2, a3, a4, a5⟩ := free_one hs hon hf.ready hf.stopped hf.init hx
  -- allocation
  obtain ⟨g1, g2⟩ := plan_goes p
  have gs := goes_size g1
  rw [g2] at gs
  obtain ⟨t1, b1, b2, b3⟩ := alloc_all hc hs hon p.reqs a3.ready a3.stopped a4 (by rw [a5]; exact g1) (by rw [← gs]; exact hroom) hsmall hb1
  rw [g2] at b3
  -- elements
  obtain ⟨t2, c1, c2, c3, c4⟩ := stock_cells hc hs (ho _ (by simp)) (ho _ (by simp)) (fun x hx => ⟨(hcell x hx).1, (hcell x hx).2.1, (hcell x hx).2.2.1⟩)
    hp.defined p.cells (fun _ h => h) b2.ready b2.stopped b3.rep (done := fun _ _ _ => False) (fun _ _ _ _ _ _ _ h => h.elim) hb2
  have hload : Loaded cfg p t2 := ⟨c3, fun l o es k e h1 h2 _ => c4 l o es k e h1 h2 (Or.inr ⟨es, h1⟩)⟩
  -- events
  obtain ⟨t3, d1, d2, d3, d4, d5⟩ := assign_all hs (ho _ (by simp)) hp.known hc.ev_lt hp.distinct (by rw [hp.one]; exact hlists) p.events [] rfl
    c2.ready c2.stopped hload (by simp) (by simp) hb3
  -- selection
  obtain ⟨t4, e1, e2, e3⟩ := select_all hc hs (ho _ (by simp)) (List.range p.lists.length) (fun l hl => List.mem_range.mp hl) d2.ready d2.stopped
    ⟨d3, d4, d5⟩ hb4
  -- start
  match p5, hb5 with
  | [y], hb5 =>
    obtain ⟨t5, f1, f2, f3, f4, f5, f6⟩ := start_one hs (ho _ (by simp)) e2.ready e3 hb5.1
    have hcalm := (((a3.trans b2).trans c2).trans d2).trans e2
    refine ⟨t5, ?_, ⟨f3, f4, by rw [f5, hcalm.queue]; exact hf.queue⟩, sameCore_daq hcalm.rest f6⟩
    have htalk := (((((Talk.cons a1 a2 b1).append c1).append d1).append e1).append (Talk.one f1 f2))
    have : [0xFF] :: List.replicate p.reqs.length [0xFF] = List.replicate (2 + p.lists.length + p.cells.length) ([0xFF] : List UInt8) := by
      rw [← List.replicate_succ]
      congr 1
      simp [Plan.reqs]
      omega
    rw [this] at htalk
    exact htalk
  | _ :: _ :: _, hb5 => exact hb5.2.elim

/-! ### Sampling -/

theorem leVal_inj : ∀ {l : List UInt8} {n : Nat}, l.length = n → ∀ {v : Nat}, leVal l = v % 256 ^ n → l = leBytes n v
  | [], 0, _, _, _ => rfl
  | b :: bs, n + 1, hl, v, hv => by
    have h1 : leVal (b :: bs) = b.toNat + 256 * leVal bs := rfl
    have hb := b.toNat_lt
    have h2 : v % 256 ^ (n + 1) = v % 256 + 256 * (v / 256 % 256 ^ n) := by
      rw [Nat.pow_succ, Nat.mul_comm, Nat.mod_mul]
    have h3 : leVal bs = v / 256 % 256 ^ n := by omega
    have h4 : b.toNat = v % 256 := by omega
    have h5 := leVal_inj (l := bs) (n := n) (by simpa using hl) h3
    rw [h5]
    unfold leBytes
    rw [List.range_succ_eq_map, List.map_cons, List.map_map]
    congr 1
    · apply UInt8.toNat_inj.mp
      simp [h4]
    · apply List.map_congr_left
      intro i _
      simp [Nat.div_div_eq_div_mul, Nat.pow_succ, Nat.mul_comm]

/-- The operations of the application during the measurement. -/
def Spec.Plan.ops (p : Plan) (hs : List (Env × Moment)) : List (Env × Op) :=
  hs.map fun x => (x.1, match x.2 with
    | .event l => .trigger (UInt8.ofNat (p.events[l]?.getD 0))
    | .write a b => .appWrite a b)

theorem Measuring.entry {cfg : Cfg} {p : Plan} {s : St} {h : Nat} (hm : Measuring cfg p s h) {l o : Nat} {es : List (UInt8 × UInt32)}
    (hc : (l, o, es) ∈ p.cells) {k : Nat} {e : UInt8 × UInt32} (hk : es[k]? = some e) :
    (s.daq.entities (slot s.daq (.entry l o k))).len = e.1.toNat ∧ (s.daq.entities (slot s.daq (.entry l o k))).addr = e.2 :=
  hm.armed.loaded.written l o es k e hc hk trivial

theorem Measuring.range {cfg : Cfg} {p : Plan} {s : St} {h : Nat} (hm : Measuring cfg p s h) {l o : Nat} {es : List (UInt8 × UInt32)}
    (hc : (l, o, es) ∈ p.cells) : (List.range es.length).map (fun k => (s.daq.entities (slot s.daq (.entry l o k))).len) = es.map (fun e => e.1.toNat) := by
  apply List.ext_getElem?
  intro k
  by_cases hk : k < es.length
  · have h1 : es[k]? = some es[k] := List.getElem?_eq_getElem hk
    simp [hk, (hm.entry hc h1).1]
  · rw [List.getElem?_eq_none (by simp; omega), List.getElem?_eq_none (by simp; omega)]

theorem Measuring.bytes {cfg : Cfg} {p : Plan} {s : St} {h : Nat} (hm : Measuring cfg p s h) {l o : Nat} {es : List (UInt8 × UInt32)}
    (hc : (l, o, es) ∈ p.cells) : (List.range es.length).flatMap (entryBytes s l o) = es.flatMap fun e => bytesAt s.mem e.2 e.1.toNat := by
  have e1 : (List.range es.length).map (entryBytes s l o) = es.map fun e => bytesAt s.mem e.2 e.1.toNat := by
    apply List.ext_getElem?
    intro k
    by_cases hk : k < es.length
    · have h1 : es[k]? = some es[k] := List.getElem?_eq_getElem hk
      obtain ⟨h2, h3⟩ := hm.entry hc h1
      simp only [List.getElem?_map, List.getElem?_range hk, h1, Option.map_some, entryBytes, h2, h3]
      rfl
    · rw [List.getElem?_eq_none (by simp; omega), List.getElem?_eq_none (by simp; omega)]
  rw [List.flatMap_def, e1, List.flatMap_def]

theorem Measuring.lens {cfg : Cfg} {p : Plan} (hp : p.Suits cfg) {s : St} {h : Nat} (hm : Measuring cfg p s h) {l : Nat} {odts : Odts}
    (hl : p.lists[l]? = some odts) :
    (∀ j m k, (odts.map List.length)[j]? = some m → k < m → cfg.asserts = true → 0 < (s.daq.entities (slot s.daq (.entry l j k))).len) ∧
    ∀ j m, (odts.map List.length)[j]? = some m → packetLen cfg s l j m ≤ cfg.maxDto ∧ packetLen cfg s l j m < 256 := by
  constructor
  · intro j m k hj hk ha
    obtain ⟨es, h1, rfl⟩ := by simpa using hj
    have hcell : (l, j, es) ∈ p.cells := mem_cells.mpr ⟨odts, hl, h1⟩
    have h2 : es[k]? = some es[k] := List.getElem?_eq_getElem hk
    rw [(hm.entry hcell h2).1]
    exact hp.positive ha _ hcell _ (List.mem_of_getElem? h2)
  · intro j m hj
    obtain ⟨es, h1, rfl⟩ := by simpa using hj
    have hcell : (l, j, es) ∈ p.cells := mem_cells.mpr ⟨odts, hl, h1⟩
    have h3 := hp.short _ hcell
    have h4 : packetLen cfg s l j es.length = 1 + (if j = 0 then stampSize cfg else 0) + (es.map fun e => e.1.toNat).sum := by
      unfold packetLen stampSize
      rw [hm.range hcell]
      by_cases hj0 : j = 0 <;> cases cfg.timestamping <;> simp [hj0]
    rw [h4]; exact h3

theorem Measuring.packet {cfg : Cfg} {p : Plan} {s : St} {h : Nat} (hm : Measuring cfg p s h) (hne : p.events ≠ []) {env : Env} {l o : Nat}
    {es : List (UInt8 × UInt32)} (hc : (l, o, es) ∈ p.cells) {bs : List UInt8} (hb : Packet cfg env s p.conf l o es.length bs) :
    bs = UInt8.ofNat (p.conf.firstPid l + o) :: (if p.stamps = true ∧ o = 0 then enc false (stampSize cfg) env.timer.toNat else []) ++
      es.flatMap fun e => bytesAt s.mem e.2 e.1.toNat := by
  obtain ⟨ts, h1, h2⟩ := hb
  rw [hm.bytes hc] at h2
  rw [h2]
  have hmode := hm.armed.mode hne
  have hst : timestamped cfg s ↔ cfg.timestamping = true ∧ p.stamps = true := by
    unfold timestamped
    rw [hmode]
    unfold Plan.mode
    cases p.stamps <;> simp
  congr 2
  by_cases h0 : o = 0
  · rw [if_pos h0] at h1
    by_cases h3 : cfg.timestamping = true
    · by_cases h4 : p.stamps = true
      · obtain ⟨a, b⟩ := h1.1 (hst.mpr ⟨h3, h4⟩)
        rw [if_pos ⟨h4, h0⟩]
        simp only [stampSize, h3, if_true]
        rw [← leBytes_enc]
        exact leVal_inj a b
      · rw [if_neg (fun x => h4 x.1)]
        exact h1.2 (fun x => h4 (hst.mp x).2)
    · have : ts = [] := h1.2 (fun x => h3 (hst.mp x).1)
      rw [this]
      simp [stampSize, h3, enc]
  · rw [if_neg h0] at h1
    rw [if_neg (fun x => h0 x.2)]
    exact h1

/-- An event of a list. -/
theorem event_one {cfg : Cfg} (hc : cfg.Ok) (hdaq : cfg.daq = true) {p : Plan} (hp : p.Suits cfg) (env : Env) {s : St} {h : Nat}
    (hm : Measuring cfg p s h) {l : Nat} (hl : l < p.lists.length) (hroom : h + p.odts l ≤ 4) :
    ∃ t fs, step cfg env s (.trigger (UInt8.ofNat (p.events[l]?.getD 0))) = .ok t ∧ t.tx = s.tx ++ fs ∧
      Dtos cfg fs (p.packets (stampSize cfg) s.mem env.timer.toNat l) ∧ Measuring cfg p t (h + p.odts l) ∧ t.mem = s.mem := by
  obtain ⟨odts, hodts⟩ : ∃ odts, p.lists[l]? = some odts := ⟨p.lists[l], List.getElem?_eq_getElem hl⟩
  obtain ⟨ev, hev⟩ : ∃ ev, p.events[l]? = some ev := ⟨p.events[l]'(by rw [hp.one]; exact hl), List.getElem?_eq_getElem _⟩
  have hk := hp.known ev (List.mem_of_getElem? hev)
  have hevlt := hc.ev_lt
  have hu : (UInt8.ofNat ev).toNat = ev := u8n (by omega)
  have hn : p.odts l = odts.length := by simp [Plan.odts, hodts]
  have hne : p.events ≠ [] := by intro h; rw [h] at hev; simp at hev
  obtain ⟨hpos, hlen⟩ := hm.lens hp hodts
  rw [hev, Option.getD_some]
  obtain ⟨t, fs, ps, h1, h2, h3, h4, h5, h6, q, h7, h8⟩ := C33_event_partial hc env hdaq hm.running hm.armed.loaded.rep (ev := UInt8.ofNat ev)
    (by rw [hu]; exact hk) (l := l) (by rw [hu]; exact hm.armed.events l ev hev) (odts := odts.map List.length)
    (by simp [Plan.conf, hodts]) hpos hlen hm.queue (by rw [List.length_map, ← hn]; exact hroom)
  have hps : ps = p.packets (stampSize cfg) s.mem env.timer.toNat l := by
    apply List.ext_getElem?
    intro o
    unfold Plan.packets
    rw [hodts, Option.getD_some]
    by_cases ho : o < odts.length
    · have h9 : odts[o]? = some odts[o] := List.getElem?_eq_getElem ho
      obtain ⟨bs, k1, k2⟩ := h5 o odts[o].length (by simp [h9])
      rw [k1, hm.packet hne (mem_cells.mpr ⟨odts, hodts, h9⟩) k2]
      simp [h9]
    · rw [List.getElem?_eq_none (by rw [h4]; simp; omega), List.getElem?_eq_none (by simp; omega)]
  refine ⟨t, fs, h1, h2, hps ▸ h3, ⟨?_, ⟨hm.armed.loaded.pool ?_, ?_, ?_⟩, ?_⟩, h6⟩
  · rw [h7]; exact hm.running
  · rw [h7]; exact ⟨rfl, rfl, rfl, rfl, rfl⟩
  · rw [h7]; exact hm.armed.events
  · rw [h7]; exact hm.armed.mode
  · rw [h7, hn]; simpa using h8

theorem dtos_append {cfg : Cfg} {a b : List Frame} {x y : List (List UInt8)} (h : Dtos cfg a x) (h' : Dtos cfg b y) : Dtos cfg (a ++ b) (x ++ y) := by
  refine ⟨?_, by rw [List.map_append, h.2, h'.2]⟩
  intro f hf
  rcases List.mem_append.mp hf with hf | hf
  · exact h.1 f hf
  · exact h'.1 f hf

theorem write_moment {cfg : Cfg} {p : Plan} (env : Env) {s : St} {h : Nat} (hm : Measuring cfg p s h) (a : UInt32) (b : UInt8) :
    ∃ t, step cfg env s (.appWrite a b) = .ok t ∧ t.tx = s.tx ∧ Measuring cfg p t h ∧ t.mem = Moment.mem s.mem (.write a b) := by
  refine ⟨_, rfl, rfl, ⟨hm.running, ⟨hm.armed.loaded.pool (.refl _), hm.armed.events, hm.armed.mode⟩, hm.queue⟩, ?_⟩
  show s.mem.write a [b] = _
  funext x
  unfold Mem.write Moment.mem
  by_cases hx : x = a
  · subst hx; simp
  · have : (x - a).toNat ≠ 0 := by
      intro h0
      apply hx
      have h1 : x - a = 0 := UInt32.toNat_inj.mp (by simpa using h0)
      have h2 : x = (x - a) + a := by simp
      rw [h2, h1]; simp
    rw [List.getD_eq_getElem?_getD, List.getElem?_eq_none (by simp; omega)]
    show s.mem x = if x = a then b else s.mem x
    rw [if_neg hx]


/-- A measurement while it runs. -/
theorem moments_run {cfg : Cfg} (hc : cfg.Ok) (hdaq : cfg.daq = true) {p : Plan} (hp : p.Suits cfg) : ∀ (hs : List (Env × Moment)) {s : St} {h : Nat},
    Measuring cfg p s h → (∀ x ∈ hs, ∀ l, x.2 = .event l → l < p.lists.length) → h + p.count (hs.map (·.2)) ≤ 4 →
    ∃ t fs, run cfg s (p.ops hs) = .ok t ∧ t.tx = s.tx ++ fs ∧
      Dtos cfg fs (p.samples (stampSize cfg) s.mem (hs.map fun x => (x.1.timer.toNat, x.2))) ∧ t.mem = (hs.map (·.2)).foldl Moment.mem s.mem
  | [], s, h, _, _, _ => ⟨s, [], rfl, by simp, ⟨by simp, rfl⟩, rfl⟩
  | (env, .event l) :: hs, s, h, hm, hl, hcnt => by
    simp only [List.map_cons, Plan.count] at hcnt
    obtain ⟨t, fs, h1, h2, h3, h4, h5⟩ := event_one hc hdaq hp env hm (hl (env, .event l) (by simp) l rfl) (by omega)
    obtain ⟨u, gs, k1, k2, k3, k4⟩ := moments_run hc hdaq hp hs h4 (fun x hx => hl x (by simp [hx])) (by omega)
    refine ⟨u, fs ++ gs, ?_, by rw [k2, h2, List.append_assoc], ?_, ?_⟩
    · have : p.ops ((env, .event l) :: hs) = (env, .trigger (UInt8.ofNat (p.events[l]?.getD 0))) :: p.ops hs := rfl
      rw [this, run, h1]
      exact k1
    · rw [h5] at k3
      exact dtos_append h3 k3
    · rw [k4, h5]; rfl
  | (env, .write a b) :: hs, s, h, hm, hl, hcnt => by
    simp only [List.map_cons, Plan.count] at hcnt
    obtain ⟨t, h1, h2, h3, h4⟩ := write_moment env hm a b
    obtain ⟨u, gs, k1, k2, k3, k4⟩ := moments_run hc hdaq hp hs h3 (fun x hx => hl x (by simp [hx])) (by omega)
    refine ⟨u, gs, ?_, by rw [k2, h2], ?_, ?_⟩
    · have : p.ops ((env, .write a b) :: hs) = (env, .appWrite a b) :: p.ops hs := rfl
      rw [this, run, h1]
      exact k1
    · rw [h4] at k3
      exact k3
    · rw [k4, h4]; rfl

/-! ### The fifth packet -/

/-- The ODT loop when the packets do not fit: all but the first four are dropped if the queue was never used, otherwise
the fifth one since the start is written behind the queue. -/
theorem sample_over {cfg : Cfg} (hc : cfg.Ok) {env : Env} {s : St} {c : Conf} (hr : Rep cfg s.daq c) {l : Nat} {odts : List Nat}
    (hl : c[l]? = some odts)
    (hpos : ∀ j m k, odts[j]? = some m → k < m → cfg.asserts = true → 0 < (s.daq.entities (slot s.daq (.entry l j k))).len)
    (hlen : ∀ j m, odts[j]? = some m → packetLen cfg s l j m ≤ cfg.maxDto ∧ packetLen cfg s l j m < 256)
    {h : Nat} {q : Queue} (hq : Holds q [] h) :
    ∀ n, n ≤ odts.length → 4 ≤ h + n →
      (h = 0 → ∃ q' ps, (List.range n).foldlM (sampleList cfg env s l) (c.firstPid l, q) = .ok (c.firstPid l + n, q') ∧ Holds q' ps 4 ∧
        ps.length = 4 ∧ ∀ bs ∈ ps, Fits cfg bs) ∧
      (0 < h → 4 < h + n → (List.range n).foldlM (sampleList cfg env s l) (c.firstPid l, q) = .error .queueOob) := by
  intro n
  induction n with
  | zero => intro _ h4; exact ⟨fun h0 => by omega, fun _ h5 => by have := hq.limit; omega⟩
  | succ n ih =>
    intro hn h4
    obtain ⟨m, hm⟩ : ∃ m, odts[n]? = some m := ⟨odts[n], List.getElem?_eq_getElem (by omega)⟩
    obtain ⟨bs, eb, hb, hb0, hb1⟩ := sample_odt hc (env := env) hr hl hm (hpos n m · hm) (hlen n m hm).1
    have hpid : (c.firstPid l + n + 1) % 256 = c.firstPid l + (n + 1) := by
      have h1 := firstPid_succ hl
      have h2 := firstPid_le c (l + 1)
      have h3 := hr.odts_lt hc
      rw [Nat.mod_eq_of_lt (by omega)]; omega
    constructor
    · intro h0
      subst h0
      by_cases h5 : n + 1 = 4
      · obtain ⟨q', ps, e, hh, -, hps, hfit, -⟩ := sample_list hc (env := env) hr hl hpos hlen hq (n + 1) hn (by omega)
        exact ⟨q', ps, e, by rw [show 0 + (n + 1) = 4 by omega] at hh; exact hh, by omega, hfit⟩
      · obtain ⟨q', ps, e, hh, hps, hfit⟩ := (ih (by omega) (by omega)).1 rfl
        obtain ⟨e', hh'⟩ := enqueue_full (cfg := cfg) hh hps bs
        refine ⟨_, ps, ?_, hh', hps, hfit⟩
        rw [foldlM_range_succ, e]
        show sampleList cfg env s l (c.firstPid l + n, q') n = _
        unfold sampleList
        simp only [eb, ok_bind, e', hpid]
        rfl
    · intro hh0 h5
      rw [foldlM_range_succ]
      by_cases h6 : h + n = 4
      · obtain ⟨q', ps, e, hh, -, hps, hfit, -⟩ := sample_list hc (env := env) hr hl hpos hlen hq n (by omega) (by omega)
        rw [e]
        show sampleList cfg env s l (c.firstPid l + n, q') n = _
        unfold sampleList
        rw [h6] at hh
        simp only [eb, ok_bind, enqueue_oob (cfg := cfg) hh (by omega) bs]
        rfl
      · have := hq.limit
        rw [(ih (by omega) (by omega)).2 hh0 (by omega)]
        rfl

/-- An event whose packets do not fit. -/
theorem event_over {cfg : Cfg} (hc : cfg.Ok) (hdaq : cfg.daq = true) {p : Plan} (hp : p.Suits cfg) (env : Env) {s : St} {h : Nat}
    (hm : Measuring cfg p s h) {l : Nat} (hl : l < p.lists.length) (hroom : 4 < h + p.odts l) :
    step cfg env s (.trigger (UInt8.ofNat (p.events[l]?.getD 0))) = .error .queueOob ∨
    h = 0 ∧ ∃ t, step cfg env s (.trigger (UInt8.ofNat (p.events[l]?.getD 0))) = .ok t ∧ Measuring cfg p t 4 := by
  obtain ⟨odts, hodts⟩ : ∃ odts, p.lists[l]? = some odts := ⟨p.lists[l], List.getElem?_eq_getElem hl⟩
  obtain ⟨ev, hev⟩ : ∃ ev, p.events[l]? = some ev := ⟨p.events[l]'(by rw [hp.one]; exact hl), List.getElem?_eq_getElem _⟩
  have hk := hp.known ev (List.mem_of_getElem? hev)
  have hevlt := hc.ev_lt
  have hu : (UInt8.ofNat ev).toNat = ev := u8n (by omega)
  have hn : p.odts l = odts.length := by simp [Plan.odts, hodts]
  obtain ⟨hpos, hlen⟩ := hm.lens hp hodts
  have hr := hm.armed.loaded.rep
  have hcl : p.conf[l]? = some (odts.map List.length) := by simp [Plan.conf, hodts]
  obtain ⟨g1, g2⟩ := sample_over hc (env := env) hr hcl hpos hlen hm.queue odts.length (by simp) (by omega)
  rw [hev, Option.getD_some]
  have est : step cfg env s (.trigger (UInt8.ofNat ev)) =
      ((List.range odts.length).foldlM (sampleList cfg env s l) (p.conf.firstPid l, s.daq.queue)).bind
        (fun x => transmit cfg (queueSize + 1) { s with daq := { s.daq with queue := x.2 } }) := by
    simp only [step, hdaq, if_true]
    unfold triggerEvent
    rw [if_neg (by simp [hm.running]), if_neg (by rw [Nat.mod_eq_of_lt hc.ev_lt, hu]; omega), hu, hm.armed.events l ev hev]
    simp only [hr.firstPid hc (getElem?_lt hcl)]
    simp only [ok_bind, hr.ent_list (getElem?_lt hcl), hr.listNum l _ hcl, List.length_map]
    rfl
  rw [est]
  by_cases h0 : h = 0
  · refine Or.inr ⟨h0, ?_⟩
    obtain ⟨q', ps, e, hh, hps, hfit⟩ := g1 h0
    obtain ⟨t, fs, et, htx, hd, hh', _⟩ := transmit_holds (cfg := cfg) (queueSize + 1) (s := { s with daq := { s.daq with queue := q' } })
      hh (by unfold queueSize; omega) hfit
    rw [e]
    refine ⟨t, et, ?_⟩
    have heff : TrigEff s t := by
      have h1 : triggerEvent cfg env s (UInt8.ofNat ev).toNat = .ok t := by
        have h2 : step cfg env s (.trigger (UInt8.ofNat ev)) = .ok t := by rw [est, e]; exact et
        simpa only [step, hdaq, if_true] using h2
      exact trigger_eff env _ t h1
    obtain ⟨q, h7⟩ := heff.daq
    refine ⟨?_, ⟨hm.armed.loaded.pool ?_, ?_, ?_⟩, hh'⟩
    · rw [h7]; exact hm.running
    · rw [h7]; exact ⟨rfl, rfl, rfl, rfl, rfl⟩
    · rw [h7]; exact hm.armed.events
    · rw [h7]; exact hm.armed.mode
  · rw [g2 (by omega) (by omega)]
    exact Or.inl rfl

/-- The number of events in a history. -/
def Spec.eventCount : List Moment → Nat
  | [] => 0
  | .event _ :: hs => 1 + eventCount hs
  | .write _ _ :: hs => eventCount hs

theorem moments_fail {cfg : Cfg} (hc : cfg.Ok) (hdaq : cfg.daq = true) {p : Plan} (hp : p.Suits cfg) : ∀ (hs : List (Env × Moment)) {s : St} {h : Nat},
    Measuring cfg p s h → (∀ x ∈ hs, ∀ l, x.2 = .event l → l < p.lists.length ∧ 0 < p.odts l) → 4 < h + eventCount (hs.map (·.2)) →
    run cfg s (p.ops hs) = .error .queueOob
  | [], s, h, hm, _, hcnt => by
    have := hm.queue.limit
    simp [eventCount] at hcnt; omega
  | (env, .event l) :: hs, s, h, hm, hl, hcnt => by
    simp only [List.map_cons, eventCount] at hcnt
    have hlim := hm.queue.limit
    obtain ⟨hl1, hl2⟩ := hl (env, .event l) (by simp) l rfl
    have hops : p.ops ((env, .event l) :: hs) = (env, .trigger (UInt8.ofNat (p.events[l]?.getD 0))) :: p.ops hs := rfl
    rw [hops, run]
    by_cases hr : h + p.odts l ≤ 4
    · obtain ⟨t, fs, h1, -, -, h4, -⟩ := event_one hc hdaq hp env hm hl1 hr
      rw [h1]
      exact moments_fail hc hdaq hp hs h4 (fun x hx => hl x (by simp [hx])) (by omega)
    · rcases event_over hc hdaq hp env hm hl1 (by omega) with h1 | ⟨h0, t, h1, h4⟩
      · rw [h1]; rfl
      · rw [h1]
        exact moments_fail hc hdaq hp hs h4 (fun x hx => hl x (by simp [hx])) (by omega)
  | (env, .write a b) :: hs, s, h, hm, hl, hcnt => by
    simp only [List.map_cons, eventCount] at hcnt
    obtain ⟨t, h1, h2, h3, h4⟩ := write_moment env hm a b
    have hops : p.ops ((env, .write a b) :: hs) = (env, .appWrite a b) :: p.ops hs := rfl
    rw [hops, run, h1]
    exact moments_fail hc hdaq hp hs h3 (fun x hx => hl x (by simp [hx])) (by omega)

/-- C83, partial: a slave that is connected (`Fresh`) gets the commands of a measurement.  It accepts all of them, with the
packet numbers the tool expects; then, in every history of events and writes by the application with so few events that
not more than four packets are sent since the start of the slave, it sends exactly the samples
the tool asked for, and does not change the memory. -/
theorem C83_measurement_partial {cfg : Cfg} (hc : cfg.Ok) (hs : ShortOk cfg) (ho : OffersDaq cfg) {p : Plan} (hp : p.Suits cfg) {s : St} {h : Nat}
    (hf : Fresh cfg s h) {ps : List (Env × Pdu)} (hb : Begin ps (p.setup cfg.motorola)) {hist : List (Env × Moment)}
    (hl : ∀ x ∈ hist, ∀ l, x.2 = .event l → l < p.lists.length) (hcnt : h + p.count (hist.map (·.2)) ≤ 4) :
    ∃ t fs gs, run cfg s ((ps.map fun x => (x.1, .cmd x.2)) ++ p.ops hist) = .ok t ∧ t.tx = s.tx ++ fs ++ gs ∧
      CarryAll cfg fs p.answers ∧
      Dtos cfg gs (p.samples (stampSize cfg) s.mem (hist.map fun x => (x.1.timer.toNat, x.2))) ∧
      t.mem = (hist.map (·.2)).foldl Moment.mem s.mem := by
  obtain ⟨t, ⟨h1, fs, h2, h3⟩, h4, h5⟩ := setup_runs hc hs ho hp hf hb
  have hdaq : cfg.daq = true := by
    have := ho .freeDaq (by simp)
    simp [Cfg.supports, Cmd.group] at this
    exact this.1
  obtain ⟨u, gs, k1, k2, k3, k4⟩ := moments_run hc hdaq hp hist h4 hl hcnt
  rw [show t.mem = s.mem from h5.mem] at k3 k4
  refine ⟨u, fs, gs, ?_, by rw [k2, h2], h3, k3, k4⟩
  rw [run_append, h1]
  exact k1

/-- CONNECT after start-up leads to such a state. -/
theorem C83_start {cfg : Cfg} (hprot : cfg.resourceProtection = false) (env : Env) (mem : Mem) {c : Pdu}
    (hc : code c = some 0xFF) : ∃ s, run cfg (St.init cfg mem) [(env, .cmd c)] = .ok s ∧ Fresh cfg s 0 ∧ s.mem = mem := by
  obtain ⟨s, h1, h2⟩ := fresh_start hprot env mem hc
  refine ⟨s, ?_, h2⟩
  simp only [run, h1]
  rfl

/-- C83 is false in general: no measurement survives five events.  Whatever is measured, if all
lists that are sampled have at least one ODT, the slave writes outside its packet queue by the fifth event at the latest. -/
theorem C83_fails {cfg : Cfg} (hc : cfg.Ok) (hs : ShortOk cfg) (ho : OffersDaq cfg) {p : Plan} (hp : p.Suits cfg) {s : St} {h : Nat}
    (hf : Fresh cfg s h) {ps : List (Env × Pdu)} (hb : Begin ps (p.setup cfg.motorola)) {hist : List (Env × Moment)}
    (hl : ∀ x ∈ hist, ∀ l, x.2 = .event l → l < p.lists.length ∧ 0 < p.odts l) (hcnt : 5 ≤ h + eventCount (hist.map (·.2))) :
    run cfg s ((ps.map fun x => (x.1, .cmd x.2)) ++ p.ops hist) = .error .queueOob := by
  obtain ⟨t, ⟨h1, -⟩, h4, -⟩ := setup_runs hc hs ho hp hf hb
  have hdaq : cfg.daq = true := by
    have := ho .freeDaq (by simp)
    simp [Cfg.supports, Cmd.group] at this
    exact this.1
  rw [run_append, h1]
  exact moments_fail hc hdaq hp hist h4 hl hcnt

/-- Two lists: one with two ODTs of two and one elements at event 2, one with one ODT at event 0. -/
def Ex.plan : Plan :=
  { lists := [[[(2, 0x10), (1, 0x20)], [(4, 0x30)]], [[(1, 0x40)]]], events := [2, 0], stamps := true }

/-- It fits in the simulator with timestamps. -/
example : Ex.plan.Suits { Ex.sim with timestamping := true } :=
  ⟨by decide, by decide, by decide, by decide, by decide, by decide, by decide, by decide⟩

example : OffersDaq { Ex.sim with timestamping := true } := by unfold OffersDaq; decide

/-- Its commands. -/
example : Ex.plan.setup false =
    [[0xD6], [0xD5, 0, 2, 0], [0xD4, 0, 0, 0, 2], [0xD4, 0, 1, 0, 1],
     [0xD3, 0, 0, 0, 0, 2], [0xD3, 0, 0, 0, 1, 1], [0xD3, 0, 1, 0, 0, 1],
     [0xE2, 0, 0, 0, 0, 0], [0xE1, 0xFF, 2, 0, 0x10, 0, 0, 0], [0xE1, 0xFF, 1, 0, 0x20, 0, 0, 0],
     [0xE2, 0, 0, 0, 1, 0], [0xE1, 0xFF, 4, 0, 0x30, 0, 0, 0], [0xE2, 0, 1, 0, 0, 0], [0xE1, 0xFF, 1, 0, 0x40, 0, 0, 0],
     [0xE0, 0x10, 0, 0, 2, 0, 1, 0], [0xE0, 0x10, 1, 0, 0, 0, 1, 0], [0xDE, 2, 0, 0], [0xDE, 2, 1, 0], [0xDD, 1]] := by decide +kernel

/-- A measurement from start-up: the memory is changed between two events. -/
example : Ex.obs { Ex.sim with timestamping := true } (Ex.c [0xFF] :: (Ex.plan.setup false).map Ex.c ++
      Ex.plan.ops [(Ex.env, .event 0), (Ex.env, .write 0x40 0xAB), (Ex.env, .event 1)])
    (fun s => (s.tx.filter (·.kind == .dto)).map fun f => f.bytes.drop 4) =
    some [[0, 0x78, 0x56, 0x34, 0x12, 0x10, 0x11, 0x20], [1, 0x30, 0x31, 0x32, 0x33], [2, 0x78, 0x56, 0x34, 0x12, 0xAB]] := by decide +kernel

/-- These are the packets asked for. -/
example : Ex.plan.samples 4 Ex.mem [(0x12345678, .event 0), (0, .write 0x40 0xAB), (0x12345678, .event 1)] =
    [[0, 0x78, 0x56, 0x34, 0x12, 0x10, 0x11, 0x20], [1, 0x30, 0x31, 0x32, 0x33], [2, 0x78, 0x56, 0x34, 0x12, 0xAB]] := by decide +kernel

/-- The next event of the first list is the end. -/
example : Ex.faultOf { Ex.sim with timestamping := true } (Ex.c [0xFF] :: (Ex.plan.setup false).map Ex.c ++
      Ex.plan.ops [(Ex.env, .event 0), (Ex.env, .event 1), (Ex.env, .event 0)]) = some .queueOob := by decide +kernel

end Xcp
