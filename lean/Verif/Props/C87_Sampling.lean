import Verif.Model.Sampler
import Verif.Props.C83_Measurement
/-
C87: an event is sampled correctly whatever other threads do meanwhile.

The statement: the packets of an event are those of the memory at one moment of the event (`Plan.packets`), although
other threads execute commands and change the memory meanwhile.

Refuted: `C87_fails_torn` (the bytes of one element are of two moments), `C87_fails_shared` and `C87_fails_mixed`
(`XcpDaq_ListConfiguration` is one variable for all threads: a question of the tool about another list changes number
and contents of the packets), `C87_fails_stopped` (a tool that stops the measurement and changes it again while the
last event is still processed: copying beyond the end of the packet).

Proved (partial): if the other threads leave the configuration of the lists and `XcpDaq_ListConfiguration` alone, the
packets are complete, every byte is the one in memory when it was copied, and the elements are copied in the order of
the lists (`C87_sampling_partial`).  If nobody writes to an element while it is copied, its value is that of one moment
(`C87_element`); if nobody writes to the elements at all, the packets are those of `Plan.packets`
(`C87_quiet_partial`).  Without other threads all this is the model of the other theorems, errors included (`C87_alone`).
-/
set_option autoImplicit false
namespace Xcp
open Spec

/-- An element copied byte by byte: byte `i` is read at time `t + i`. -/
def Spec.seen (mem : Nat → Mem) (t : Nat) (e : UInt8 × UInt32) : List UInt8 :=
  (List.range e.1.toNat).map fun i => mem (t + i) (e.2 + UInt32.ofNat i)

/-- The packets of list `l` when the memory changes during the event: copying element `k` of ODT `j` starts at
time `τ j k`.  Otherwise as `Plan.packets`. -/
def Spec.Plan.over (ts : Nat) (p : Plan) (mem : Nat → Mem) (τ : Nat → Nat → Nat) (timer l : Nat) : List (List UInt8) :=
  (p.lists[l]?.getD []).zipIdx.map fun y =>
    UInt8.ofNat (p.conf.firstPid l + y.2) :: (if p.stamps = true ∧ y.2 = 0 then enc false ts timer else []) ++
      y.1.zipIdx.flatMap fun x => seen mem (τ y.2 x.2) x.1

/-- The elements of a list are copied one after the other, between `t` and `T`. -/
def Spec.InTurn (odts : List (List (UInt8 × UInt32))) (τ : Nat → Nat → Nat) (t T : Nat) : Prop :=
  ∀ j es k e, odts[j]? = some es → es[k]? = some e → t ≤ τ j k ∧ τ j k + e.1.toNat ≤ T ∧
    (∀ k', k < k' → k' < es.length → τ j k + e.1.toNat ≤ τ j k') ∧
    ∀ j' es' k', j < j' → odts[j']? = some es' → k' < es'.length → τ j k + e.1.toNat ≤ τ j' k'

/-- What the other threads leave alone while an event of list `l` is processed: the configuration of the lists,
and `XcpDaq_ListConfiguration`, which they may use for list `l` itself if that is the first one. -/
structure Spec.Settled (s : St) (l : Nat) (o : Others) : Prop where
  pool : ∀ t, (o.daq t).entities = s.daq.entities
  count : ∀ t, (o.daq t).listCount = s.daq.listCount
  mode : ∀ t, (o.daq t).mode = s.daq.mode
  events : ∀ t, (o.daq t).listForEvent = s.daq.listForEvent
  running : ∀ t, (o.daq t).running = s.daq.running
  first : ∀ t c, (o.conf t c).first = c.first ∨ (o.conf t c).first = (s.daq.entities l).first
  num : ∀ t c, (o.conf t c).num = c.num ∨ (o.conf t c).num = (s.daq.entities l).num
  alone : l = 0 ∨ ∀ t c, o.conf t c = c

theorem sbind_ok {α β : Type} {m : Sampling α} {f : α → Sampling β} {x x' : Nat × ListConf} {a : α} (h : m x = .ok (a, x')) :
    (m >>= f) x = f a x' := by
  show (m x >>= fun p => f p.1 p.2) = _
  rw [h]; rfl

theorem sbind_err {α β : Type} {m : Sampling α} {f : α → Sampling β} {x : Nat × ListConf} {e : Fault} (h : m x = .error e) :
    (m >>= f) x = .error e := by
  show (m x >>= fun p => f p.1 p.2) = _
  rw [h]; rfl

section
variable {cfg : Cfg} {s : St} {l : Nat} {o : Others}

theorem ent_run (ho : Settled s l o) {α : Type} {i : Nat} (hi : i < cfg.maxEnt) (f : Entity → α) (t : Nat) (c : ListConf) :
    o.ent cfg i f (t, c) = .ok (f (s.daq.entities i), t + 1, o.conf t c) := by
  unfold Others.ent Others.look Daq.ent
  simp only [if_pos hi, ho.pool]
  rfl

theorem Spec.Settled.keepNum (ho : Settled s l o) {c : ListConf} (h : c.num = (s.daq.entities l).num) (t : Nat) :
    (o.conf t c).num = (s.daq.entities l).num := by
  rcases ho.num t c with h' | h'
  · rw [h', h]
  · exact h'

theorem Spec.Settled.keepFirst (ho : Settled s l o) {c : ListConf} (h : c.first = (s.daq.entities l).first) (t : Nat) :
    (o.conf t c).first = (s.daq.entities l).first := by
  rcases ho.first t c with h' | h'
  · rw [h', h]
  · exact h'

theorem set_run (o : Others) (f : ListConf → ListConf) (t : Nat) (c : ListConf) :
    o.setConf f (t, c) = .ok ((), t + 1, f (o.conf t c)) := rfl

theorem getConf_run (o : Others) (f : ListConf → Nat) (t : Nat) (c : ListConf) :
    o.getConf f (t, c) = .ok (f (o.conf t c), t + 1, o.conf t c) := rfl

theorem listConf_run (ho : Settled s l o) {i : Nat} (hi : i < cfg.maxEnt) (hcase : i = l ∨ ∀ t c, o.conf t c = c) (t : Nat) (c : ListConf) :
    ∃ c', o.listConf cfg i (t, c) = .ok ((), t + 4, c') ∧ c'.first = (s.daq.entities i).first ∧ c'.num = (s.daq.entities i).num := by
  unfold Others.listConf
  rw [sbind_ok (ent_run ho hi _ t c), sbind_ok (set_run ..), sbind_ok (ent_run ho hi _ _ _), set_run]
  refine ⟨_, rfl, ?_, rfl⟩
  rcases hcase with rfl | h
  · exact ho.keepFirst (ho.keepFirst rfl _) _
  · show (o.conf _ (o.conf _ _)).first = _
    rw [h, h]

theorem odtAt_run (ho : Settled s l o) (hl : l < cfg.maxEnt) (j t : Nat) (c : ListConf) :
    ∃ c', o.odtAt cfg l j (t, c) = .ok (((s.daq.entities l).first % 256 + j) % 256, t + 5, c') ∧ c'.num = (s.daq.entities l).num := by
  obtain ⟨c', e, h1, h2⟩ := listConf_run (cfg := cfg) ho hl (.inl rfl) t c
  unfold Others.odtAt
  rw [sbind_ok e, sbind_ok (getConf_run ..)]
  refine ⟨o.conf (t + 4) c', ?_, ho.keepNum h2 _⟩
  rw [ho.keepFirst h1]
  rfl

theorem entryAt_run (ho : Settled s l o) (hl : l < cfg.maxEnt) {j : Nat} (hj : ((s.daq.entities l).first % 256 + j) % 256 < cfg.maxEnt) (e t : Nat)
    (c : ListConf) : ∃ c', o.entryAt cfg l j e (t, c) =
      .ok (((s.daq.entities (((s.daq.entities l).first % 256 + j) % 256)).first + e) % 256, t + 6, c') ∧ c'.num = (s.daq.entities l).num := by
  obtain ⟨c', e1, h1⟩ := odtAt_run (cfg := cfg) ho hl j t c
  unfold Others.entryAt
  rw [sbind_ok e1, sbind_ok (ent_run ho hj _ _ _)]
  exact ⟨_, rfl, ho.keepNum h1 _⟩

theorem copyIn_run (ho : Settled s l o) : ∀ (n : Nat) (a : UInt32) (k : Nat) (d : List UInt8) (t : Nat) (c : ListConf), d.length = cfg.maxDto →
    k + n ≤ cfg.maxDto → c.num = (s.daq.entities l).num →
    ∃ c', o.copyIn cfg n a k d (t, c) =
      .ok (d.take k ++ ((List.range n).map fun i => o.mem (t + i) (a + UInt32.ofNat i)) ++ d.drop (k + n), t + n, c') ∧
      c'.num = (s.daq.entities l).num := by
  intro n
  induction n with
  | zero =>
    intro a k d t c _ _ hc
    refine ⟨c, ?_, hc⟩
    simp [Others.copyIn]
    rfl
  | succ n ih =>
    intro a k d t c hd hk hc
    unfold Others.copyIn
    rw [sbind_ok (x' := (t + 1, o.conf t c)) (a := o.mem t a) rfl, if_neg (by omega)]
    obtain ⟨c', e, h⟩ := ih (a + 1) (k + 1) (d.set k (o.mem t a)) (t + 1) (o.conf t c) (by simpa using hd) (by omega) (ho.keepNum hc t)
    refine ⟨c', ?_, h⟩
    rw [e]
    congr 2
    · rw [List.range_succ_eq_map, List.map_cons, List.map_map]
      have e1 : (d.set k (o.mem t a)).take (k + 1) = d.take k ++ [o.mem t a] := by
        rw [List.take_succ_eq_append_getElem (by simp; omega), List.take_set_of_le (by omega)]
        simp
      have e2 : (d.set k (o.mem t a)).drop (k + 1 + n) = d.drop (k + (n + 1)) := by
        rw [List.drop_set_of_lt (by omega)]
        congr 1; omega
      rw [e1, e2]
      have e3 : (List.range n).map (fun i => o.mem (t + 1 + i) (a + 1 + UInt32.ofNat i)) =
          (List.range n).map ((fun i => o.mem (t + i) (a + UInt32.ofNat i)) ∘ Nat.succ) := by
        apply List.map_congr_left
        intro i _
        simp only [Function.comp]
        rw [show t + 1 + i = t + i.succ by omega]
        congr 1
        apply UInt32.toNat_inj.mp
        simp
        omega
      rw [e3]
      simp
    · congr 1; omega

/-- A packet under construction. -/
structure Part (cfg : Cfg) (x : Pack) (acc : List UInt8) : Prop where
  size : x.data.length = cfg.maxDto
  len : x.off = acc.length
  fits : acc.length ≤ cfg.maxDto
  data : x.data.take x.off = acc

theorem room_ok {off : Nat} (hd : cfg.maxDto ≤ 65535) (h : off ≤ cfg.maxDto) : room cfg off = cfg.maxDto - off := by
  unfold room
  rw [show cfg.maxDto + 4294967296 - off = (cfg.maxDto - off) + 4294967296 by omega, Nat.add_mod_right, Nat.mod_eq_of_lt (by omega)]

theorem takeEntry_run (hc : cfg.Ok) (ho : Settled s l o) (hl : l < cfg.maxEnt) {j : Nat}
    (hj : ((s.daq.entities l).first % 256 + j) % 256 < cfg.maxEnt) {k i : Nat}
    (hi : ((s.daq.entities (((s.daq.entities l).first % 256 + j) % 256)).first + k) % 256 = i) (him : i < cfg.maxEnt) {x : Pack} {acc : List UInt8}
    (hx : Part cfg x acc) {n : Nat} {a : UInt32} (h1 : (s.daq.entities i).len = n) (h2 : (s.daq.entities i).addr = a)
    (hlen : acc.length + n ≤ cfg.maxDto) (hpos : cfg.asserts = true → 0 < n) (t : Nat) (c : ListConf) :
    ∃ c' x', o.takeEntry cfg l j x k (t, c) = .ok (x', t + 10 + n, c') ∧ c'.num = (s.daq.entities l).num ∧
      Part cfg x' (acc ++ ((List.range n).map fun i => o.mem (t + 9 + i) (a + UInt32.ofNat i))) := by
  have hd := hc.dto_hi
  obtain ⟨c1, e1, n1⟩ := entryAt_run (cfg := cfg) ho hl hj k t c
  rw [hi] at e1
  unfold Others.takeEntry
  rw [sbind_ok e1, sbind_ok (ent_run ho him _ _ _)]
  have hxl := hx.len
  rw [if_neg (by rw [room_ok hd (by rw [hxl]; exact hx.fits), h1]; omega), sbind_ok (ent_run ho him _ _ _), sbind_ok (ent_run ho him _ _ _)]
  rw [if_neg (by rw [h1]; intro h; have := hpos h.1; omega)]
  rw [h1, h2]
  obtain ⟨c2, e2, n2⟩ := copyIn_run (cfg := cfg) ho n a x.off x.data (t + 6 + 1 + 1 + 1) _ hx.size (by omega)
    (ho.keepNum (ho.keepNum (ho.keepNum n1 _) _) _)
  rw [sbind_ok e2, sbind_ok (ent_run ho him _ _ _)]
  rw [h1]
  refine ⟨o.conf (t + 6 + 1 + 1 + 1 + n) c2,
    ⟨x.data.take x.off ++ ((List.range n).map fun i => o.mem (t + 9 + i) (a + UInt32.ofNat i)) ++ x.data.drop (x.off + n), x.off + n⟩, ?_, ho.keepNum n2 _, ⟨?_, ?_, ?_, ?_⟩⟩
  · rw [Nat.mod_eq_of_lt (by omega)]
    show Except.ok _ = Except.ok _
    congr 2
    congr 1
    omega
  · have := hx.size
    simp; omega
  · simp; omega
  · simp; omega
  · have := hx.size
    have hd := hx.data
    simp only
    rw [hd, List.take_left' (by simp; omega)]

theorem entryLoop_run (hc : cfg.Ok) (ho : Settled s l o) (hl : l < cfg.maxEnt) {j p : Nat}
    (hp : ((s.daq.entities l).first % 256 + j) % 256 = p) (hj : p < cfg.maxEnt) : ∀ (rest : List (UInt8 × UInt32)) (fuel k : Nat) (x : Pack)
    (acc : List UInt8) (t : Nat) (c : ListConf), rest.length < fuel → (s.daq.entities p).num = k + rest.length → Part cfg x acc →
    (∀ i e, rest[i]? = some e → ∃ idx, ((s.daq.entities p).first + (k + i)) % 256 = idx ∧ idx < cfg.maxEnt ∧
      (s.daq.entities idx).len = e.1.toNat ∧ (s.daq.entities idx).addr = e.2) →
    acc.length + (rest.map fun e => e.1.toNat).sum ≤ cfg.maxDto → (cfg.asserts = true → ∀ e ∈ rest, 0 < e.1.toNat) →
    c.num = (s.daq.entities l).num →
    ∃ (τ : Nat → Nat) (c' : ListConf) (x' : Pack) (T : Nat), o.entryLoop cfg l j p fuel k x (t, c) = .ok (x', T, c') ∧ c'.num = (s.daq.entities l).num ∧
      Part cfg x' (acc ++ (rest.zipIdx k).flatMap fun y => seen o.mem (τ y.2) y.1) ∧ t ≤ T ∧
      ∀ i e, rest[i]? = some e → t ≤ τ (k + i) ∧ τ (k + i) + e.1.toNat ≤ T ∧
        ∀ i', i < i' → i' < rest.length → τ (k + i) + e.1.toNat ≤ τ (k + i') := by
  intro rest
  induction rest with
  | nil =>
    intro fuel k x acc t c hf hn hx _ _ _ hcn
    cases fuel with
    | zero => simp at hf
    | succ fuel =>
      unfold Others.entryLoop
      rw [sbind_ok (ent_run ho hj _ _ _), hn, if_neg (by simp)]
      refine ⟨fun _ => 0, _, x, _, rfl, ho.keepNum hcn _, by simpa using hx, by omega, ?_⟩
      intro i e h; simp at h
  | cons e rest ih =>
    intro fuel k x acc t c hf hn hx hent hlen hpos hcn
    cases fuel with
    | zero => simp at hf
    | succ fuel =>
      rw [List.length_cons] at hn hf
      rw [List.map_cons, List.sum_cons] at hlen
      unfold Others.entryLoop
      rw [sbind_ok (ent_run ho hj _ _ _), hn, if_pos (by omega)]
      obtain ⟨idx, q1, q2, q3, q4⟩ := hent 0 e rfl
      obtain ⟨c1, x1, e1, n1, hx1⟩ := takeEntry_run hc ho hl (j := j) (by rw [hp]; exact hj) (k := k) (by rw [hp]; exact q1) q2 hx q3 q4 (by omega)
        (fun ha => hpos ha e (by simp)) (t + 1) (o.conf t c)
      rw [sbind_ok e1]
      obtain ⟨τ, c2, x2, T, e2, n2, hx2, hT, hτ⟩ := ih fuel (k + 1) x1 _ _ c1 (by omega) (by omega) hx1
        (by
          intro i e' hi
          have := hent (i + 1) e' (by simpa using hi)
          rw [show k + (i + 1) = k + 1 + i by omega] at this
          exact this)
        (by simp; omega) (fun ha e' he' => hpos ha e' (by simp [he'])) n1
      refine ⟨fun i => if i = k then t + 1 + 9 else τ i, c2, x2, T, e2, n2, ?_, by omega, ?_⟩
      · have e3 : ((e :: rest).zipIdx k).flatMap (fun y => seen o.mem (if y.2 = k then t + 1 + 9 else τ y.2) y.1) =
            seen o.mem (t + 1 + 9) e ++ (rest.zipIdx (k + 1)).flatMap fun y => seen o.mem (τ y.2) y.1 := by
          rw [List.zipIdx_cons, List.flatMap_cons, if_pos rfl]
          congr 1
          rw [List.flatMap_def, List.flatMap_def]
          congr 1
          apply List.map_congr_left
          intro y hy
          have := List.le_snd_of_mem_zipIdx hy
          rw [if_neg (by omega)]
        rw [e3, ← List.append_assoc]
        exact hx2
      · intro i e' hi
        cases i with
        | zero =>
          simp at hi
          subst hi
          refine ⟨by simp; omega, by simp; omega, ?_⟩
          intro i' h1 h2
          obtain ⟨i', rfl⟩ : ∃ m, i' = m + 1 := ⟨i' - 1, by omega⟩
          obtain ⟨e'', he''⟩ : ∃ e'', rest[i']? = some e'' := ⟨rest[i']'(by simpa using h2), List.getElem?_eq_getElem _⟩
          have := (hτ i' e'' he'').1
          rw [show k + 1 + i' = k + (i' + 1) by omega] at this
          simp only [Nat.add_zero, if_true]
          rw [if_neg (by omega)]
          omega
        | succ i =>
          obtain ⟨h1, h2, h3⟩ := hτ i e' (by simpa using hi)
          rw [show k + 1 + i = k + (i + 1) by omega] at h1 h2 h3
          simp only
          rw [if_neg (by omega)]
          refine ⟨by omega, h2, ?_⟩
          intro i' h4 h5
          obtain ⟨i', rfl⟩ : ∃ m, i' = m + 1 := ⟨i' - 1, by omega⟩
          rw [if_neg (by omega)]
          have := h3 i' (by omega) (by simpa using h5)
          rw [show k + 1 + i' = k + (i' + 1) by omega] at this
          exact this

/-- What is needed to know about an ODT. -/
structure OdtOk (cfg : Cfg) (s : St) (l : Nat) (start : Nat) (j : Nat) (es : List (UInt8 × UInt32)) : Prop where
  idx : ((s.daq.entities l).first % 256 + j) % 256 < cfg.maxEnt
  num : (s.daq.entities (((s.daq.entities l).first % 256 + j) % 256)).num = es.length
  entries : ∀ i e, es[i]? = some e → ∃ idx, ((s.daq.entities (((s.daq.entities l).first % 256 + j) % 256)).first + i) % 256 = idx ∧
    idx < cfg.maxEnt ∧ (s.daq.entities idx).len = e.1.toNat ∧ (s.daq.entities idx).addr = e.2
  fits : start + (es.map fun e => e.1.toNat).sum ≤ cfg.maxDto
  small : start + (es.map fun e => e.1.toNat).sum < 256
  pos : cfg.asserts = true → ∀ e ∈ es, 0 < e.1.toNat

theorem seen_length (mem : Nat → Mem) (t : Nat) (e : UInt8 × UInt32) : (seen mem t e).length = e.1.toNat := by simp [seen]

theorem seen_sum (mem : Nat → Mem) (τ : Nat → Nat) : ∀ (es : List (UInt8 × UInt32)) (k : Nat),
    ((es.zipIdx k).flatMap fun y => seen mem (τ y.2) y.1).length = (es.map fun e => e.1.toNat).sum := by
  intro es
  induction es with
  | nil => intro k; rfl
  | cons e es ih =>
    intro k
    rw [List.zipIdx_cons, List.flatMap_cons, List.length_append, seen_length, ih, List.map_cons, List.sum_cons]

/-- The timestamp of ODT `j`. -/
def stampOf (cfg : Cfg) (timer : Nat) (stamp : Bool) (j : Nat) : List UInt8 := if (stamp && j == 0) = true then leBytes cfg.tsSize timer else []

theorem startPack_part {timer base j : Nat} {stamp : Bool} {data : List UInt8} (hd : data.length = cfg.maxDto)
    (h : 1 + (stampOf cfg timer stamp j).length ≤ cfg.maxDto) :
    Part cfg (startPack cfg timer base (stamp && j == 0) data) (UInt8.ofNat base :: stampOf cfg timer stamp j) := by
  have e : startPack cfg timer base (stamp && j == 0) data = ⟨(UInt8.ofNat base :: stampOf cfg timer stamp j) ++
    data.drop (UInt8.ofNat base :: stampOf cfg timer stamp j).length, (UInt8.ofNat base :: stampOf cfg timer stamp j).length⟩ := rfl
  rw [e]
  generalize stampOf cfg timer stamp j = tb at *
  refine ⟨?_, rfl, by simp; omega, ?_⟩
  · simp; omega
  · simp

/-- The packet of ODT `j`. -/
def odtPack (cfg : Cfg) (mem : Nat → Mem) (timer base : Nat) (stamp : Bool) (τ : Nat → Nat → Nat) (y : List (UInt8 × UInt32) × Nat) : List UInt8 :=
  UInt8.ofNat (base + y.2) :: stampOf cfg timer stamp y.2 ++ y.1.zipIdx.flatMap (fun x => seen mem (τ y.2 x.2) x.1)

theorem odtLoop_run (hc : cfg.Ok) (ho : Settled s l o) (hl : l < cfg.maxEnt) {timer base : Nat} {stamp : Bool} : ∀ (rest : List (List (UInt8 × UInt32)))
    (fuel j : Nat) (data : List UInt8) (q : Queue) (ps : List (List UInt8)) (h t : Nat) (c : ListConf), rest.length < fuel →
    (s.daq.entities l).num = j + rest.length → data.length = cfg.maxDto → Holds q ps h → h + rest.length ≤ 4 → (∀ d ∈ ps, Fits cfg d) →
    base + j + rest.length ≤ 255 → c.num = (s.daq.entities l).num →
    (∀ i es, rest[i]? = some es → OdtOk cfg s l (1 + (stampOf cfg timer stamp (j + i)).length) (j + i) es) →
    ∃ (τ : Nat → Nat → Nat) (c' : ListConf) (q' : Queue) (T : Nat),
      o.odtLoop cfg timer l stamp fuel j (base + j) data q (t, c) = .ok (q', T, c') ∧
      Holds q' (ps ++ (rest.zipIdx j).map (odtPack cfg o.mem timer base stamp τ)) (h + rest.length) ∧
      (∀ d ∈ ps ++ (rest.zipIdx j).map (odtPack cfg o.mem timer base stamp τ), Fits cfg d) ∧ t ≤ T ∧
      ∀ i es k e, rest[i]? = some es → es[k]? = some e → t ≤ τ (j + i) k ∧ τ (j + i) k + e.1.toNat ≤ T ∧
        (∀ k', k < k' → k' < es.length → τ (j + i) k + e.1.toNat ≤ τ (j + i) k') ∧
        ∀ i' es' k', i < i' → rest[i']? = some es' → k' < es'.length → τ (j + i) k + e.1.toNat ≤ τ (j + i') k' := by
  intro rest
  induction rest with
  | nil =>
    intro fuel j data q ps h t c hf hn _ hq _ hps _ hcn _
    cases fuel with
    | zero => simp at hf
    | succ fuel =>
      unfold Others.odtLoop
      have hcn' := ho.keepNum hcn t
      rw [sbind_ok (getConf_run ..), if_neg (by rw [hcn', hn]; simp; exact Nat.mod_le _ _)]
      refine ⟨fun _ _ => 0, _, q, _, rfl, by simpa using hq, by simpa using hps, by omega, ?_⟩
      intro i es k e h; simp at h
  | cons es rest ih =>
    intro fuel j data q ps h t c hf hn hdata hq hroom hps hbase hcn hok
    cases fuel with
    | zero => simp at hf
    | succ fuel =>
      rw [List.length_cons] at hf hn hroom hbase
      have hcn' := ho.keepNum hcn t
      have hodt := hok 0 es rfl
      rw [Nat.add_zero] at hodt
      obtain ⟨c1, e1, n1⟩ := odtAt_run (cfg := cfg) ho hl j (t + 1) (o.conf t c)
      have hfits := hodt.fits
      have hsmall := hodt.small
      obtain ⟨τ0, c2, x2, T2, e2, n2, hx2, hT2, hτ0⟩ := entryLoop_run hc ho hl rfl hodt.idx es 256 0 _ _ (t + 1 + 5) c1
        (by rw [← hodt.num]; exact Nat.mod_lt _ (by omega)) (by simpa using hodt.num)
        (startPack_part (base := base + j) (timer := timer) (stamp := stamp) (j := j) hdata (by omega))
        (by simpa using hodt.entries) (by rw [List.length_cons]; omega) hodt.pos n1
      generalize hpk : (UInt8.ofNat (base + j) :: stampOf cfg timer stamp j) ++ (es.zipIdx 0).flatMap (fun y => seen o.mem (τ0 y.2) y.1) = pk at hx2
      have hpl : pk.length = 1 + (stampOf cfg timer stamp j).length + (es.map fun e => e.1.toNat).sum := by
        subst hpk
        rw [List.length_append, seen_sum, List.length_cons]
        omega
      have hfit : Fits cfg pk := ⟨by omega, by omega, by omega⟩
      obtain ⟨q1, eq1, hq1, _⟩ := enqueue_ok (cfg := cfg) hq (by omega) hfit
      obtain ⟨τ, c3, q3, T3, e3, hh, hfs, hT3, hτ⟩ := ih fuel (j + 1) x2.data q1 (ps ++ [pk]) (h + 1) T2 c2 (by omega) (by omega) hx2.size hq1 (by omega)
        (by
          intro d hd
          rcases List.mem_append.mp hd with hd | hd
          · exact hps d hd
          · simp at hd; subst hd; exact hfit)
        (by omega) n2
        (by
          intro i es' hi
          have := hok (i + 1) es' (by simpa using hi)
          rw [show j + (i + 1) = j + 1 + i by omega] at this
          exact this)
      have hnew : ps ++ [pk] ++ (rest.zipIdx (j + 1)).map (odtPack cfg o.mem timer base stamp τ) =
          ps ++ ((es :: rest).zipIdx j).map (odtPack cfg o.mem timer base stamp (fun a b => if a = j then τ0 b else τ a b)) := by
        rw [List.zipIdx_cons, List.map_cons, List.append_assoc]
        congr 1
        rw [List.singleton_append]
        congr 1
        · subst hpk
          simp [odtPack]
        · apply List.map_congr_left
          intro y hy
          have := List.le_snd_of_mem_zipIdx hy
          unfold odtPack
          simp only [show ¬ (y.2 = j) by omega, if_false]
      refine ⟨fun a b => if a = j then τ0 b else τ a b, c3, q3, T3, ?_, ?_, ?_, by omega, ?_⟩
      · unfold Others.odtLoop
        rw [sbind_ok (getConf_run ..), hcn', hn, if_pos (by rw [Nat.mod_eq_of_lt (by omega)]; omega)]
        rw [sbind_ok e1, sbind_ok e2]
        have h1 : x2.data.take x2.off ++ List.replicate (x2.off - x2.data.length) 0 = pk := by
          have h2 := hx2.len
          have h3 := hx2.size
          have h4 := hx2.fits
          rw [hx2.data, show x2.off - x2.data.length = 0 by omega]
          simp
        rw [h1, eq1, sbind_ok (a := q1) (x' := (T2, c2)) rfl, Nat.mod_eq_of_lt (by omega)]
        exact e3
      · rw [← hnew, List.length_cons, show h + (rest.length + 1) = h + 1 + rest.length by omega]
        exact hh
      · rw [← hnew]; exact hfs
      · intro i es' k e hi hk
        cases i with
        | zero =>
          simp at hi
          subst hi
          obtain ⟨a1, a2, a3⟩ := hτ0 k e hk
          simp only [Nat.zero_add] at a1 a2 a3
          simp only [Nat.add_zero, if_true]
          refine ⟨by omega, by omega, a3, ?_⟩
          intro i' es' k' hi' hes' hk'
          obtain ⟨i', rfl⟩ : ∃ m, i' = m + 1 := ⟨i' - 1, by omega⟩
          obtain ⟨e', he'⟩ : ∃ e', es'[k']? = some e' := ⟨es'[k'], List.getElem?_eq_getElem _⟩
          have := (hτ i' es' k' e' (by simpa using hes') he').1
          rw [show j + 1 + i' = j + (i' + 1) by omega] at this
          rw [if_neg (by omega)]
          omega
        | succ i =>
          obtain ⟨a1, a2, a3, a4⟩ := hτ i es' k e (by simpa using hi) hk
          rw [show j + 1 + i = j + (i + 1) by omega] at a1 a2 a3 a4
          simp only
          rw [if_neg (by omega)]
          refine ⟨by omega, a2, fun k' h1 h2 => by rw [if_neg (by omega)]; exact a3 k' h1 h2, ?_⟩
          intro i' es'' k' hi' hes' hk'
          obtain ⟨i', rfl⟩ : ∃ m, i' = m + 1 := ⟨i' - 1, by omega⟩
          rw [if_neg (by omega)]
          have := a4 i' es'' k' (by omega) (by simpa using hes') hk'
          rw [show j + 1 + i' = j + (i' + 1) by omega] at this
          exact this

theorem pidLoop_run (hcase : ∀ t c, o.conf t c = c) (ho : Settled s l o) {cn : Conf} (hr : Rep cfg s.daq cn) : ∀ (n i tmp t : Nat) (c : ListConf),
    i + n ≤ cn.length → tmp = cn.firstPid i → cn.odts < 256 →
    ∃ c' T, o.pidLoop cfg n i tmp (t, c) = .ok (cn.firstPid (i + n), T, c') ∧ t ≤ T := by
  intro n
  induction n with
  | zero => intro i tmp t c _ h _; exact ⟨c, t, by rw [h]; rfl, Nat.le_refl _⟩
  | succ n ih =>
    intro i tmp t c hi htmp hodts
    have hin : i < s.daq.entityCount := hr.inside (.list i) (by show i < cn.length; omega)
    have hle := hr.count_le
    obtain ⟨c1, e1, _, n1⟩ := listConf_run (cfg := cfg) ho (i := i) (by omega) (.inr hcase) t c
    obtain ⟨odts, hodt⟩ : ∃ odts, cn[i]? = some odts := ⟨cn[i], List.getElem?_eq_getElem (by omega)⟩
    have h1 := hr.listNum i odts hodt
    have h2 := firstPid_succ hodt
    have h3 := firstPid_le cn (i + 1)
    unfold Others.pidLoop
    rw [sbind_ok e1, sbind_ok (getConf_run ..), hcase, n1, h1]
    obtain ⟨c', T, e, hT⟩ := ih (i + 1) ((tmp + odts.length) % 256) (t + 4 + 1) c1 (by omega) (by rw [h2, htmp, Nat.mod_eq_of_lt (by omega)]) hodts
    refine ⟨c', T, ?_, by omega⟩
    rw [e, show i + 1 + n = i + (n + 1) by omega]

end

/-- C87, part: while a measurement runs (see C83), an event of a list is processed by one thread; meanwhile other
threads change the memory as they like, but not the DAQ configuration.  Then the packets of the list are sent, complete
and in order, and every byte of an element is the contents of its address at some time during the event; the
bytes of an element are read one after the other, and so are the elements. -/
theorem C87_sampling_partial {cfg : Cfg} (hc : cfg.Ok) {p : Plan} (hp : p.Suits cfg) (env : Env) {s : St} {h : Nat} (hm : Measuring cfg p s h)
    {l : Nat} (hl : l < p.lists.length) (hroom : h + p.odts l ≤ 4) {o : Others} (ho : Settled s l o) (c : ListConf) :
    ∃ T t fs τ, triggerDuring cfg env o c s (p.events[l]?.getD 0) = .ok (T, t) ∧ t.tx = s.tx ++ fs ∧
      Dtos cfg fs (p.over (stampSize cfg) o.mem τ env.timer.toNat l) ∧ InTurn (p.lists[l]?.getD []) τ 0 T ∧
      Holds t.daq.queue [] (h + p.odts l) := by
  obtain ⟨odts, hodts⟩ : ∃ odts, p.lists[l]? = some odts := ⟨p.lists[l], List.getElem?_eq_getElem hl⟩
  obtain ⟨ev, hev⟩ : ∃ ev, p.events[l]? = some ev := ⟨p.events[l]'(by rw [hp.one]; exact hl), List.getElem?_eq_getElem _⟩
  have hk := hp.known ev (List.mem_of_getElem? hev)
  have hevlt := hc.ev_lt
  have hn : p.odts l = odts.length := by simp [Plan.odts, hodts]
  have hne : p.events ≠ [] := by intro h; rw [h] at hev; simp at hev
  have hr := hm.armed.loaded.rep
  have hconf : p.conf[l]? = some (odts.map List.length) := by simp [Plan.conf, hodts]
  have hcl : l < p.conf.length := getElem?_lt hconf
  have hle := hr.count_le
  have hlt := hc.ent_lt
  have hin : l < s.daq.entityCount := hr.inside (.list l) hcl
  have hpid := firstPid_succ hconf
  have hpid2 := firstPid_le p.conf (l + 1)
  have hodtl := hr.odts_lt hc
  rw [List.length_map] at hpid
  rw [hev, Option.getD_some, hodts, Option.getD_some]
  -- the first PID
  obtain ⟨c1, T1, e1, hT1⟩ : ∃ c1 T1, o.firstPid cfg l (1 + 1, o.conf 1 (o.conf 0 c)) = .ok (some (p.conf.firstPid l), T1, c1) ∧ 2 ≤ T1 := by
    unfold Others.firstPid
    have hcnt : o.look (fun d => .ok d.listCount) (1 + 1, o.conf 1 (o.conf 0 c)) = .ok (s.daq.listCount, 3, o.conf 2 (o.conf 1 (o.conf 0 c))) := by
      simp [Others.look, ho.count]
    rw [sbind_ok hcnt, if_neg (by rw [hr.lists]; omega)]
    rcases ho.alone with h0 | h0
    · subst h0
      exact ⟨_, 3, rfl, by omega⟩
    · obtain ⟨c', T, e, hT⟩ := pidLoop_run (cfg := cfg) h0 ho hr l 0 0 3 (o.conf 2 (o.conf 1 (o.conf 0 c))) (by omega) rfl hodtl
      rw [sbind_ok e, Nat.zero_add]
      exact ⟨c', T, rfl, by omega⟩
  obtain ⟨c2, e2, _, n2⟩ := listConf_run (cfg := cfg) ho (i := l) (by omega) (.inl rfl) T1 c1
  -- the ODTs
  have hstamp : ∀ j, stampOf cfg env.timer.toNat (cfg.timestamping && (s.daq.mode &&& MODE_TIMESTAMP == MODE_TIMESTAMP)) j =
      if p.stamps = true ∧ j = 0 then enc false (stampSize cfg) env.timer.toNat else [] := by
    intro j
    have hmode := hm.armed.mode hne
    unfold stampOf stampSize MODE_TIMESTAMP
    rw [hmode]
    unfold Plan.mode
    cases p.stamps <;> cases cfg.timestamping <;> by_cases hj : j = 0 <;> simp [hj, leBytes_enc] <;> rfl
  have hnum : (s.daq.entities l).num = odts.length := by rw [hr.listNum l _ hconf]; simp
  have hodt : ∀ j es, odts[j]? = some es → OdtOk cfg s l
      (1 + (stampOf cfg env.timer.toNat (cfg.timestamping && (s.daq.mode &&& MODE_TIMESTAMP == MODE_TIMESTAMP)) j).length) j es := by
    intro j es hj
    have hcell : (l, j, es) ∈ p.cells := mem_cells.mpr ⟨odts, hodts, hj⟩
    have hhas : p.conf.has (.odt l j) := ⟨_, hconf, by simpa using getElem?_lt hj⟩
    have h1 : (s.daq.entities l).first + j < s.daq.entityCount := hr.inside _ hhas
    have h2 : ((s.daq.entities l).first % 256 + j) % 256 = (s.daq.entities l).first + j := by omega
    have h3 := hp.short _ hcell
    simp only at h3
    have h4 : (stampOf cfg env.timer.toNat (cfg.timestamping && (s.daq.mode &&& MODE_TIMESTAMP == MODE_TIMESTAMP)) j).length ≤
        if j = 0 then stampSize cfg else 0 := by
      rw [hstamp]
      by_cases h : p.stamps = true ∧ j = 0
      · rw [if_pos h, if_pos h.2, enc_len]; exact Nat.le_refl _
      · rw [if_neg h]; simp
    refine ⟨by omega, ?_, ?_, by omega, by omega, fun ha e he => hp.positive ha _ hcell e he⟩
    · rw [h2]
      exact hr.odtNum l j _ _ hconf (by simp [hj])
    · intro k e hke
      rw [h2]
      have h5 : (s.daq.entities ((s.daq.entities l).first + j)).first + k < s.daq.entityCount :=
        hr.inside (.entry l j k) ⟨_, es.length, hconf, by simp [hj], getElem?_lt hke⟩
      obtain ⟨h6, h7⟩ := hm.entry hcell hke
      refine ⟨(s.daq.entities ((s.daq.entities l).first + j)).first + k, by omega, by omega, h6, h7⟩
  obtain ⟨τ, c3, q, T, e3, hh, hf, hT, hτ⟩ := odtLoop_run hc ho (cfg := cfg) (by omega) (timer := env.timer.toNat) (base := p.conf.firstPid l)
    (stamp := cfg.timestamping && (s.daq.mode &&& MODE_TIMESTAMP == MODE_TIMESTAMP)) odts 256 0 (List.replicate cfg.maxDto 0) s.daq.queue [] h (T1 + 4 + 1)
    (o.conf (T1 + 4) c2) (by omega) (by omega) (by simp) hm.queue (by omega) (by simp) (by omega) (ho.keepNum n2 _)
    (by intro i es hi; rw [Nat.zero_add]; exact hodt i es hi)
  rw [List.nil_append] at hh hf
  rw [Nat.add_zero] at e3
  have hpk : odts.zipIdx.map (odtPack cfg o.mem env.timer.toNat (p.conf.firstPid l)
      (cfg.timestamping && (s.daq.mode &&& MODE_TIMESTAMP == MODE_TIMESTAMP)) τ) = p.over (stampSize cfg) o.mem τ env.timer.toNat l := by
    unfold Plan.over
    rw [hodts, Option.getD_some]
    apply List.map_congr_left
    intro y _
    unfold odtPack
    rw [hstamp]
  have hsample : o.sample cfg env ev s.daq.queue (0, c) = .ok (some q, T, c3) := by
    unfold Others.sample
    have hrun : o.look (fun d => .ok d.running) (0, c) = .ok (true, 0 + 1, o.conf 0 c) := by
      simp [Others.look, ho.running, hm.running]
    rw [sbind_ok hrun, if_neg (by simp), if_neg (by rw [Nat.mod_eq_of_lt hevlt]; omega)]
    have hlist : o.look (fun d => .ok (d.listForEvent ev)) (0 + 1, o.conf 0 c) = .ok (l, 1 + 1, o.conf 1 (o.conf 0 c)) := by
      simp [Others.look, ho.events, hm.armed.events l ev hev]
    rw [sbind_ok hlist, sbind_ok e1]
    simp only
    rw [sbind_ok e2]
    have hmode : o.look (fun d => .ok d.mode) (T1 + 4, c2) = .ok (s.daq.mode, T1 + 4 + 1, o.conf (T1 + 4) c2) := by
      simp [Others.look, ho.mode]
    rw [sbind_ok hmode, sbind_ok e3]
    rfl
  have hlen : (odts.zipIdx.map (odtPack cfg o.mem env.timer.toNat (p.conf.firstPid l)
      (cfg.timestamping && (s.daq.mode &&& MODE_TIMESTAMP == MODE_TIMESTAMP)) τ)).length = odts.length := by simp
  obtain ⟨s', fs, et, htx, hd, hh', _⟩ := transmit_holds (cfg := cfg) (queueSize + 1)
    (s := { s with mem := o.mem T, daq := { o.daq T with queue := q } }) hh (by rw [hlen]; unfold queueSize; omega) hf
  refine ⟨T, s', fs, τ, ?_, htx, hpk ▸ hd, ?_, hn ▸ hh'⟩
  · unfold triggerDuring
    rw [hsample]
    simp only [et]
  · intro j es k e hj hke
    have := hτ j es k e hj hke
    simp only [Nat.zero_add] at this
    exact ⟨Nat.zero_le _, this.2⟩

/-- An element whose bytes do not change while it is copied is sampled whole. -/
theorem C87_element {mem : Nat → Mem} {t : Nat} {e : UInt8 × UInt32}
    (h : ∀ i, i < e.1.toNat → mem (t + i) (e.2 + UInt32.ofNat i) = mem t (e.2 + UInt32.ofNat i)) :
    seen mem t e = bytesAt (mem t) e.2 e.1.toNat := by
  apply List.map_congr_left
  intro i hi
  exact h i (List.mem_range.mp hi)

/-- If nobody writes to the elements of the list during the event, the packets are those of a slave that does nothing
else meanwhile (`Plan.packets`). -/
theorem C87_quiet_partial {cfg : Cfg} (hc : cfg.Ok) {p : Plan} (hp : p.Suits cfg) (env : Env) {s : St} {h : Nat} (hm : Measuring cfg p s h)
    {l : Nat} (hl : l < p.lists.length) (hroom : h + p.odts l ≤ 4) {o : Others} (ho : Settled s l o) (c : ListConf)
    (hq : ∀ es ∈ p.lists[l]?.getD [], ∀ e ∈ es, ∀ i, i < e.1.toNat → ∀ t, o.mem t (e.2 + UInt32.ofNat i) = s.mem (e.2 + UInt32.ofNat i)) :
    ∃ T t fs, triggerDuring cfg env o c s (p.events[l]?.getD 0) = .ok (T, t) ∧ t.tx = s.tx ++ fs ∧
      Dtos cfg fs (p.packets (stampSize cfg) s.mem env.timer.toNat l) := by
  obtain ⟨T, t, fs, τ, h1, h2, h3, -, -⟩ := C87_sampling_partial hc hp env hm hl hroom ho c
  refine ⟨T, t, fs, h1, h2, ?_⟩
  have e : p.over (stampSize cfg) o.mem τ env.timer.toNat l = p.packets (stampSize cfg) s.mem env.timer.toNat l := by
    unfold Plan.over Plan.packets
    apply List.map_congr_left
    intro y hy
    congr 1
    have hy' : y.1 ∈ p.lists[l]?.getD [] := List.fst_mem_of_mem_zipIdx hy
    have e1 : ∀ (es : List (UInt8 × UInt32)) (k : Nat), (∀ e ∈ es, e ∈ y.1) →
        (es.zipIdx k).flatMap (fun x => seen o.mem (τ y.2 x.2) x.1) = es.flatMap fun e => bytesAt s.mem e.2 e.1.toNat := by
      intro es
      induction es with
      | nil => intro k _; rfl
      | cons e es ih =>
        intro k hes
        rw [List.zipIdx_cons, List.flatMap_cons, List.flatMap_cons, ih _ (fun e' he' => hes e' (by simp [he']))]
        congr 1
        apply List.map_congr_left
        intro i hi
        exact hq y.1 hy' e (hes e (by simp)) i (List.mem_range.mp hi) _
    exact e1 y.1 0 (fun _ h => h)
  exact e ▸ h3

/-! ### Without other threads -/

/-- Nobody else does anything. -/
def undisturbed (s : St) : Others := ⟨fun _ => s.mem, fun _ => s.daq, fun _ c => c⟩

theorem settled_undisturbed (s : St) (l : Nat) : Settled s l (undisturbed s) :=
  ⟨fun _ => rfl, fun _ => rfl, fun _ => rfl, fun _ => rfl, fun _ => rfl, fun _ _ => .inl rfl, fun _ _ => .inl rfl, .inr fun _ _ => rfl⟩

section
variable {cfg : Cfg} {s : St}

theorem ent_err {α : Type} {i : Nat} (hi : ¬ i < cfg.maxEnt) (f : Entity → α) (x : Nat × ListConf) :
    (undisturbed s).ent cfg i f x = .error .entityOob := by
  unfold Others.ent Others.look Daq.ent
  simp only [if_neg hi]
  rfl

theorem dent_ok {d : Daq} {i : Nat} (hi : i < cfg.maxEnt) : d.ent cfg i = .ok (d.entities i) := by unfold Daq.ent; rw [if_pos hi]
theorem dent_err {d : Daq} {i : Nat} (hi : ¬ i < cfg.maxEnt) : d.ent cfg i = .error .entityOob := by unfold Daq.ent; rw [if_neg hi]

theorem copyIn_err (o : Others) : ∀ (n : Nat) (a : UInt32) (k : Nat) (d : List UInt8) (x : Nat × ListConf), cfg.maxDto < k + n →
    o.copyIn cfg n a k d x = .error .dtoOob ∨ n = 0 := by
  intro n
  induction n with
  | zero => intro a k d x _; exact .inr rfl
  | succ n ih =>
    intro a k d x h
    left
    unfold Others.copyIn
    rw [sbind_ok (x' := (x.1 + 1, o.conf x.1 x.2)) (a := o.mem x.1 a) rfl]
    by_cases hk : cfg.maxDto ≤ k
    · rw [if_pos hk]; rfl
    · rw [if_neg hk]
      rcases ih (a + 1) (k + 1) (d.set k (o.mem x.1 a)) (x.1 + 1, o.conf x.1 x.2) (by omega) with h1 | h1
      · exact h1
      · omega

/-- What a step of the sampling thread does, compared to the model without threads. -/
def Agrees {α β : Type} (r : Except Fault (α × Nat × ListConf)) (r' : Except Fault β) (P : α → β → ListConf → Prop) : Prop :=
  match r' with
  | .ok b => ∃ a T c, r = .ok (a, T, c) ∧ P a b c
  | .error e => r = .error e

theorem takeEntry_agrees (hc : cfg.Ok) {l j : Nat} {x : Pack} {acc : List UInt8} (hx : Part cfg x acc) (e t : Nat) (c : ListConf) :
    Agrees ((undisturbed s).takeEntry cfg l j x e (t, c)) (sampleEntry cfg s l j acc e)
      (fun x' acc' c' => Part cfg x' acc' ∧ c'.num = (s.daq.entities l).num) := by
  have hd := hc.dto_hi
  have ho := settled_undisturbed s l
  unfold sampleEntry getOdtEntryIdx getOdt
  by_cases hl : l < cfg.maxEnt
  · rw [dent_ok hl]
    simp only [ok_bind]
    by_cases hj : ((s.daq.entities l).first % 256 + j) % 256 < cfg.maxEnt
    · rw [dent_ok hj]
      simp only [ok_bind]
      obtain ⟨c1, e1, n1⟩ := entryAt_run (cfg := cfg) ho hl hj e t c
      generalize hi : ((s.daq.entities (((s.daq.entities l).first % 256 + j) % 256)).first + e) % 256 = i at *
      show Agrees _ (s.daq.ent cfg i >>= _) _
      by_cases him : i < cfg.maxEnt
      · rw [dent_ok him]
        simp only [ok_bind]
        have hxl := hx.len
        have hxf := hx.fits
        by_cases hbig : cfg.maxDto - acc.length < (s.daq.entities i).len
        · rw [if_pos hbig]
          show _ = Except.error _
          unfold Others.takeEntry
          rw [sbind_ok e1, sbind_ok (ent_run ho him _ _ _), room_ok hd (by omega)]
          by_cases ha : cfg.asserts = true
          · rw [if_pos ⟨ha, by omega⟩, if_pos ha]; rfl
          · rw [if_neg (fun h => ha h.1), if_neg ha, sbind_ok (ent_run ho him _ _ _), sbind_ok (ent_run ho him _ _ _), if_neg (fun h => ha h.1)]
            rcases copyIn_err (cfg := cfg) (undisturbed s) (s.daq.entities i).len (s.daq.entities i).addr x.off x.data _ (by omega) with h1 | h1
            · rw [sbind_err h1]
            · omega
        · rw [if_neg hbig]
          by_cases hz : cfg.asserts = true ∧ (s.daq.entities i).len = 0
          · rw [if_pos (by simp [hz.1, hz.2])]
            show _ = Except.error _
            unfold Others.takeEntry
            rw [sbind_ok e1, sbind_ok (ent_run ho him _ _ _), room_ok hd (by omega), if_neg (by omega), sbind_ok (ent_run ho him _ _ _),
              sbind_ok (ent_run ho him _ _ _), if_pos hz]
            rfl
          · rw [if_neg (by simpa using hz)]
            obtain ⟨c', x', e2, n2, hx2⟩ := takeEntry_run hc ho hl hj hi him hx rfl rfl (by omega)
              (fun ha => Nat.pos_of_ne_zero (fun h0 => hz ⟨ha, h0⟩)) t c
            exact ⟨x', _, c', e2, hx2, n2⟩
      · rw [dent_err him]
        show _ = Except.error _
        unfold Others.takeEntry
        rw [sbind_ok e1, sbind_err (ent_err him _ _)]
    · rw [dent_err hj]
      show _ = Except.error _
      obtain ⟨c1, e1, n1⟩ := odtAt_run (cfg := cfg) ho hl j t c
      unfold Others.takeEntry Others.entryAt
      rw [sbind_err]
      rw [sbind_ok e1, sbind_err (ent_err hj _ _)]
  · rw [dent_err hl]
    show _ = Except.error _
    unfold Others.takeEntry Others.entryAt Others.odtAt Others.listConf
    rw [sbind_err]
    rw [sbind_err]
    rw [sbind_err]
    rw [sbind_err (ent_err hl _ _)]

theorem agrees_bind {α β γ δ : Type} {m : Sampling α} {r' : Except Fault β} {P : α → β → ListConf → Prop} {y : Nat × ListConf}
    {f : α → Sampling γ} {g : β → Except Fault δ} {Q : γ → δ → ListConf → Prop} (h : Agrees (m y) r' P)
    (hk : ∀ a b T c, P a b c → Agrees (f a (T, c)) (g b) Q) : Agrees ((m >>= f) y) (r' >>= g) Q := by
  cases r' with
  | error e => exact sbind_err h
  | ok b =>
    obtain ⟨a, T, c, h1, h2⟩ := h
    rw [sbind_ok h1]
    exact hk a b T c h2

theorem entryLoop_agrees (hc : cfg.Ok) {l j p : Nat} (hp : p < cfg.maxEnt) : ∀ (m fuel k : Nat) (x : Pack) (acc : List UInt8) (t : Nat) (c : ListConf),
    m < fuel → (s.daq.entities p).num = k + m → Part cfg x acc → c.num = (s.daq.entities l).num →
    Agrees ((undisturbed s).entryLoop cfg l j p fuel k x (t, c)) ((List.range' k m).foldlM (sampleEntry cfg s l j) acc)
      (fun x' acc' c' => Part cfg x' acc' ∧ c'.num = (s.daq.entities l).num) := by
  have ho := settled_undisturbed s l
  intro m
  induction m with
  | zero =>
    intro fuel k x acc t c hf hn hx hcn
    cases fuel with
    | zero => omega
    | succ fuel =>
      unfold Others.entryLoop
      rw [sbind_ok (ent_run ho hp _ _ _), hn, if_neg (by omega)]
      exact ⟨x, _, _, rfl, hx, ho.keepNum hcn _⟩
  | succ m ih =>
    intro fuel k x acc t c hf hn hx hcn
    cases fuel with
    | zero => omega
    | succ fuel =>
      unfold Others.entryLoop
      rw [sbind_ok (ent_run ho hp _ _ _), hn, if_pos (by omega), List.range'_succ, List.foldlM_cons]
      refine agrees_bind (takeEntry_agrees hc hx k _ _) ?_
      intro x' acc' T c' ⟨h1, h2⟩
      exact ih fuel (k + 1) x' acc' T c' (by omega) (by omega) h1 h2

theorem odtLoop_agrees (hc : cfg.Ok) (env : Env) {l : Nat} (hl : l < cfg.maxEnt) : ∀ (m fuel j pid : Nat) (data : List UInt8)
    (q : Queue) (t : Nat) (c : ListConf), m < fuel → (s.daq.entities l).num = j + m → data.length = cfg.maxDto → c.num = (s.daq.entities l).num →
    Agrees ((undisturbed s).odtLoop cfg env.timer.toNat l (cfg.timestamping && (s.daq.mode &&& MODE_TIMESTAMP == MODE_TIMESTAMP)) fuel j pid data q (t, c))
      ((List.range' j m).foldlM (sampleList cfg env s l) (pid, q)) (fun a b _ => a = b.2) := by
  have ho := settled_undisturbed s l
  intro m
  induction m with
  | zero =>
    intro fuel j pid data q t c hf hn hd hcn
    cases fuel with
    | zero => omega
    | succ fuel =>
      unfold Others.odtLoop
      have hcn' := ho.keepNum hcn t
      rw [sbind_ok (getConf_run ..), hcn', hn, if_neg (by simp; exact Nat.mod_le _ _)]
      exact ⟨q, _, _, rfl, rfl⟩
  | succ m ih =>
    intro fuel j pid data q t c hf hn hd hcn
    cases fuel with
    | zero => omega
    | succ fuel =>
      have hlt : (s.daq.entities l).num < 256 := Nat.mod_lt _ (by omega)
      unfold Others.odtLoop
      have hcn' := ho.keepNum hcn t
      rw [sbind_ok (getConf_run ..), hcn', hn, if_pos (by rw [Nat.mod_eq_of_lt (by omega)]; omega), List.range'_succ, List.foldlM_cons]
      obtain ⟨c1, e1, n1⟩ := odtAt_run (cfg := cfg) ho hl j (t + 1) ((undisturbed s).conf t c)
      rw [sbind_ok e1]
      have hsl : sampleList cfg env s l (pid, q) j = (getOdt cfg s.daq l j >>= fun od => (List.range od.num).foldlM (sampleEntry cfg s l j)
          (UInt8.ofNat pid :: stampOf cfg env.timer.toNat (cfg.timestamping && (s.daq.mode &&& MODE_TIMESTAMP == MODE_TIMESTAMP)) j) >>= fun data =>
          q.enqueue cfg data >>= fun q' => .ok ((pid + 1) % 256, q')) := by
        have hst : (if j = 0 ∧ (cfg.timestamping && (s.daq.mode &&& MODE_TIMESTAMP == MODE_TIMESTAMP)) = true then leBytes cfg.tsSize env.timer.toNat else []) =
            stampOf cfg env.timer.toNat (cfg.timestamping && (s.daq.mode &&& MODE_TIMESTAMP == MODE_TIMESTAMP)) j := by
          unfold stampOf
          by_cases h0 : j = 0 <;> simp [h0]
        rw [← hst]
        unfold sampleList sampleOdt
        simp only [bind_assoc]
        rfl
      rw [hsl]
      unfold getOdt
      rw [dent_ok hl]
      simp only [ok_bind]
      by_cases hj : ((s.daq.entities l).first % 256 + j) % 256 < cfg.maxEnt
      · rw [dent_ok hj]
        simp only [ok_bind, bind_assoc, List.range_eq_range']
        refine agrees_bind (entryLoop_agrees hc hj _ 256 0 _ _ _ c1 (Nat.mod_lt _ (by omega)) (Nat.zero_add _).symm
          (startPack_part hd (by
            unfold stampOf
            split
            · rw [leBytes_length]; have h1 := hc.dto_lo; have h2 := hc.ts; omega
            · have := hc.dto_lo; simp; omega)) n1) ?_
        intro x acc T c' ⟨hx, hn'⟩
        have h1 : x.data.take x.off ++ List.replicate (x.off - x.data.length) 0 = acc := by
          have h2 := hx.len
          have h3 := hx.size
          have h4 := hx.fits
          rw [hx.data, show x.off - x.data.length = 0 by omega]
          simp
        rw [h1]
        cases hq : q.enqueue cfg acc with
        | error e => exact sbind_err (by rfl)
        | ok q' =>
          rw [sbind_ok (a := q') (x' := (T, c')) rfl]
          simp only [ok_bind]
          exact ih fuel (j + 1) ((pid + 1) % 256) x.data q' T c' (by omega) (by omega) hx.size hn'
      · rw [dent_err hj]
        have h256 : (256 : Nat) = 255 + 1 := rfl
        rw [h256]
        unfold Others.entryLoop
        apply sbind_err
        exact sbind_err (ent_err hj _ _)

theorem pidLoop_agrees : ∀ (m i tmp t : Nat) (c : ListConf),
    Agrees ((undisturbed s).pidLoop cfg m i tmp (t, c)) ((List.range' i m).foldlM (fun acc i => do
      let l ← s.daq.ent cfg i
      return (acc + l.num) % 256) tmp) (fun a b _ => a = b) := by
  intro m
  induction m with
  | zero => intro i tmp t c; exact ⟨tmp, _, _, rfl, rfl⟩
  | succ m ih =>
    intro i tmp t c
    have ho := settled_undisturbed s i
    unfold Others.pidLoop
    rw [List.range'_succ, List.foldlM_cons]
    by_cases hi : i < cfg.maxEnt
    · obtain ⟨c1, e1, _, n1⟩ := listConf_run (cfg := cfg) ho hi (.inl rfl) t c
      rw [sbind_ok e1, sbind_ok (getConf_run ..), dent_ok hi, ho.keepNum n1]
      exact ih (i + 1) _ _ _
    · rw [dent_err hi]
      refine sbind_err ?_
      unfold Others.listConf
      exact sbind_err (ent_err hi _ _)

end

/-- Without other threads this is the model of an event used everywhere else, whatever the state. -/
theorem C87_alone {cfg : Cfg} (hc : cfg.Ok) (env : Env) (s : St) (c : ListConf) (ev : Nat) :
    (triggerDuring cfg env (undisturbed s) c s ev).map Prod.snd = triggerEvent cfg env s ev := by
  have key : Agrees ((undisturbed s).sample cfg env ev s.daq.queue (0, c))
      (if ¬ s.daq.running then .ok none
       else if cfg.numEvents % 256 ≤ ev then .ok none
       else do
        let list := s.daq.listForEvent ev
        let (found, pid) ← getFirstPid cfg s.daq list
        if ¬ found then return none
        else
          let l ← s.daq.ent cfg list
          let (_, q) ← (List.range l.num).foldlM (sampleList cfg env s list) (pid, s.daq.queue)
          return some q) (fun a b _ => a = b) := by
    unfold Others.sample
    rw [sbind_ok (a := s.daq.running) (x' := (0 + 1, c)) rfl]
    by_cases hrun : s.daq.running = true
    · have hr : ¬ ¬ s.daq.running = true := fun h => h hrun
      rw [if_neg hr, if_neg hr]
      by_cases hev : cfg.numEvents % 256 ≤ ev
      · rw [if_pos hev, if_pos hev]; exact ⟨none, _, _, rfl, rfl⟩
      · rw [if_neg hev, if_neg hev, sbind_ok (a := s.daq.listForEvent ev) (x' := (1 + 1, c)) rfl]
        generalize s.daq.listForEvent ev = l
        simp only
        unfold getFirstPid
        have ho := settled_undisturbed s l
        by_cases hcnt : s.daq.listCount ≤ l
        · rw [if_pos hcnt]
          have e1 : (undisturbed s).firstPid cfg l (1 + 1, c) = .ok (none, 3, c) := by
            unfold Others.firstPid
            rw [sbind_ok (a := s.daq.listCount) (x' := (3, c)) rfl, if_pos hcnt]; rfl
          rw [sbind_ok e1]
          exact ⟨none, _, _, rfl, rfl⟩
        · rw [if_neg hcnt]
          simp only [bind_assoc]
          have h1 : Agrees ((undisturbed s).firstPid cfg l (1 + 1, c)) ((List.range l).foldlM (fun acc i => do
              let l ← s.daq.ent cfg i
              return (acc + l.num) % 256) 0) (fun a b _ => a = some b) := by
            unfold Others.firstPid
            rw [sbind_ok (a := s.daq.listCount) (x' := (3, c)) rfl, if_neg hcnt, List.range_eq_range']
            have h := pidLoop_agrees (cfg := cfg) (s := s) l 0 0 3 c
            revert h
            cases (List.range' 0 l).foldlM (fun acc i => do
              let l ← s.daq.ent cfg i
              return (acc + l.num) % 256) 0 with
            | error e => exact fun h => sbind_err h
            | ok b =>
              rintro ⟨a, T, c', h1, rfl⟩
              exact ⟨some a, T, c', by rw [sbind_ok h1]; rfl, rfl⟩
          refine agrees_bind h1 ?_
          rintro _ pid T c1 rfl
          simp only [pure_bind]
          rw [if_neg (by decide)]
          by_cases hl : l < cfg.maxEnt
          · obtain ⟨c2, e2, f2, n2⟩ := listConf_run (cfg := cfg) ho hl (.inl rfl) T c1
            rw [dent_ok hl, sbind_ok e2, sbind_ok (a := s.daq.mode) (x' := (_, c2)) rfl]
            simp only [ok_bind, List.range_eq_range']
            have hb : (s.daq.entities l).num < 256 := Nat.mod_lt _ (by omega)
            refine agrees_bind (odtLoop_agrees hc env hl _ 256 0 pid _ s.daq.queue _ c2 hb (Nat.zero_add _).symm List.length_replicate n2) ?_
            rintro a ⟨b1, b2⟩ T' c' h
            exact ⟨some a, T', c', rfl, by rw [h]⟩
          · rw [dent_err hl]
            refine sbind_err ?_
            unfold Others.listConf
            exact sbind_err (ent_err hl _ _)
    · rw [if_pos (by simp [hrun]), if_pos (by simp [hrun])]; exact ⟨none, _, _, rfl, rfl⟩
  unfold triggerDuring triggerEvent
  by_cases hrun : s.daq.running = true
  · have hr : ¬ ¬ s.daq.running = true := fun h => h hrun
    rw [if_neg hr]
    rw [if_neg hr] at key
    by_cases hev : cfg.numEvents % 256 ≤ ev
    · rw [if_pos hev] at key ⊢
      obtain ⟨a, T, c', h1, rfl⟩ := key
      rw [h1]; rfl
    · rw [if_neg hev] at key ⊢
      simp only at key ⊢
      cases hg : getFirstPid cfg s.daq (s.daq.listForEvent ev) with
      | error e =>
        rw [hg] at key
        rw [show _ = Except.error e from key]; rfl
      | ok r =>
        obtain ⟨found, pid⟩ := r
        rw [hg] at key
        simp only [ok_bind] at key ⊢
        cases found with
        | false =>
          obtain ⟨a, T, c', h1, rfl⟩ := key
          rw [h1]; rfl
        | true =>
          rw [if_neg (by decide)] at key ⊢
          cases he : s.daq.ent cfg (s.daq.listForEvent ev) with
          | error e =>
            rw [he] at key
            rw [show _ = Except.error e from key]; rfl
          | ok l =>
            rw [he] at key
            simp only [ok_bind] at key ⊢
            cases hf : (List.range l.num).foldlM (sampleList cfg env s (s.daq.listForEvent ev)) (pid, s.daq.queue) with
            | error e =>
              rw [hf] at key
              rw [show _ = Except.error e from key]; rfl
            | ok b =>
              rw [hf] at key
              obtain ⟨a, T, c', h1, rfl⟩ := key
              rw [h1]
              simp only [ok_bind]
              show Except.map _ (match transmit cfg (queueSize + 1) { s with daq := { s.daq with queue := b.2 } } with
                | .error e => Except.error e
                | .ok s' => .ok (T, s')) = _
              cases transmit cfg (queueSize + 1) { s with daq := { s.daq with queue := b.2 } } <;> rfl
  · rw [if_pos (by simp [hrun])]
    rw [if_pos (by simp [hrun])] at key
    obtain ⟨a, T, c', h1, rfl⟩ := key
    rw [h1]; rfl

/-! ### Examples and what goes wrong -/

def Ex.stamped : Cfg := { Ex.sim with timestamping := true }

/-- `Ex.plan` is being measured. -/
def Ex.atWork : Option St :=
  (run Ex.stamped (St.init Ex.stamped Ex.mem) (Ex.c [0xFF] :: (Ex.plan.setup false).map Ex.c)).toOption

/-- The number of accesses and the packets of an event. -/
def Ex.during (o : St → Others) (ev : Nat) : Option (Nat × List (List UInt8)) :=
  Ex.atWork.bind fun s => (triggerDuring Ex.stamped Ex.env (o s) ⟨0, 0⟩ s ev).toOption.map fun r =>
    (r.1, (r.2.tx.drop s.tx.length).map (·.bytes.drop 4))

/-- The error an event ends with. -/
def Ex.wrecked (o : St → Others) (ev : Nat) : Option Fault :=
  Ex.atWork.bind fun s => match triggerDuring Ex.stamped Ex.env (o s) ⟨0, 0⟩ s ev with
    | .ok _ => none
    | .error e => some e

/-- Without other threads. -/
example : Ex.during undisturbed 2 = some (63, [[0, 0x78, 0x56, 0x34, 0x12, 0x10, 0x11, 0x20], [1, 0x30, 0x31, 0x32, 0x33]]) := by
  decide +kernel

/-- Another thread changes the word at 0x10 before access `k`. -/
def Ex.writer (k : Nat) (s : St) : Others :=
  { undisturbed s with mem := fun t => if t < k then Ex.mem else fun a => if a = 0x10 ∨ a = 0x11 then 0xEE else Ex.mem a }

theorem Ex.writer_settled (k : Nat) (s : St) (l : Nat) : Settled s l (Ex.writer k s) :=
  have h := settled_undisturbed s l
  ⟨h.pool, h.count, h.mode, h.events, h.running, h.first, h.num, h.alone⟩

/-- Written late enough, the new values are not in the packets. -/
example : Ex.during (Ex.writer 30) 2 = some (63, [[0, 0x78, 0x56, 0x34, 0x12, 0x10, 0x11, 0x20], [1, 0x30, 0x31, 0x32, 0x33]]) := by
  decide +kernel

/-- The packets of the theorem, with element 0 copied at 24 and 25. -/
example : Ex.plan.over 4 (fun t => if t < 25 then Ex.mem else fun a => if a = 0x10 ∨ a = 0x11 then 0xEE else Ex.mem a)
    (fun j k => if j = 0 then (if k = 0 then 24 else 40) else 56) 0x12345678 0 =
    [[0, 0x78, 0x56, 0x34, 0x12, 0x10, 0xEE, 0x20], [1, 0x30, 0x31, 0x32, 0x33]] := by decide +kernel

/-- The full claim fails: an element of two bytes is read half before and half after it is written, so that the packets
are those of no moment of the event. -/
theorem C87_fails_torn : ∃ s, Ex.atWork = some s ∧ Settled s 0 (Ex.writer 25 s) ∧
    Ex.during (Ex.writer 25) 2 = some (63, [[0, 0x78, 0x56, 0x34, 0x12, 0x10, 0xEE, 0x20], [1, 0x30, 0x31, 0x32, 0x33]]) ∧
    ∀ t, Ex.plan.packets 4 ((Ex.writer 25 s).mem t) 0x12345678 0 ≠ [[0, 0x78, 0x56, 0x34, 0x12, 0x10, 0xEE, 0x20], [1, 0x30, 0x31, 0x32, 0x33]] := by
  have h : Ex.atWork.isSome = true := by decide +kernel
  obtain ⟨s, hs⟩ := Option.isSome_iff_exists.mp h
  refine ⟨s, hs, Ex.writer_settled .., by decide +kernel, ?_⟩
  intro t
  have e : (Ex.writer 25 s).mem t = if t < 25 then Ex.mem else fun a => if a = 0x10 ∨ a = 0x11 then 0xEE else Ex.mem a := rfl
  rw [e]
  split <;> decide +kernel

/-- Another thread answers GET_DAQ_LIST_INFO for list 1 before access `k` (src/xcp.c:1774). -/
def Ex.inquirer (k : Nat) (s : St) : Others :=
  { undisturbed s with conf := fun t c => if t = k then ⟨(s.daq.entities 1).first, (s.daq.entities 1).num⟩ else c }

/-- The full claim fails: the question about list 1 ends the sampling of list 0 after its first ODT. -/
theorem C87_fails_shared : Ex.during (Ex.inquirer 35) 2 = some (41, [[0, 0x78, 0x56, 0x34, 0x12, 0x10, 0x11, 0x20]]) := by decide +kernel

/-- At other moments a packet contains an element of list 1, or one element is missing, or an assertion fails. -/
theorem C87_fails_mixed :
    Ex.during (Ex.inquirer 17) 2 = some (62, [[0, 0x78, 0x56, 0x34, 0x12, 0x40, 0x20], [1, 0x30, 0x31, 0x32, 0x33]]) ∧
    Ex.during (Ex.inquirer 11) 2 = some (51, [[0, 0x78, 0x56, 0x34, 0x12, 0x10, 0x11], [1, 0x30, 0x31, 0x32, 0x33]]) ∧
    Ex.wrecked (Ex.inquirer 30) 2 = some .assertFail := by decide +kernel

/-- Another thread stops the measurement and makes an element longer, before access `k`. -/
def Ex.rewriter (k : Nat) (s : St) : Others :=
  { undisturbed s with daq := fun t => if t < k then s.daq else
      ((run Ex.stamped s ([[0xDD, 0], [0xE2, 0, 0, 0, 1, 0], [0xE1, 0xFF, 64, 0, 0x30, 0, 0, 0]].map Ex.c)).toOption.map (·.daq)).getD s.daq }

/-- The full claim fails: the length is checked by the assertion and read again for copying, beyond the end of the packet. -/
theorem C87_fails_stopped : Ex.wrecked (Ex.rewriter 54) 2 = some .dtoOob := by decide +kernel

end Xcp
