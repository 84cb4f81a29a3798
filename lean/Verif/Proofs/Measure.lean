import Verif.Spec.Measure
import Verif.Props.C30_SetDaqPtr
import Verif.Props.C31_WriteDaq
import Verif.Props.C32_FirstPid
import Verif.Props.C33_Dto
import Verif.Props.C36_Unassigned
import Verif.Props.C37_Modes
import Verif.Props.C79_Remote
/-
Setting up a measurement, phase by phase.
-/
set_option autoImplicit false
namespace Xcp
open Spec

/-- The packets received begin with the given bytes (what lies behind is not looked at). -/
def Spec.Begin : List (Env × Pdu) → List (List UInt8) → Prop
  | [], [] => True
  | p :: ps, b :: bs => b <+: p.2.buf ∧ Begin ps bs
  | _, _ => False

theorem begin_append : ∀ {ps : List (Env × Pdu)} {a b : List (List UInt8)}, Begin ps (a ++ b) →
    ∃ p q, ps = p ++ q ∧ Begin p a ∧ Begin q b
  | ps, [], b, h => ⟨[], ps, rfl, trivial, h⟩
  | [], _ :: _, _, h => h.elim
  | x :: ps, c :: a, b, h => by
    obtain ⟨p, q, e, h1, h2⟩ := begin_append (ps := ps) (a := a) (b := b) h.2
    exact ⟨x :: p, q, by rw [e]; rfl, ⟨h.1, h1⟩, h2⟩

/-- Commands sent one after the other, and their answers. -/
def Talk (cfg : Cfg) (s s' : St) (ps : List (Env × Pdu)) (cs : List (List UInt8)) : Prop :=
  run cfg s (ps.map fun p => (p.1, .cmd p.2)) = .ok s' ∧ ∃ fs, s'.tx = s.tx ++ fs ∧ CarryAll cfg fs cs

theorem Talk.nil (cfg : Cfg) (s : St) : Talk cfg s s [] [] := ⟨rfl, [], by simp, trivial⟩

theorem carryAll_append {cfg : Cfg} : ∀ {a b : List Frame} {x y : List (List UInt8)}, CarryAll cfg a x → CarryAll cfg b y →
    CarryAll cfg (a ++ b) (x ++ y)
  | [], _, [], _, _, h => h
  | [], _, _ :: _, _, h, _ => h.elim
  | _ :: _, _, [], _, h, _ => h.elim
  | _ :: _, _, _ :: _, _, h, h' => ⟨h.1, carryAll_append h.2 h'⟩

theorem Talk.append {cfg : Cfg} {s t u : St} {p q : List (Env × Pdu)} {a b : List (List UInt8)} (h : Talk cfg s t p a)
    (h' : Talk cfg t u q b) : Talk cfg s u (p ++ q) (a ++ b) := by
  obtain ⟨e, fs, h1, h2⟩ := h
  obtain ⟨e', gs, h3, h4⟩ := h'
  refine ⟨?_, fs ++ gs, by rw [h3, h1, List.append_assoc], carryAll_append h2 h4⟩
  rw [List.map_append, run_append, e]
  exact e'

theorem Talk.one {cfg : Cfg} {s t : St} {x : Env × Pdu} {a : List UInt8} (h : step cfg x.1 s (.cmd x.2) = .ok t)
    (ha : Answers cfg s t a) : Talk cfg s t [x] [a] := by
  obtain ⟨f, h1, h2⟩ := ha
  refine ⟨?_, [f], h1, h2, trivial⟩
  simp only [List.map_cons, List.map_nil, run, h]
  rfl

theorem Talk.cons {cfg : Cfg} {s t u : St} {x : Env × Pdu} {p : List (Env × Pdu)} {a : List UInt8} {b : List (List UInt8)}
    (h : step cfg x.1 s (.cmd x.2) = .ok t) (ha : Answers cfg s t a) (h' : Talk cfg t u p b) : Talk cfg s u (x :: p) (a :: b) :=
  (Talk.one h ha).append h'

/-- What the setup does not change. -/
structure Calm (cfg : Cfg) (s t : St) : Prop where
  ready : DaqReady cfg t
  stopped : t.daq.running = false
  queue : t.daq.queue = s.daq.queue
  rest : SameCore { s with daq := t.daq } t

theorem sameCore_daq {s t u : St} (h : SameCore { s with daq := t.daq } t) (h' : SameCore { t with daq := u.daq } u) :
    SameCore { s with daq := u.daq } u :=
  ⟨h'.connected.trans h.connected, h'.busy.trans h.busy, rfl, h'.pgm.trans h.pgm, h'.resProt.trans h.resProt, h'.seedReq.trans h.seedReq,
    h'.mta.trans h.mta, h'.slaveBlk.trans h.slaveBlk, h'.masterBlk.trans h.masterBlk, h'.ck.trans h.ck, h'.mem.trans h.mem⟩

theorem Calm.mem {cfg : Cfg} {s t : St} (h : Calm cfg s t) : t.mem = s.mem := h.rest.mem

theorem Calm.trans {cfg : Cfg} {s t u : St} (h : Calm cfg s t) (h' : Calm cfg t u) : Calm cfg s u :=
  ⟨h'.ready, h'.stopped, h'.queue.trans h.queue, sameCore_daq h.rest h'.rest⟩

theorem calm_of {cfg : Cfg} {s t : St} (hd : DaqReady cfg s) (hr : s.daq.running = false) (h : SameCore { s with daq := t.daq } t)
    (h1 : t.daq.running = s.daq.running) (h2 : t.daq.queue = s.daq.queue) : Calm cfg s t :=
  ⟨hd.same h, h1.trans hr, h2, h⟩

/-! ### Bytes of commands -/

theorem pre_get {b : List UInt8} {p : Pdu} (h : b <+: p.buf) {i : Nat} {x : UInt8} (hx : b[i]? = some x) : p.buf[i]? = some x := by
  obtain ⟨r, e⟩ := h
  rw [← e, List.getElem?_append_left (getElem?_lt hx)]
  exact hx

theorem pre_param {b : List UInt8} {p : Pdu} (h : b <+: p.buf) {m : Bool} {off n v : Nat} (hv : v < 256 ^ n)
    (hn : off + n ≤ b.length) (hb : (b.drop off).take n = enc m n v) : Param m p off n v := by
  refine ⟨hv, ?_⟩
  obtain ⟨r, e⟩ := h
  rw [← e, List.drop_append_of_le_length (by omega), List.take_append_of_le_length (by simp; omega)]
  exact hb

theorem enc_len (m : Bool) (n v : Nat) : (enc m n v).length = n := by
  unfold enc; cases m <;> simp

/-! ### Allocation -/

/-- The requests can follow each other. -/
def Goes : Nat → Conf → List AllocReq → Prop
  | _, _, [] => True
  | ph, c, r :: rs => r ≠ .free ∧ c.admits r ∧ r.legal ph ∧ Goes r.rank (c.apply r) rs

theorem apply_size {c : Conf} {r : AllocReq} (hf : r ≠ .free) (h : c.admits r) : (c.apply r).size = c.size + r.size := by
  cases r with
  | free => exact absurd rfl hf
  | daq n => exact Conf.size_daq c n
  | odt l n => exact Conf.size_odt h
  | entry l o n =>
    obtain ⟨odts, h1, h2⟩ := h
    exact Conf.size_entry h1 h2

theorem goes_append : ∀ {a b : List AllocReq} {ph : Nat} {c : Conf}, Goes ph c a →
    Goes ((a.getLast?.map AllocReq.rank).getD ph) (a.foldl Conf.apply c) b → Goes ph c (a ++ b)
  | [], _, _, _, _, h => h
  | r :: a, b, ph, c, h, h' => by
    refine ⟨h.1, h.2.1, h.2.2.1, goes_append h.2.2.2 ?_⟩
    rw [List.foldl_cons] at h'
    cases a with
    | nil => exact h'
    | cons x a =>
      rw [List.getLast?_cons_cons] at h'
      cases hl : (x :: a).getLast? with
      | none => simp at hl
      | some y => rw [hl] at h'; exact h'

theorem goes_size : ∀ {rs : List AllocReq} {ph : Nat} {c : Conf}, Goes ph c rs →
    (rs.foldl Conf.apply c).size = c.size + (rs.map AllocReq.size).sum
  | [], _, _, _ => by simp
  | r :: rs, ph, c, h => by
    rw [List.foldl_cons, goes_size h.2.2.2, apply_size h.1 h.2.1]
    simp; omega

/-- A request leaves queue, pointer and mode alone, and brings the allocation to its phase. -/
theorem applyReq_keeps {cfg : Cfg} {d d' : Daq} {r : AllocReq} (h : applyReq cfg d r = .ok (d', ERR_SUCCESS)) :
    d'.running = d.running ∧ d'.queue = d.queue ∧ phase d'.allocState = r.rank := by
  cases r with
  | free =>
    simp only [applyReq, daqFreeResult] at h
    split at h
    · rename_i hx
      cases h
      unfold daqFree
      dsimp only
      rw [if_pos hx]
      exact ⟨rfl, rfl, rfl⟩
    · simp at h; exact absurd h.2 (by decide)
  | daq n =>
    simp only [applyReq, allocDaq] at h
    split at h
    · simp at h; exact absurd h.2 (by decide)
    · split at h
      · cases h; exact ⟨rfl, rfl, rfl⟩
      · simp at h; exact absurd h.2 (by decide)
  | odt l n =>
    simp only [applyReq, allocOdt] at h
    split at h
    · simp at h; exact absurd h.2 (by decide)
    · split at h
      · unfold Daq.ent at h
        split at h
        · cases h; exact ⟨rfl, rfl, rfl⟩
        · cases h
      · simp at h; exact absurd h.2 (by decide)
  | entry l o n =>
    simp only [applyReq, allocOdtEntry] at h
    split at h
    · simp at h; exact absurd h.2 (by decide)
    · split at h
      · unfold Daq.ent at h
        split at h
        · simp only [ok_bind] at h
          split at h
          · cases h; exact ⟨rfl, rfl, rfl⟩
          · cases h
        · cases h
      · simp at h; exact absurd h.2 (by decide)

/-- The bytes of a request. -/
def reqBytes (m : Bool) : AllocReq → List UInt8
  | .free => [0xD6]
  | .daq n => [0xD5, 0] ++ enc m 2 n
  | .odt l n => [0xD4, 0] ++ enc m 2 l ++ [UInt8.ofNat n]
  | .entry l o n => [0xD3, 0] ++ enc m 2 l ++ [UInt8.ofNat o, UInt8.ofNat n]

/-- The numbers of a request fit in their fields. -/
def Small : AllocReq → Prop
  | .free => True
  | .daq n => n < 256
  | .odt l n => l < 256 ∧ n < 256
  | .entry l o n => l < 256 ∧ o < 256 ∧ n < 256

theorem reqBytes_is {m : Bool} {p : Pdu} {r : AllocReq} (hs : Small r) (h : reqBytes m r <+: p.buf) : IsReq m p r := by
  have e2 := fun v => enc_len m 2 v
  cases r with
  | free => exact pre_get h rfl
  | daq n => exact ⟨pre_get h rfl, pre_param h (by simp [Small] at hs; omega) (by simp [reqBytes, e2]) (by simp [reqBytes, List.take_of_length_le, e2])⟩
  | odt l n =>
    refine ⟨pre_get h rfl, pre_param h (by have := hs.1; omega) (by simp [reqBytes, e2]) ?_, hs.2, pre_get h ?_⟩
    · simp only [reqBytes]; rw [enc_two]; cases m <;> rfl
    · simp only [reqBytes]; rw [enc_two]; cases m <;> rfl
  | entry l o n =>
    refine ⟨pre_get h rfl, pre_param h (by have := hs.1; omega) (by simp [reqBytes, e2]) ?_, hs.2.1, pre_get h ?_, hs.2.2, pre_get h ?_⟩
    all_goals simp only [reqBytes]; rw [enc_two]; cases m <;> rfl

theorem alloc_one {cfg : Cfg} (hc : cfg.Ok) (hs : ShortOk cfg) (ha : AllocOn cfg) {s : St} (hd : DaqReady cfg s) (hrun : s.daq.running = false)
    {c : Conf} (hh : Held cfg s.daq c) {r : AllocReq} (had : c.admits r) (hl : r.legal (phase s.daq.allocState))
    (hsz : r = .free ∨ s.daq.entityCount + r.size ≤ cfg.maxEnt) (hsm : Small r) {x : Env × Pdu} (hx : reqBytes cfg.motorola r <+: x.2.buf) :
    ∃ t, step cfg x.1 s (.cmd x.2) = .ok t ∧ Answers cfg s t [0xFF] ∧ Calm cfg s t ∧ Held cfg t.daq (c.apply r) ∧
      phase t.daq.allocState = r.rank := by
  obtain ⟨d', h1, h2⟩ := held_accept hc hh had hl hsz
  have hp := reqBytes_is hsm hx
  have hst := alloc_step x.1 hd (ha r) hp
  rw [h1] at hst
  obtain ⟨a, h3, h4, h5⟩ := request_step hs ha hd hp hst
  rw [h1] at h3
  injection h3 with h3
  injection h3 with h3 h3'
  subst h3'
  obtain ⟨k1, k2, k3⟩ := applyReq_keeps h1
  refine ⟨_, hst, h4, ?_, ?_, ?_⟩
  · exact calm_of hd hrun h5 (by rw [← h3]; exact k1) (by rw [← h3]; exact k2)
  · rw [← h3]; exact h2
  · rw [← h3]; exact k3

theorem free_one {cfg : Cfg} (hs : ShortOk cfg) (ha : AllocOn cfg) {s : St} (hd : DaqReady cfg s) (hrun : s.daq.running = false)
    (hi : s.daq.allocState ≠ .idle) {x : Env × Pdu} (hx : [0xD6] <+: x.2.buf) :
    ∃ t, step cfg x.1 s (.cmd x.2) = .ok t ∧ Answers cfg s t [0xFF] ∧ Calm cfg s t ∧ Held cfg t.daq [] ∧ phase t.daq.allocState = 0 := by
  have f1 := (allocOk_rank _ hi).1
  have h1 : applyReq cfg s.daq .free = .ok (daqFree s.daq, ERR_SUCCESS) := by
    simp only [applyReq, daqFreeResult, f1, if_true]
  have h2 : Held cfg (daqFree s.daq) [] := by
    have e : daqFree s.daq = { s.daq with entityCount := 0, listCount := 0, odtCount := 0, listForEvent := fun _ => 0,
                                          entities := fun _ => Entity.zero, allocState := .afterFree } := by
      simp only [daqFree, f1, if_true]
    rw [e]
    exact ⟨rep_free cfg _ rfl rfl rfl (fun _ => rfl), flat_nil _, by simp⟩
  have hp : IsReq cfg.motorola x.2 .free := pre_get hx rfl
  have hst := alloc_step x.1 hd (ha .free) hp
  rw [h1] at hst
  obtain ⟨a, h3, h4, h5⟩ := request_step hs ha hd hp hst
  rw [h1] at h3
  injection h3 with h3
  injection h3 with h3 h3'
  subst h3'
  obtain ⟨k1, k2, k3⟩ := applyReq_keeps h1
  refine ⟨_, hst, h4, ?_, ?_, ?_⟩
  · exact calm_of hd hrun h5 (by rw [← h3]; exact k1) (by rw [← h3]; exact k2)
  · rw [← h3]; exact h2
  · rw [← h3]; exact k3

theorem alloc_all {cfg : Cfg} (hc : cfg.Ok) (hs : ShortOk cfg) (ha : AllocOn cfg) : ∀ (rs : List AllocReq) {s : St} {c : Conf}
    {ps : List (Env × Pdu)}, DaqReady cfg s → s.daq.running = false → Held cfg s.daq c → Goes (phase s.daq.allocState) c rs →
    c.size + (rs.map AllocReq.size).sum ≤ cfg.maxEnt → (∀ r ∈ rs, Small r) → Begin ps (rs.map (reqBytes cfg.motorola)) →
    ∃ t, Talk cfg s t ps (List.replicate rs.length [0xFF]) ∧ Calm cfg s t ∧ Held cfg t.daq (rs.foldl Conf.apply c)
  | [], s, c, [], hd, hrun, hh, _, _, _, _ => ⟨s, Talk.nil cfg s, ⟨hd, hrun, rfl, ⟨rfl, rfl, rfl, rfl, rfl, rfl, rfl, rfl, rfl, rfl, rfl⟩⟩, hh⟩
  | [], _, _, _ :: _, _, _, _, _, _, _, h => h.elim
  | _ :: _, _, _, [], _, _, _, _, _, _, h => h.elim
  | r :: rs, s, c, x :: ps, hd, hrun, hh, hg, hsz, hsm, hb => by
    have hu := hh.rep.used
    simp only [List.map_cons, List.sum_cons] at hsz
    obtain ⟨t, h1, h2, h3, h4, h5⟩ := alloc_one hc hs ha hd hrun hh hg.2.1 hg.2.2.1 (Or.inr (by omega)) (hsm r (by simp)) hb.1
    obtain ⟨u, h6, h7, h8⟩ := alloc_all hc hs ha rs (s := t) (c := c.apply r) (ps := ps) h3.ready h3.stopped h4 (by rw [h5]; exact hg.2.2.2)
      (by rw [apply_size hg.1 hg.2.1]; omega) (fun q hq => hsm q (by simp [hq])) hb.2
    exact ⟨u, Talk.cons h1 h2 h6, h3.trans h7, h8⟩

/-- The requests of a plan. -/
def Spec.Plan.reqs (p : Plan) : List AllocReq :=
  .daq p.lists.length :: (p.lists.zipIdx.map fun x => .odt x.2 x.1.length) ++ p.cells.map fun x => .entry x.1 x.2.1 x.2.2.length

theorem reserve_reqs (m : Bool) (p : Plan) : p.reserve m = [0xD6] :: p.reqs.map (reqBytes m) := by
  simp [Plan.reserve, Plan.reqs, reqBytes, Function.comp_def]

abbrev Odts := List (List (UInt8 × UInt32))

theorem goes_odts : ∀ (rest done : List Odts) (ph : Nat), ph = 1 ∨ ph = 2 →
    Goes ph (done.map (fun o => List.replicate o.length 0) ++ List.replicate rest.length [])
      ((rest.zipIdx done.length).map fun x => .odt x.2 x.1.length) ∧
    ((rest.zipIdx done.length).map fun x => AllocReq.odt x.2 x.1.length).foldl Conf.apply
      (done.map (fun o => List.replicate o.length 0) ++ List.replicate rest.length []) =
      (done ++ rest).map (fun o => List.replicate o.length 0)
  | [], done, ph, _ => by simp [Goes]
  | o :: rest, done, ph, hph => by
    have e : (Conf.apply (done.map (fun o => List.replicate o.length 0) ++ List.replicate (o :: rest).length [])
        (.odt done.length o.length)) =
        (done ++ [o]).map (fun o => List.replicate o.length 0) ++ List.replicate rest.length [] := by
      simp [Conf.apply, List.replicate_succ]
    obtain ⟨h1, h2⟩ := goes_odts rest (done ++ [o]) 2 (Or.inr rfl)
    rw [List.length_append, List.length_singleton] at h1 h2
    rw [List.zipIdx_cons, List.map_cons]
    refine ⟨⟨by simp, ?_, ?_, ?_⟩, ?_⟩
    · show _ = _
      rw [List.getElem?_append_right (by simp)]
      simp
    · simp only [AllocReq.legal, AllocReq.rank]; omega
    · show Goes 2 _ _
      rw [e]; exact h1
    · rw [List.foldl_cons, e, h2]; simp

theorem modify_mid {α : Type} (a : List α) (x : α) (b : List α) (f : α → α) : (a ++ x :: b).modify a.length f = a ++ f x :: b := by
  induction a with
  | nil => rfl
  | cons y a ih => simp [ih]

theorem goes_entries : ∀ (rest : Odts) (done : List Nat) (a b : Conf) (ph : Nat), ph = 2 ∨ ph = 3 →
    Goes ph (a ++ (done ++ List.replicate rest.length 0) :: b)
      ((rest.zipIdx done.length).map fun y => .entry a.length y.2 y.1.length) ∧
    ((rest.zipIdx done.length).map fun y => AllocReq.entry a.length y.2 y.1.length).foldl Conf.apply
      (a ++ (done ++ List.replicate rest.length 0) :: b) = a ++ (done ++ rest.map List.length) :: b
  | [], done, a, b, ph, _ => by simp [Goes]
  | o :: rest, done, a, b, ph, hph => by
    have e : Conf.apply (a ++ (done ++ List.replicate (o :: rest).length 0) :: b) (.entry a.length done.length o.length) =
        a ++ ((done ++ [o.length]) ++ List.replicate rest.length 0) :: b := by
      rw [Conf.apply, modify_mid]
      simp [List.replicate_succ]
    obtain ⟨h1, h2⟩ := goes_entries rest (done ++ [o.length]) a b 3 (Or.inr rfl)
    rw [List.length_append, List.length_singleton] at h1 h2
    rw [List.zipIdx_cons, List.map_cons]
    refine ⟨⟨by simp, ⟨done ++ List.replicate (o :: rest).length 0, ?_, ?_⟩, ?_, ?_⟩, ?_⟩
    · simp
    · simp [List.replicate_succ]
    · simp only [AllocReq.legal, AllocReq.rank]; omega
    · show Goes 3 _ _
      rw [e]; exact h1
    · rw [List.foldl_cons, e, h2]; simp

theorem goes_cells : ∀ (rest : List Odts) (done : Conf) (ph : Nat), ph = 2 ∨ ph = 3 →
    Goes ph (done ++ rest.map (fun o => List.replicate o.length 0))
      ((rest.zipIdx done.length).flatMap fun x => x.1.zipIdx.map fun y => .entry x.2 y.2 y.1.length) ∧
    ((rest.zipIdx done.length).flatMap fun x => x.1.zipIdx.map fun y => AllocReq.entry x.2 y.2 y.1.length).foldl Conf.apply
      (done ++ rest.map (fun o => List.replicate o.length 0)) = done ++ rest.map (fun o => o.map List.length)
  | [], done, ph, _ => by simp [Goes]
  | o :: rest, done, ph, hph => by
    obtain ⟨h1, h2⟩ := goes_entries o [] done (rest.map (fun o => List.replicate o.length 0)) ph hph
    simp only [List.nil_append, List.length_nil] at h1 h2
    rw [List.zipIdx_cons, List.flatMap_cons, List.map_cons]
    have hph' : ∀ (rs : List AllocReq), (∀ r ∈ rs, r.rank = 3) → ((rs.getLast?.map AllocReq.rank).getD ph) = 2 ∨
        ((rs.getLast?.map AllocReq.rank).getD ph) = 3 := by
      intro rs hrs
      cases h : rs.getLast? with
      | none => exact hph
      | some r => exact Or.inr (hrs r (List.mem_of_getLast? h))
    obtain ⟨h3, h4⟩ := goes_cells rest (done ++ [o.map List.length]) _
      (hph' (o.zipIdx.map fun y => .entry done.length y.2 y.1.length) (by
        intro r hr
        obtain ⟨y, -, rfl⟩ := List.mem_map.mp hr
        rfl))
    rw [List.length_append, List.length_singleton] at h3 h4
    refine ⟨goes_append h1 ?_, ?_⟩
    · rw [h2]
      simpa using h3
    · rw [List.foldl_append, h2]
      have : done ++ o.map List.length :: rest.map (fun o => List.replicate o.length 0) =
          done ++ [o.map List.length] ++ rest.map (fun o => List.replicate o.length 0) := by simp
      rw [this, h4]
      simp

theorem plan_goes (p : Plan) : Goes 0 [] p.reqs ∧ p.reqs.foldl Conf.apply [] = p.conf := by
  have e : p.cells.map (fun x => AllocReq.entry x.1 x.2.1 x.2.2.length) =
      p.lists.zipIdx.flatMap fun x => x.1.zipIdx.map fun y => AllocReq.entry x.2 y.2 y.1.length := by
    unfold Plan.cells
    rw [List.map_flatMap]
    simp [Function.comp_def]
  obtain ⟨h1, h2⟩ := goes_odts p.lists [] 1 (Or.inl rfl)
  simp only [List.map_nil, List.nil_append, List.length_nil] at h1 h2
  cases hl : p.lists with
  | nil =>
    have hc : p.cells = [] := by simp [Plan.cells, hl]
    simp [Plan.reqs, hc, hl, Goes, Plan.conf, Conf.admits, Conf.apply, AllocReq.legal, AllocReq.rank]
  | cons o rest =>
    have hlast : (((p.lists.zipIdx.map fun x => AllocReq.odt x.2 x.1.length).getLast?.map AllocReq.rank).getD 1) = 2 := by
      cases h : (p.lists.zipIdx.map fun x => AllocReq.odt x.2 x.1.length).getLast? with
      | none =>
        rw [List.getLast?_eq_none_iff] at h
        rw [hl] at h
        simp at h
      | some r =>
        obtain ⟨y, -, rfl⟩ := List.mem_map.mp (List.mem_of_getLast? h)
        rfl
    obtain ⟨h3, h4⟩ := goes_cells p.lists [] 2 (Or.inl rfl)
    simp only [List.nil_append, List.length_nil] at h3 h4
    unfold Plan.reqs
    rw [e]
    refine ⟨⟨by simp, trivial, Or.inr (Or.inr rfl), goes_append (by simp only [Conf.apply, List.nil_append]; exact h1) ?_⟩, ?_⟩
    · show Goes (((_ : List AllocReq).getLast?.map AllocReq.rank).getD 1) _ _
      rw [hlast]
      simp only [Conf.apply, List.nil_append]
      rw [h2]; exact h3
    · rw [List.cons_append, List.foldl_cons, List.foldl_append]
      simp only [Conf.apply, List.nil_append]
      have := h2
      rw [show List.foldl Conf.apply (List.replicate p.lists.length []) _ = _ from h2, h4]
      rfl

/-- The ODTs of a plan. -/
theorem mem_cells {p : Plan} {l o : Nat} {es : List (UInt8 × UInt32)} :
    (l, o, es) ∈ p.cells ↔ ∃ odts, p.lists[l]? = some odts ∧ odts[o]? = some es := by
  unfold Plan.cells
  rw [List.mem_flatMap]
  constructor
  · rintro ⟨⟨odts, i⟩, h1, h2⟩
    obtain ⟨⟨e, j⟩, h3, h4⟩ := List.mem_map.mp h2
    simp only [Prod.mk.injEq] at h4
    obtain ⟨rfl, rfl, rfl⟩ := h4
    exact ⟨odts, List.mem_zipIdx_iff_getElem?.mp h1, List.mem_zipIdx_iff_getElem?.mp h3⟩
  · rintro ⟨odts, h1, h2⟩
    exact ⟨(odts, l), List.mem_zipIdx_iff_getElem?.mpr h1, List.mem_map.mpr ⟨(es, o), List.mem_zipIdx_iff_getElem?.mpr h2, rfl⟩⟩

theorem conf_cell {p : Plan} {l o : Nat} {es : List (UInt8 × UInt32)} (h : (l, o, es) ∈ p.cells) {k : Nat} (hk : k < es.length) :
    p.conf.has (.entry l o k) := by
  obtain ⟨odts, h1, h2⟩ := mem_cells.mp h
  exact ⟨odts.map List.length, es.length, by simp [Plan.conf, h1], by simp [h2], hk⟩

/-! ### Writing the elements -/

/-- The elements of these ODT entries are in the pool. -/
def Stocked (p : Plan) (d : Daq) (done : Nat → Nat → Nat → Prop) : Prop :=
  ∀ l o es k e, (l, o, es) ∈ p.cells → es[k]? = some e → done l o k →
    (d.entities (slot d (.entry l o k))).len = e.1.toNat ∧ (d.entities (slot d (.entry l o k))).addr = e.2

theorem Stocked.pool {p : Plan} {d d' : Daq} {done : Nat → Nat → Nat → Prop} (h : Stocked p d done) (he : d'.entities = d.entities) :
    Stocked p d' done := by
  intro l o es k e h1 h2 h3
  rw [slot_pool he, he]
  exact h l o es k e h1 h2 h3

theorem stock_one {cfg : Cfg} (hc : cfg.Ok) (hs : ShortOk cfg) (hsup : cfg.supports .writeDaq = true) {p : Plan} {s : St}
    (hd : DaqReady cfg s) (hrun : s.daq.running = false) (hr : Rep cfg s.daq p.conf) {done : Nat → Nat → Nat → Prop}
    (hw : Stocked p s.daq done) {l o k : Nat} {es : List (UInt8 × UInt32)} {e : UInt8 × UInt32} (hcell : (l, o, es) ∈ p.cells)
    (hk : es[k]? = some e) (hptr : s.daq.ptr = ⟨l, o, k⟩) (hdef : cfg.wrapv = true ∨ e.2.toNat < 2 ^ 31) {x : Env × Pdu}
    (hx : [0xE1, 0xFF, e.1, 0] ++ enc cfg.motorola 4 e.2.toNat <+: x.2.buf) :
    ∃ t, step cfg x.1 s (.cmd x.2) = .ok t ∧ Answers cfg s t [0xFF] ∧ Calm cfg s t ∧ Rep cfg t.daq p.conf ∧
      Stocked p t.daq (fun l' o' k' => done l' o' k' ∨ (l', o', k') = (l, o, k)) ∧ t.daq.ptr = ⟨l, o, k + 1⟩ := by
  have he := conf_cell hcell (getElem?_lt hk)
  have hp : IsWriteDaq cfg x.2 e := by
    refine ⟨pre_get hx rfl, ⟨_, pre_get hx rfl⟩, pre_get hx rfl, ⟨_, pre_get hx rfl⟩, ?_, hdef⟩
    exact pre_param hx e.2.toNat_lt (by simp [enc_len]) (by simp [List.take_of_length_le, enc_len])
  obtain ⟨t, h1, h2, h3, h4, h5, h6⟩ := write_step hc hs x.1 hd hsup hrun hr hptr he hp
  have hrest := h3.rest
  refine ⟨t, h1, h2, calm_of hd hrun h5 (by rw [hrest]) (by rw [hrest]), h4, ?_, by rw [h3.ptr]; rfl⟩
  intro l' o' es' k' e' h7 h8 h9
  have he' := conf_cell h7 (getElem?_lt h8)
  rw [h6 _ he']
  by_cases heq : (l', o', k') = (l, o, k)
  · simp only [Prod.mk.injEq] at heq
    obtain ⟨rfl, rfl, rfl⟩ := heq
    have : es' = es := by
      obtain ⟨a, a1, a2⟩ := mem_cells.mp h7
      obtain ⟨b, b1, b2⟩ := mem_cells.mp hcell
      rw [a1] at b1; cases b1
      rw [a2] at b2; cases b2; rfl
    subst this
    rw [hk] at h8; cases h8
    exact h3.stored 0 e rfl
  · have hne : slot s.daq (.entry l' o' k') ≠ slot s.daq (.entry l o k) := by
      intro h
      have := hr.disjoint _ _ he' he h
      simp at this
      exact heq (by simp [this])
    rw [h3.others _ (by
      intro i hi
      have : i = 0 := by simpa using hi
      subst this
      exact hne)]
    rcases h9 with h9 | h9
    · exact hw l' o' es' k' e' h7 h8 h9
    · exact absurd h9 heq

theorem stock_list {cfg : Cfg} (hc : cfg.Ok) (hs : ShortOk cfg) (hsup : cfg.supports .writeDaq = true) {p : Plan} {l o : Nat}
    {es : List (UInt8 × UInt32)} (hcell : (l, o, es) ∈ p.cells) (hdef : ∀ e ∈ es, cfg.wrapv = true ∨ e.2.toNat < 2 ^ 31) :
    ∀ (rest : List (UInt8 × UInt32)) (k : Nat), es.drop k = rest → ∀ {s : St} {ps : List (Env × Pdu)} {done : Nat → Nat → Nat → Prop},
    DaqReady cfg s → s.daq.running = false → Rep cfg s.daq p.conf → Stocked p s.daq done → s.daq.ptr = ⟨l, o, k⟩ →
    Begin ps (rest.map fun e => [0xE1, 0xFF, e.1, 0] ++ enc cfg.motorola 4 e.2.toNat) →
    ∃ t, Talk cfg s t ps (List.replicate rest.length [0xFF]) ∧ Calm cfg s t ∧ Rep cfg t.daq p.conf ∧
      Stocked p t.daq (fun l' o' k' => done l' o' k' ∨ (l' = l ∧ o' = o ∧ k ≤ k')) := by
  intro rest
  induction rest with
  | nil =>
    intro k hk s ps done hd hrun hr hw hptr hb
    cases ps with
    | cons _ _ => exact hb.elim
    | nil =>
      refine ⟨s, Talk.nil cfg s, ⟨hd, hrun, rfl, ⟨rfl, rfl, rfl, rfl, rfl, rfl, rfl, rfl, rfl, rfl, rfl⟩⟩, hr, ?_⟩
      intro l' o' es' k' e' h1 h2 h3
      rcases h3 with h3 | ⟨rfl, rfl, h3⟩
      · exact hw l' o' es' k' e' h1 h2 h3
      · obtain ⟨a, a1, a2⟩ := mem_cells.mp h1
        obtain ⟨b, b1, b2⟩ := mem_cells.mp hcell
        rw [a1] at b1; cases b1
        rw [a2] at b2; cases b2
        have := getElem?_lt h2
        have h4 : (es.drop k).length = 0 := by rw [hk]; rfl
        simp at h4; omega
  | cons e rest ih =>
    intro k hk s ps done hd hrun hr hw hptr hb
    cases ps with
    | nil => exact hb.elim
    | cons x ps =>
      have hke : es[k]? = some e := by
        have : (es.drop k)[0]? = some e := by rw [hk]; rfl
        simpa using this
      have hmem : e ∈ es := List.mem_of_getElem? hke
      obtain ⟨t, h1, h2, h3, h4, h5, h6⟩ := stock_one hc hs hsup hd hrun hr hw hcell hke hptr (hdef e hmem) hb.1
      obtain ⟨u, h7, h8, h9, h10⟩ := ih (k + 1) (by
        have := congrArg (List.drop 1) hk
        rw [List.drop_drop] at this
        exact this) h3.ready h3.stopped h4 h5 h6 hb.2
      refine ⟨u, Talk.cons h1 h2 h7, h3.trans h8, h9, ?_⟩
      intro l' o' es' k' e' g1 g2 g3
      apply h10 l' o' es' k' e' g1 g2
      rcases g3 with g3 | ⟨g3, g4, g5⟩
      · exact Or.inl (Or.inl g3)
      · by_cases e : k' = k
        · exact Or.inl (Or.inr (by rw [g3, g4, e]))
        · exact Or.inr ⟨g3, g4, by omega⟩

/-- SET_DAQ_PTR and the WRITE_DAQ commands of ODTs. -/
theorem stock_cells {cfg : Cfg} (hc : cfg.Ok) (hs : ShortOk cfg) (hsup : cfg.supports .writeDaq = true) (hsup' : cfg.supports .setDaqPtr = true)
    {p : Plan} (hne : ∀ x ∈ p.cells, x.2.2 ≠ [] ∧ x.1 < 256 ∧ x.2.1 < 256)
    (hdef : ∀ x ∈ p.cells, ∀ e ∈ x.2.2, cfg.wrapv = true ∨ e.2.toNat < 2 ^ 31) :
    ∀ (cs : List (Nat × Nat × List (UInt8 × UInt32))), (∀ x ∈ cs, x ∈ p.cells) → ∀ {s : St} {ps : List (Env × Pdu)} {done : Nat → Nat → Nat → Prop},
    DaqReady cfg s → s.daq.running = false → Rep cfg s.daq p.conf → Stocked p s.daq done →
    Begin ps (cs.flatMap fun x => ([0xE2, 0] ++ enc cfg.motorola 2 x.1 ++ [UInt8.ofNat x.2.1, 0]) ::
      x.2.2.map fun e => [0xE1, 0xFF, e.1, 0] ++ enc cfg.motorola 4 e.2.toNat) →
    ∃ t, Talk cfg s t ps (List.replicate (cs.map fun x => 1 + x.2.2.length).sum [0xFF]) ∧ Calm cfg s t ∧ Rep cfg t.daq p.conf ∧
      Stocked p t.daq (fun l o k => done l o k ∨ ∃ es, (l, o, es) ∈ cs) := by
  intro cs
  induction cs with
  | nil =>
    intro _ s ps done hd hrun hr hw hb
    cases ps with
    | cons _ _ => exact hb.elim
    | nil =>
      refine ⟨s, Talk.nil cfg s, ⟨hd, hrun, rfl, ⟨rfl, rfl, rfl, rfl, rfl, rfl, rfl, rfl, rfl, rfl, rfl⟩⟩, hr, ?_⟩
      intro l o es k e h1 h2 h3
      rcases h3 with h3 | ⟨_, h3⟩
      · exact hw l o es k e h1 h2 h3
      · cases h3
  | cons c cs ih =>
    intro hcs s ps done hd hrun hr hw hb
    obtain ⟨l, o, es⟩ := c
    have hcell := hcs (l, o, es) (by simp)
    obtain ⟨hn, hl, ho⟩ := hne _ hcell
    rw [List.flatMap_cons] at hb
    obtain ⟨q, r, rfl, hb1, hb2⟩ := begin_append hb
    cases q with
    | nil => exact hb1.elim
    | cons x q =>
      obtain ⟨hx, hb1⟩ := hb1
      have hpos : 0 < es.length := by cases es with
        | nil => exact absurd rfl hn
        | cons _ _ => simp
      have hhas := conf_cell hcell hpos
      have g : ∀ v, enc cfg.motorola 2 v = if cfg.motorola then [UInt8.ofNat (v / 256), UInt8.ofNat v] else [UInt8.ofNat v, UInt8.ofNat (v / 256)] :=
        fun v => by rw [enc_two]
      have h2 : Param cfg.motorola x.2 2 2 l :=
        pre_param hx (by have : l < 256 := hl; omega) (by simp [enc_len]) (by simp only [g]; cases cfg.motorola <;> rfl)
      have h4 : x.2.buf[4]? = some (UInt8.ofNat o) := pre_get hx (by simp only [g]; cases cfg.motorola <;> rfl)
      have h5 : x.2.buf[5]? = some 0 := pre_get hx (by simp only [g]; cases cfg.motorola <;> rfl)
      obtain ⟨t, k1, k2, -⟩ := C30_set_daq_ptr_partial hc hs x.1 hd hsup' hrun hr (pre_get hx rfl) h2 hl h4 h5
      have ho' : (UInt8.ofNat o).toNat = o := u8n ho
      rw [ho'] at k2
      obtain ⟨k2, k3⟩ := k2 hhas
      have hdq : t.daq = { s.daq with ptr := ⟨l, o, 0⟩ } := k3.daq
      have hcalm : Calm cfg s t := calm_of hd hrun (by rw [hdq]; exact k3) (by rw [hdq]) (by rw [hdq])
      have hr' : Rep cfg t.daq p.conf := rep_pool (d := s.daq) (by rw [hdq]; exact ⟨rfl, rfl, rfl, rfl, rfl⟩) hr
      obtain ⟨u, m1, m2, m3, m4⟩ := stock_list hc hs hsup hcell (hdef _ hcell) es 0 rfl hcalm.ready hcalm.stopped hr'
        (hw.pool (by rw [hdq])) (by rw [hdq]) hb1
      obtain ⟨v, n1, n2, n3, n4⟩ := ih (fun x hx => hcs x (by simp [hx])) m2.ready m2.stopped m3 m4 hb2
      refine ⟨v, ?_, (hcalm.trans m2).trans n2, n3, ?_⟩
      · have := (Talk.cons k1 k2 m1).append n1
        rw [← List.replicate_succ, List.replicate_append_replicate] at this
        simpa [Nat.add_comm] using this
      · intro l' o' es' k e g1 g2 g3
        apply n4 l' o' es' k e g1 g2
        rcases g3 with g3 | ⟨a, g3⟩
        · exact Or.inl (Or.inl g3)
        · rcases List.mem_cons.mp g3 with g3 | g3
          · cases g3
            exact Or.inl (Or.inr ⟨rfl, rfl, Nat.zero_le _⟩)
          · exact Or.inr ⟨a, g3⟩

/-! ### Events, selection, start -/

/-- What is established once the elements are written. -/
structure Loaded (cfg : Cfg) (p : Plan) (s : St) : Prop where
  rep : Rep cfg s.daq p.conf
  written : Stocked p s.daq (fun _ _ _ => True)

theorem Loaded.pool {cfg : Cfg} {p : Plan} {s t : St} (h : Loaded cfg p s) (hp : SamePool s.daq t.daq) : Loaded cfg p t :=
  ⟨rep_pool hp h.rep, h.written.pool hp.pool⟩

/-- The mode byte of the plan. -/
def Spec.Plan.mode (p : Plan) : UInt8 := if p.stamps then 0x10 else 0

theorem newMode_stamp (old : UInt8) (p : Plan) : newMode old p.mode &&& 0x10 = p.mode := by
  rw [newMode_bits]
  unfold Plan.mode
  cases p.stamps
  · exact forall_u8 (P := fun old => ((old &&& 0x0C) ||| ((if false = true then (0x10 : UInt8) else 0) &&& 0xF3)) &&& 0x10 = if false = true then 0x10 else 0)
      (by decide +kernel) old
  · exact forall_u8 (P := fun old => ((old &&& 0x0C) ||| ((if true = true then (0x10 : UInt8) else 0) &&& 0xF3)) &&& 0x10 = if true = true then 0x10 else 0)
      (by decide +kernel) old

theorem assign_all {cfg : Cfg} (hs : ShortOk cfg) (hsup : cfg.supports .setDaqListMode = true) {p : Plan} (hev : ∀ e ∈ p.events, e < cfg.numEvents)
    (hlt : cfg.numEvents < 256) (hnd : p.events.Nodup) (hlen : p.events.length < 256) :
    ∀ (rest done : List Nat), p.events = done ++ rest → ∀ {s : St} {ps : List (Env × Pdu)}, DaqReady cfg s → s.daq.running = false → Loaded cfg p s →
    (∀ l e, done[l]? = some e → s.daq.listForEvent e = l) → (done ≠ [] → s.daq.mode &&& 0x10 = p.mode) →
    Begin ps ((rest.zipIdx done.length).map fun x =>
      [0xE0, if p.stamps then 0x10 else 0] ++ enc cfg.motorola 2 x.2 ++ enc cfg.motorola 2 x.1 ++ [1, 0]) →
    ∃ t, Talk cfg s t ps (List.replicate rest.length [0xFF]) ∧ Calm cfg s t ∧ Loaded cfg p t ∧
      (∀ l e, p.events[l]? = some e → t.daq.listForEvent e = l) ∧ (p.events ≠ [] → t.daq.mode &&& 0x10 = p.mode) := by
  intro rest
  induction rest with
  | nil =>
    intro done he s ps hd hrun hl h1 h2 hb
    cases ps with
    | cons _ _ => exact hb.elim
    | nil =>
      rw [List.append_nil] at he
      rw [he]
      exact ⟨s, Talk.nil cfg s, ⟨hd, hrun, rfl, ⟨rfl, rfl, rfl, rfl, rfl, rfl, rfl, rfl, rfl, rfl, rfl⟩⟩, hl, h1, h2⟩
  | cons e rest ih =>
    intro done he s ps hd hrun hl h1 h2 hb
    cases ps with
    | nil => exact hb.elim
    | cons x ps =>
      rw [List.zipIdx_cons, List.map_cons] at hb
      obtain ⟨hx, hb⟩ := hb
      have hdl : done.length < 256 := by rw [he] at hlen; simp at hlen; omega
      have hee : e < cfg.numEvents := hev e (by rw [he]; simp)
      have g : ∀ v, enc cfg.motorola 2 v = if cfg.motorola then [UInt8.ofNat (v / 256), UInt8.ofNat v] else [UInt8.ofNat v, UInt8.ofNat (v / 256)] :=
        fun v => by rw [enc_two]
      obtain ⟨t, k1, k2, k3, k4⟩ := mode_step hs x.1 hd hsup hrun (p := x.2) (m := p.mode) (b6 := 1) (b7 := 0) (l := done.length) (ev := e)
        (pre_get hx rfl) (pre_get hx rfl) (by unfold Plan.mode; cases p.stamps <;> decide)
        (pre_param hx (by omega) (by simp [enc_len]) (by simp only [g]; cases cfg.motorola <;> rfl)) hdl
        (pre_param hx (by omega) (by simp [enc_len]) (by simp only [g]; cases cfg.motorola <;> rfl)) hee
        (pre_get hx (by simp only [g]; cases cfg.motorola <;> rfl)) (by decide) (pre_get hx (by simp only [g]; cases cfg.motorola <;> rfl))
      have hcalm : Calm cfg s t := calm_of hd hrun k4 (by rw [k3]) (by rw [k3])
      have hnot : e ∉ done := by
        rw [he] at hnd
        have := (List.nodup_append.mp hnd).2.2
        intro hm
        exact this e hm e (by simp) rfl
      obtain ⟨u, m1, m2, m3, m4⟩ := ih (done ++ [e]) (by rw [he]; simp) hcalm.ready hcalm.stopped
        (hl.pool (by rw [k3]; exact ⟨rfl, rfl, rfl, rfl, rfl⟩)) (by
          intro l e' hl'
          rw [k3]
          show (if e' = e then done.length else s.daq.listForEvent e') = l
          by_cases hlt' : l < done.length
          · rw [List.getElem?_append_left hlt'] at hl'
            have : e' ≠ e := by intro h; subst h; exact hnot (List.mem_of_getElem? hl')
            rw [if_neg this]
            exact h1 l e' hl'
          · have := getElem?_lt hl'
            simp at this
            have : l = done.length := by omega
            subst this
            simp at hl'
            rw [if_pos hl'.symm]) (by
          intro _
          rw [k3]
          exact newMode_stamp _ p) (by rw [List.length_append]; exact hb)
      exact ⟨u, Talk.cons k1 k2 m1, hcalm.trans m2, m3, m4⟩

theorem select_step {cfg : Cfg} (hc : cfg.Ok) (hs : ShortOk cfg) (env : Env) {s : St} (hd : DaqReady cfg s)
    (hsup : cfg.supports .startStopDaqList = true) {c : Conf} (hr : Rep cfg s.daq c) {p : Pdu} {l : Nat}
    (hp : code p = some 0xDE) (h1 : p.buf[1]? = some 2) (h2 : Param cfg.motorola p 2 2 l) (hl : l < c.length) :
    ∃ t, step cfg env s (.cmd p) = .ok t ∧ Answers cfg s t [0xFF, UInt8.ofNat (c.firstPid l), 0, 0, 0, 0, 0, 0] ∧
      t.daq = { s.daq with mode := s.daq.mode ||| MODE_SELECTED } ∧ SameCore { s with daq := t.daq } t := by
  have hll : l % 256 = l := by
    have := hr.fits
    have := hc.ent_lt
    unfold Conf.size at *
    apply Nat.mod_eq_of_lt; omega
  rw [hd.ready.stepc env .startStopDaqList hp hsup]
  have hb := hd.bump
  have hsame := bumpReceived_same cfg s
  have htx : (bumpReceived cfg s).tx = s.tx := bumpReceived_tx cfg s
  generalize bumpReceived cfg s = b at *
  rw [← hsame.daq] at hr
  simp only [handler, startStopDaqListRes, assertPgmIdle, assertUnlocked, byte_eq h1, h2.word, ok_bind, hll]
  rw [if_neg hb.pgm, if_neg hb.notProtected, if_neg (by rw [hr.lists]; omega)]
  unfold startStopDaqListBody startStopDaqListEnd
  rw [if_neg (by decide), if_neg (by decide), if_pos rfl]
  have hr' : Rep cfg { b.daq with mode := b.daq.mode ||| MODE_SELECTED } c := rep_pool (d := b.daq) ⟨rfl, rfl, rfl, rfl, rfl⟩ hr
  rw [hr'.firstPid hc hl]
  refine ⟨_, rfl, send8_answers hs (by simp) htx, by rw [← hsame.daq]; rfl, ?_⟩
  exact (hsame.withDaq _).trans (send8_same _ _ _)

theorem or_selected (m : UInt8) : (m ||| MODE_SELECTED) &&& 0x10 = m &&& 0x10 :=
  forall_u8 (P := fun m => (m ||| MODE_SELECTED) &&& 0x10 = m &&& 0x10) (by decide +kernel) m

theorem body_stamp (b : Bool) (m : UInt8) : startStopBody b m &&& 0x10 = m &&& 0x10 := by
  cases b
  · exact forall_u8 (P := fun m => startStopBody false m &&& 0x10 = m &&& 0x10) (by decide +kernel) m
  · exact forall_u8 (P := fun m => startStopBody true m &&& 0x10 = m &&& 0x10) (by decide +kernel) m

theorem repeat_stamp (b : Bool) (n : Nat) (m : UInt8) : Nat.repeat (startStopBody b) n m &&& 0x10 = m &&& 0x10 := by
  induction n with
  | zero => rfl
  | succ n ih => rw [Nat.repeat, body_stamp, ih]

/-- What is established once the lists have got their events. -/
structure Armed (cfg : Cfg) (p : Plan) (s : St) : Prop where
  loaded : Loaded cfg p s
  events : ∀ l e, p.events[l]? = some e → s.daq.listForEvent e = l
  mode : p.events ≠ [] → s.daq.mode &&& 0x10 = p.mode

theorem select_all {cfg : Cfg} (hc : cfg.Ok) (hs : ShortOk cfg) (hsup : cfg.supports .startStopDaqList = true) {p : Plan} :
    ∀ (ls : List Nat), (∀ l ∈ ls, l < p.lists.length) → ∀ {s : St} {ps : List (Env × Pdu)}, DaqReady cfg s → s.daq.running = false → Armed cfg p s →
    Begin ps (ls.map fun l => [0xDE, 2] ++ enc cfg.motorola 2 l) →
    ∃ t, Talk cfg s t ps (ls.map fun l => [0xFF, UInt8.ofNat (p.conf.firstPid l), 0, 0, 0, 0, 0, 0]) ∧ Calm cfg s t ∧ Armed cfg p t := by
  intro ls
  induction ls with
  | nil =>
    intro _ s ps hd hrun ha hb
    cases ps with
    | cons _ _ => exact hb.elim
    | nil => exact ⟨s, Talk.nil cfg s, ⟨hd, hrun, rfl, ⟨rfl, rfl, rfl, rfl, rfl, rfl, rfl, rfl, rfl, rfl, rfl⟩⟩, ha⟩
  | cons l ls ih =>
    intro hls s ps hd hrun ha hb
    cases ps with
    | nil => exact hb.elim
    | cons x ps =>
      obtain ⟨hx, hb⟩ := hb
      have hl := hls l (by simp)
      have hlt : l < 256 := by
        have h1 := ha.loaded.rep.fits
        have h2 := hc.ent_lt
        have : p.conf.length = p.lists.length := by simp [Plan.conf]
        unfold Conf.size at h1; omega
      obtain ⟨t, k1, k2, k3, k4⟩ := select_step hc hs x.1 hd hsup ha.loaded.rep (p := x.2) (l := l) (pre_get hx rfl) (pre_get hx rfl)
        (pre_param hx (by omega) (by simp [enc_len]) (by simp [List.take_of_length_le, enc_len])) (by simpa [Plan.conf] using hl)
      have hcalm : Calm cfg s t := calm_of hd hrun k4 (by rw [k3]) (by rw [k3])
      obtain ⟨u, m1, m2, m3⟩ := ih (fun y hy => hls y (by simp [hy])) hcalm.ready hcalm.stopped
        ⟨ha.loaded.pool (by rw [k3]; exact ⟨rfl, rfl, rfl, rfl, rfl⟩), by rw [k3]; exact ha.events, by
          intro h; rw [k3]; exact (or_selected _).trans (ha.mode h)⟩ hb
      exact ⟨u, Talk.cons k1 k2 m1, hcalm.trans m2, m3⟩

theorem start_one {cfg : Cfg} (hs : ShortOk cfg) (hsup : cfg.supports .startStopSynch = true) {p : Plan} {s : St} (hd : DaqReady cfg s)
    (ha : Armed cfg p s) {x : Env × Pdu} (hx : [0xDD, 1] <+: x.2.buf) :
    ∃ t, step cfg x.1 s (.cmd x.2) = .ok t ∧ Answers cfg s t [0xFF] ∧ t.daq.running = true ∧ Armed cfg p t ∧ t.daq.queue = s.daq.queue ∧
      SameCore { s with daq := t.daq } t := by
  rw [hd.ready.stepc x.1 .startStopSynch (pre_get hx rfl) hsup]
  have hb := hd.bump
  have hsame := bumpReceived_same cfg s
  have htx : (bumpReceived cfg s).tx = s.tx := bumpReceived_tx cfg s
  have h1 : x.2.buf[1]? = some 1 := pre_get hx rfl
  generalize bumpReceived cfg s = b at *
  simp only [handler, startStopSynchRes, assertPgmIdle, assertUnlocked, byte_eq h1, ok_bind]
  rw [if_neg hb.pgm, if_neg hb.notProtected, if_pos trivial]
  have ha' : Armed cfg p b := by
    have e : ∀ t : St, t.daq = s.daq → Armed cfg p t := fun t ht =>
      ⟨ha.loaded.pool (by rw [ht]; exact .refl _), by rw [ht]; exact ha.events, by rw [ht]; exact ha.mode⟩
    exact e b hsame.daq
  refine ⟨_, rfl, send8_answers hs (by simp) htx, rfl, ⟨ha'.loaded.pool ⟨rfl, rfl, rfl, rfl, rfl⟩, ha'.events, ?_⟩, ?_,
    ⟨hsame.connected, hsame.busy, rfl, hsame.pgm, hsame.resProt, hsame.seedReq, hsame.mta, hsame.slaveBlk, hsame.masterBlk, hsame.ck, hsame.mem⟩⟩
  · intro h
    exact (repeat_stamp _ _ _).trans (ha'.mode h)
  · show b.daq.queue = _
    rw [hsame.daq]

end Xcp
