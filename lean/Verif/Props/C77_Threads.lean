import Verif.Model.Conc
import Verif.Model.Example
import Verif.Proofs.Tx
import Verif.Spec.Params
/-
C77: packets sent from different threads.
-/
set_option autoImplicit false
namespace Xcp
open Spec

/-- The frame carries the packet: a length field with the length of the packet, some counter, the packet. -/
def Spec.FrameOf (cfg : Cfg) (p : List UInt8) (f : List UInt8) : Prop :=
  ∃ len ctr : List UInt8, f = len ++ ctr ++ p ∧ len.length = cfg.lenSize ∧ ctr.length = cfg.ctrSize ∧
    leVal len = p.length % 256 ^ cfg.lenSize

/-- The frames carry the packets, one each, in order. -/
def Spec.FramesOf (cfg : Cfg) : List (List UInt8) → List (List UInt8) → Prop
  | [], [] => True
  | p :: ps, f :: fs => FrameOf cfg p f ∧ FramesOf cfg ps fs
  | _, _ => False

/-- The packet fits in its buffer. -/
def Spec.PktFits (cfg : Cfg) (p : SPkt) : Prop :=
  match p.kind with
  | .cto => p.bytes.length ≤ cfg.maxCto
  | .dto => p.bytes.length ≤ cfg.maxDto

/-- What thread `i` has sent. -/
def Spec.sentBy (s : SSys) (i : Nat) : List (List UInt8) := (s.wire.filter (·.1 = i)).map (·.2)

/-- Whatever the counter is, the program `todo` sends frames for the packets `ps`. -/
def Emits (cfg : Cfg) : List (Kind × SAct) → OutBufs → SRegs → List SPkt → Prop
  | [], _, _, ps => ps = []
  | (k, .send) :: rest, b, r, ps =>
    ∃ p ps', ps = p :: ps' ∧ FrameOf cfg p.bytes ((b.get k).bytes.take r.sendLen) ∧ Emits cfg rest b r ps'
  | (k, a) :: rest, b, r, ps =>
    ∀ c, Emits cfg rest (b.set k (a.local cfg c (b.get k) r).1) (a.local cfg c (b.get k) r).2 ps

theorem OutBufs.get_set (b : OutBufs) (k : Kind) (o : OutBuf) : (b.set k o).get k = o := by cases k <;> rfl
theorem OutBufs.get_set_ne (b : OutBufs) {k k' : Kind} (o : OutBuf) (h : k' ≠ k) : (b.set k o).get k' = b.get k' := by
  cases k <;> cases k' <;> first | rfl | exact absurd rfl h
theorem OutBufs.set_set (b : OutBufs) (k : Kind) (o o' : OutBuf) : (b.set k o).set k o' = b.set k o' := by cases k <;> rfl
theorem OutBufs.set_get (b : OutBufs) (k : Kind) : b.set k (b.get k) = b := by cases k <;> rfl

theorem Emits.step {cfg : Cfg} {k : Kind} {a : SAct} (ha : a ≠ .send) {rest : List (Kind × SAct)} {b : OutBufs} {r : SRegs} {ps : List SPkt} :
    Emits cfg ((k, a) :: rest) b r ps ↔
      ∀ c, Emits cfg rest (b.set k (a.local cfg c (b.get k) r).1) (a.local cfg c (b.get k) r).2 ps := by
  cases a <;> first | rfl | exact absurd rfl ha

/-- Buffers that the program does not use play no part. -/
theorem Emits.congr {cfg : Cfg} {todo : List (Kind × SAct)} : ∀ {b b' : OutBufs} {r : SRegs} {ps : List SPkt},
    (∀ k, (∃ a, (k, a) ∈ todo) → b.get k = b'.get k) → Emits cfg todo b r ps → Emits cfg todo b' r ps := by
  induction todo with
  | nil => intro b b' r ps _ h; exact h
  | cons x rest ih =>
    obtain ⟨k, a⟩ := x
    intro b b' r ps hb h
    have hk := hb k ⟨a, List.mem_cons_self ..⟩
    by_cases ha : a = .send
    · subst ha
      obtain ⟨p, ps', h1, h2, h3⟩ := h
      refine ⟨p, ps', h1, hk ▸ h2, ih (fun k' ⟨a', h'⟩ => hb k' ⟨a', List.mem_cons_of_mem _ h'⟩) h3⟩
    · rw [Emits.step ha] at h ⊢
      intro c
      rw [← hk]
      refine ih ?_ (h c)
      intro k' ⟨a', h'⟩
      by_cases hkk : k' = k
      · subst hkk; rw [OutBufs.get_set, OutBufs.get_set]
      · rw [OutBufs.get_set_ne _ _ hkk, OutBufs.get_set_ne _ _ hkk]
        exact hb k' ⟨a', List.mem_cons_of_mem _ h'⟩

/-- Accesses other than `send` in a row, with any values of the counter. -/
def LRun (cfg : Cfg) : List SAct → OutBuf × SRegs → OutBuf × SRegs → Prop
  | [], x, y => x = y
  | a :: as, x, y => ∃ c, LRun cfg as (a.local cfg c x.1 x.2) y

theorem LRun.append {cfg : Cfg} {as bs : List SAct} {x y : OutBuf × SRegs} :
    LRun cfg (as ++ bs) x y ↔ ∃ z, LRun cfg as x z ∧ LRun cfg bs z y := by
  induction as generalizing x with
  | nil => simp [LRun]
  | cons a as ih =>
    simp only [List.cons_append, LRun, ih]
    constructor
    · rintro ⟨c, z, h1, h2⟩; exact ⟨z, ⟨c, h1⟩, h2⟩
    · rintro ⟨z, ⟨c, h1⟩, h2⟩; exact ⟨c, z, h1, h2⟩

theorem Emits.of_lrun {cfg : Cfg} {k : Kind} {rest : List (Kind × SAct)} {ps : List SPkt} {as : List SAct} (hs : .send ∉ as) :
    ∀ {b : OutBufs} {r : SRegs}, (∀ o' r', LRun cfg as (b.get k, r) (o', r') → Emits cfg rest (b.set k o') r' ps) →
      Emits cfg (as.map (k, ·) ++ rest) b r ps := by
  induction as with
  | nil => intro b r h; have := h _ _ rfl; rwa [OutBufs.set_get] at this
  | cons a as ih =>
    intro b r h
    rw [List.map_cons, List.cons_append, Emits.step (by rintro rfl; exact hs (List.mem_cons_self ..))]
    intro c
    refine ih (fun h => hs (List.mem_cons_of_mem _ h)) ?_
    intro o' r' h'
    rw [OutBufs.get_set] at h'
    rw [OutBufs.set_set]
    exact h o' r' ⟨c, h'⟩

theorem set_overlay {α : Type} (l : List α) (n : Nat) (v : α) (vs : List α) (h : n + vs.length < l.length) :
    (l.take n ++ vs ++ l.drop (n + vs.length)).set (n + vs.length) v = l.take n ++ (vs ++ [v]) ++ l.drop (n + (vs ++ [v]).length) := by
  have h1 : (l.take n).length = n := by simp; omega
  rw [List.set_append_right _ _ (by simp [h1])]
  have h2 : l.drop (n + vs.length) = l[n + vs.length] :: l.drop (n + vs.length + 1) := List.drop_eq_getElem_cons h
  rw [h2]
  simp [h1, Nat.add_assoc]

/-- Bytes stored in ascending order. -/
theorem lrun_puts {cfg : Cfg} {bs : List UInt8} : ∀ {i : Nat} {o : OutBuf} {r : SRegs} {y : OutBuf × SRegs},
    hdrSize cfg + i + bs.length ≤ o.bytes.length → LRun cfg (puts i bs) (o, r) y →
    y = (⟨o.len, o.bytes.take (hdrSize cfg + i) ++ bs ++ o.bytes.drop (hdrSize cfg + i + bs.length)⟩, r) := by
  induction bs with
  | nil => intro i o r y _ h; simp only [puts, LRun] at h; rw [← h]; simp
  | cons v vs ih =>
    intro i o r y hl h
    obtain ⟨c, h⟩ := h
    simp only [List.length_cons] at hl
    have := ih (by simp only [List.length_set]; omega) h
    rw [this]
    simp only [Prod.mk.injEq, OutBuf.mk.injEq, true_and, and_true]
    have h1 : (o.bytes.set (hdrSize cfg + i) v).take (hdrSize cfg + (i + 1)) = o.bytes.take (hdrSize cfg + i) ++ [v] := by
      rw [List.set_eq_take_append_cons_drop, if_pos (by omega), List.take_append, List.take_of_length_le (by simp; omega)]
      have : hdrSize cfg + (i + 1) - (o.bytes.take (hdrSize cfg + i)).length = 1 := by simp; omega
      rw [this]
      simp
    have h2 : (o.bytes.set (hdrSize cfg + i) v).drop (hdrSize cfg + (i + 1) + vs.length) = o.bytes.drop (hdrSize cfg + i + (vs.length + 1)) := by
      rw [List.drop_set_of_lt (by omega)]
      congr 1; omega
    rw [h1, h2]
    simp

/-- Bytes stored in descending order. -/
theorem lrun_puts_reverse {cfg : Cfg} {bs : List UInt8} : ∀ {i : Nat} {o : OutBuf} {r : SRegs} {y : OutBuf × SRegs},
    hdrSize cfg + i + bs.length ≤ o.bytes.length → LRun cfg (puts i bs).reverse (o, r) y →
    y = (⟨o.len, o.bytes.take (hdrSize cfg + i) ++ bs ++ o.bytes.drop (hdrSize cfg + i + bs.length)⟩, r) := by
  induction bs with
  | nil => intro i o r y _ h; simp only [puts, List.reverse_nil, LRun] at h; rw [← h]; simp
  | cons v vs ih =>
    intro i o r y hl h
    simp only [puts, List.reverse_cons] at h
    obtain ⟨z, h1, c, h2⟩ := LRun.append.mp h
    simp only [List.length_cons] at hl
    have := ih (by omega) h1
    subst this
    simp only [LRun, SAct.local] at h2
    rw [← h2]
    simp only [Prod.mk.injEq, OutBuf.mk.injEq, true_and, and_true]
    have h3 : o.bytes.take (hdrSize cfg + (i + 1)) = o.bytes.take (hdrSize cfg + i) ++ [o.bytes[hdrSize cfg + i]'(by omega)] := by
      rw [← Nat.add_assoc, List.take_add_one, List.getElem?_eq_getElem (by omega)]
      rfl
    rw [h3, List.append_assoc, List.append_assoc, List.set_append_right _ _ (by simp; omega)]
    have h4 : hdrSize cfg + i - (o.bytes.take (hdrSize cfg + i)).length = 0 := by simp; omega
    rw [h4]
    simp [Nat.add_assoc, Nat.add_comm 1]

theorem send_not_puts {bs : List UInt8} : ∀ {i : Nat}, SAct.send ∉ puts i bs := by
  induction bs with
  | nil => intro i; simp [puts]
  | cons v vs ih => intro i; simp [puts, ih]

/-- Filling the buffer. -/
theorem lrun_maker {cfg : Cfg} {m : Maker} {bs : List UInt8} {o : OutBuf} {r : SRegs} {y : OutBuf × SRegs}
    (hl : hdrSize cfg + bs.length ≤ o.bytes.length) (h : LRun cfg (m.acts bs) (o, r) y) :
    y = (⟨bs.length, o.bytes.take (hdrSize cfg) ++ bs ++ o.bytes.drop (hdrSize cfg + bs.length)⟩, r) := by
  cases m with
  | send8 =>
    obtain ⟨c, h⟩ := h
    exact lrun_puts_reverse (i := 0) (o := ⟨bs.length, o.bytes⟩) (by simpa using hl) h
  | special =>
    obtain ⟨c, h⟩ := h
    exact lrun_puts (i := 0) (o := ⟨bs.length, o.bytes⟩) (by simpa using hl) h
  | raw =>
    obtain ⟨z, h1, c, h2⟩ := LRun.append.mp h
    have := lrun_puts (i := 0) (by simpa using hl) h1
    subst this
    exact h2.symm

theorem send_not_maker {m : Maker} {bs : List UInt8} : SAct.send ∉ m.acts bs := by
  cases m <;> simp [Maker.acts, send_not_puts]

/-- The length field. -/
theorem lrun_putLen {cfg : Cfg} : ∀ (n : Nat) {o : OutBuf} {r : SRegs} {y : OutBuf × SRegs}, n ≤ o.bytes.length →
    LRun cfg ((List.range n).map .putLen) (o, r) y → y = (⟨o.len, leBytes n r.len ++ o.bytes.drop n⟩, r) := by
  intro n
  induction n with
  | zero => intro o r y _ h; simp only [List.range_zero, List.map_nil, LRun] at h; rw [← h]; simp [leBytes]
  | succ n ih =>
    intro o r y hn h
    rw [List.range_succ, List.map_append] at h
    obtain ⟨z, h1, c, h2⟩ := LRun.append.mp h
    have := ih (by omega) h1
    subst this
    simp only [SAct.local] at h2
    rw [← h2]
    simp only [Prod.mk.injEq, OutBuf.mk.injEq, true_and, and_true]
    rw [List.set_append_right _ _ (by rw [leBytes_length]; omega), leBytes_length, Nat.sub_self,
      List.drop_eq_getElem_cons (show n < o.bytes.length by omega), List.set_cons_zero]
    simp [leBytes, List.range_succ, byteOf]

/-- The counter field. -/
theorem lrun_putCtr {cfg : Cfg} : ∀ (n : Nat) {o : OutBuf} {r : SRegs} {y : OutBuf × SRegs}, cfg.lenSize + n ≤ o.bytes.length →
    LRun cfg ((List.range n).map .putCtr) (o, r) y →
    ∃ ctr : List UInt8, ctr.length = n ∧ y = (⟨o.len, o.bytes.take cfg.lenSize ++ ctr ++ o.bytes.drop (cfg.lenSize + n)⟩, r) := by
  intro n
  induction n with
  | zero => intro o r y _ h; simp only [List.range_zero, List.map_nil, LRun] at h; exact ⟨[], rfl, by rw [← h]; simp⟩
  | succ n ih =>
    intro o r y hn h
    rw [List.range_succ, List.map_append] at h
    obtain ⟨z, h1, c, h2⟩ := LRun.append.mp h
    obtain ⟨ctr, h3, h4⟩ := ih (by omega) h1
    subst h4
    simp only [SAct.local] at h2
    refine ⟨ctr ++ [byteOf c n], by simp [h3], ?_⟩
    rw [← h2]
    simp only [Prod.mk.injEq, OutBuf.mk.injEq, true_and, and_true]
    have := set_overlay o.bytes cfg.lenSize (byteOf c n) ctr (by omega)
    rw [h3] at this
    rw [this]
    simp [h3]

theorem drop_add_append {α : Type} {a d : List α} {n : Nat} (m : Nat) (h : a.length = n) : (a ++ d).drop (n + m) = d.drop m := by
  subst h; rw [← List.drop_drop, List.drop_left]

/-- Buffers of the right size. -/
def BufsOk (cfg : Cfg) (b : OutBufs) : Prop :=
  b.cto.bytes.length = hdrSize cfg + cfg.maxCto ∧ b.dto.bytes.length = hdrSize cfg + cfg.maxDto

theorem emits_packet {cfg : Cfg} {p : SPkt} (hp : PktFits cfg p) {b : OutBufs} (hb : BufsOk cfg b) {r : SRegs}
    {rest : List (Kind × SAct)} {ps : List SPkt} (hrest : ∀ b' r', BufsOk cfg b' → Emits cfg rest b' r' ps) :
    Emits cfg (p.acts cfg ++ rest) b r (p :: ps) := by
  obtain ⟨k, m, bs⟩ := p
  have hfit : hdrSize cfg + bs.length ≤ (b.get k).bytes.length := by
    cases k
    · have h1 : bs.length ≤ cfg.maxCto := hp
      show _ ≤ b.cto.bytes.length
      rw [hb.1]; omega
    · have h1 : bs.length ≤ cfg.maxDto := hp
      show _ ≤ b.dto.bytes.length
      rw [hb.2]; omega
  let mid := m.acts bs ++ (.getLen :: (List.range cfg.lenSize).map .putLen ++ (List.range cfg.ctrSize).map .putCtr ++
    (if cfg.ctrSize = 0 then [] else [.loadCtr, .storeCtr]) ++ [.getSendLen, .acq])
  have hmid : SPkt.acts cfg ⟨k, m, bs⟩ ++ rest = mid.map (k, ·) ++ (k, .send) :: (k, .rel) :: rest := by
    simp [SPkt.acts, sendActs, mid]
  rw [hmid]
  have hns : SAct.send ∉ mid := by
    simp only [mid, List.mem_append, List.mem_cons, List.mem_map, not_or]
    refine ⟨send_not_maker, ⟨⟨⟨⟨by simp, by simp⟩, by simp⟩, ?_⟩, by simp⟩⟩
    split <;> simp
  apply Emits.of_lrun hns
  intro o' r' h
  obtain ⟨z, h1, h⟩ := LRun.append.mp h
  have := lrun_maker hfit h1
  subst this
  obtain ⟨z2, h2, c1, c2, h7⟩ := LRun.append.mp h
  obtain ⟨z3, h3, h4⟩ := LRun.append.mp h2
  obtain ⟨z4, ⟨c, h5⟩, h6⟩ := LRun.append.mp h3
  have hlen : ((b.get k).bytes.take (hdrSize cfg) ++ bs ++ (b.get k).bytes.drop (hdrSize cfg + bs.length)).length = (b.get k).bytes.length := by
    simp only [List.length_append, List.length_take, List.length_drop]; omega
  generalize hB : (b.get k).bytes.take (hdrSize cfg) ++ bs ++ (b.get k).bytes.drop (hdrSize cfg + bs.length) = B at *
  have hBd : B.drop (hdrSize cfg) = bs ++ (b.get k).bytes.drop (hdrSize cfg + bs.length) := by
    rw [← hB, List.append_assoc, List.drop_append_of_le_length (by simp; omega)]
    simp
  have hh : cfg.lenSize + cfg.ctrSize = hdrSize cfg := rfl
  have e4 := lrun_putLen (o := ⟨bs.length, B⟩) (r := { r with len := bs.length }) cfg.lenSize (by show _ ≤ B.length; omega) h5
  subst e4
  obtain ⟨ctr, h8, e3⟩ := lrun_putCtr cfg.ctrSize (by simp [leBytes_length]; omega) h6
  have e5 : leBytes cfg.lenSize bs.length ++ ctr ++ B.drop (hdrSize cfg) =
      (leBytes cfg.lenSize bs.length ++ B.drop cfg.lenSize).take cfg.lenSize ++ ctr ++
        (leBytes cfg.lenSize bs.length ++ B.drop cfg.lenSize).drop (cfg.lenSize + cfg.ctrSize) := by
    rw [List.take_left' (leBytes_length ..), drop_add_append _ (leBytes_length ..), List.drop_drop]
    rfl
  simp only [← e5] at e3
  subst e3
  have e2 : z2.1 = ⟨bs.length, leBytes cfg.lenSize bs.length ++ ctr ++ B.drop (hdrSize cfg)⟩ := by
    split at h4
    · have h4' := h4
      simp only [LRun] at h4'
      rw [← h4']
    · obtain ⟨c3, c4, h4'⟩ := h4
      simp only [LRun, SAct.local] at h4'
      rw [← h4']
  simp only [LRun, SAct.local] at h7
  obtain ⟨rfl, rfl⟩ := Prod.mk.inj h7
  rw [e2]
  refine ⟨⟨k, m, bs⟩, ps, rfl, ?_, ?_⟩
  · rw [OutBufs.get_set]
    refine ⟨leBytes cfg.lenSize bs.length, ctr, ?_, leBytes_length _ _, h8, leVal_leBytes _ _⟩
    simp only
    rw [List.take_append, List.take_of_length_le (by simp [leBytes_length, h8]; omega), hBd]
    congr 1
    rw [List.take_append_of_le_length (by simp [leBytes_length, h8]; omega), List.take_of_length_le (by simp [leBytes_length, h8]; omega)]
  · rw [Emits.step (by simp)]
    intro c
    simp only [SAct.local, OutBufs.get_set, OutBufs.set_set]
    apply hrest
    have hl : (leBytes cfg.lenSize bs.length ++ ctr ++ B.drop (hdrSize cfg)).length = (b.get k).bytes.length := by
      simp [leBytes_length, h8]; omega
    cases k
    · exact ⟨hl.trans hb.1, hb.2⟩
    · exact ⟨hb.1, hl.trans hb.2⟩

/-- A program that sends packets that fit sends frames for them. -/
theorem emits_program {cfg : Cfg} {ps : List SPkt} (hp : ∀ p ∈ ps, PktFits cfg p) : ∀ {b : OutBufs}, BufsOk cfg b → ∀ {r : SRegs},
    Emits cfg (ps.map (SPkt.acts cfg)).flatten b r ps := by
  induction ps with
  | nil => intro b _ r; rfl
  | cons p ps ih =>
    intro b hb r
    rw [List.map_cons, List.flatten_cons]
    exact emits_packet (hp p (List.mem_cons_self ..)) hb (fun b' r' hb' => ih (fun q hq => hp q (List.mem_cons_of_mem _ hq)) hb')

/-- The thread uses the buffer. -/
def Uses (t : SThread) (k : Kind) : Prop := ∃ a, (k, a) ∈ t.todo

theorem framesOf_append {cfg : Cfg} {ps : List (List UInt8)} : ∀ {fs : List (List UInt8)} {p f : List UInt8}, FramesOf cfg ps fs → FrameOf cfg p f →
    FramesOf cfg (ps ++ [p]) (fs ++ [f]) := by
  induction ps with
  | nil =>
    intro fs p f h hf
    cases fs with
    | nil => exact ⟨hf, trivial⟩
    | cons _ _ => exact absurd h (by simp [FramesOf])
  | cons q ps ih =>
    intro fs p f h hf
    cases fs with
    | nil => exact absurd h (by simp [FramesOf])
    | cons g fs => exact ⟨h.1, ih h.2 hf⟩

/-- What a step changes. -/
theorem step_effect (cfg : Cfg) (s : SSys) (j : Nat) :
    s.step cfg j = s ∨ ∃ k a rest r, s.threads[j]? = some ⟨(k, a) :: rest, r⟩ ∧
      (s.step cfg j).bufs = s.bufs.set k (a.local cfg s.counter (s.bufs.get k) r).1 ∧
      (s.step cfg j).threads = s.threads.set j ⟨rest, (a.local cfg s.counter (s.bufs.get k) r).2⟩ ∧
      (s.step cfg j).wire = s.wire ++ (if a = .send then [(j, (s.bufs.get k).bytes.take r.sendLen)] else []) := by
  unfold SSys.step
  split
  · exact Or.inl rfl
  · exact Or.inl rfl
  · next k a rest r h =>
    cases a with
    | acq =>
      by_cases ho : s.owner = none
      · right; refine ⟨k, .acq, rest, r, h, ?_⟩; simp [ho]
      · left; simp [ho]
    | _ => right; exact ⟨k, _, rest, r, h, by simp⟩

/-- Thread `i` has sent frames for the packets `done` and will send frames for `left`. -/
def Going (cfg : Cfg) (s : SSys) (i : Nat) (ps : List SPkt) : Prop :=
  ∃ t done left, s.threads[i]? = some t ∧ ps = done ++ left ∧ FramesOf cfg (done.map (·.bytes)) (sentBy s i) ∧
    Emits cfg t.todo s.bufs t.regs left

/-- No buffer is used by two threads. -/
def Separate (s : SSys) : Prop :=
  ∀ (i j : Nat) t u k, i ≠ j → s.threads[i]? = some t → s.threads[j]? = some u → Uses t k → ¬ Uses u k

theorem Separate.step {cfg : Cfg} {s : SSys} (h : Separate s) (j : Nat) : Separate (s.step cfg j) := by
  rcases step_effect cfg s j with e | ⟨k, a, rest, r, h1, -, h2, -⟩
  · rw [e]; exact h
  · have key : ∀ (i : Nat) t, (s.step cfg j).threads[i]? = some t → ∃ t', s.threads[i]? = some t' ∧ ∀ k, Uses t k → Uses t' k := by
      intro i t ht
      rw [h2] at ht
      by_cases hij : j = i
      · subst hij
        rw [List.getElem?_set_self (List.getElem?_eq_some_iff.mp h1).1] at ht
        cases ht
        exact ⟨_, h1, fun k ⟨a', h'⟩ => ⟨a', List.mem_cons_of_mem _ h'⟩⟩
      · rw [List.getElem?_set_ne hij] at ht
        exact ⟨t, ht, fun _ h => h⟩
    intro i i' t u k' hne ht hu hk hk'
    obtain ⟨t', h3, h4⟩ := key i t ht
    obtain ⟨u', h5, h6⟩ := key i' u hu
    exact h i i' t' u' k' hne h3 h5 (h4 _ hk) (h6 _ hk')

theorem Going.step {cfg : Cfg} {s : SSys} (hsep : Separate s) {i : Nat} {ps : List SPkt} (h : Going cfg s i ps) (j : Nat) :
    Going cfg (s.step cfg j) i ps := by
  rcases step_effect cfg s j with e | ⟨k, a, rest, r, h1, h2, h3, h4⟩
  · rw [e]; exact h
  · obtain ⟨t, done, left, h5, h6, h7, h8⟩ := h
    by_cases hij : j = i
    · subst hij
      rw [h1] at h5
      cases h5
      have hth : (s.step cfg j).threads[j]? = some ⟨rest, (a.local cfg s.counter (s.bufs.get k) r).2⟩ := by
        rw [h3, List.getElem?_set_self (List.getElem?_eq_some_iff.mp h1).1]
      by_cases ha : a = .send
      · subst ha
        obtain ⟨p, left', h9, h10, h11⟩ := h8
        refine ⟨_, done ++ [p], left', hth, by rw [h6, h9]; simp, ?_, ?_⟩
        · rw [List.map_append]
          have : sentBy (s.step cfg j) j = sentBy s j ++ [(s.bufs.get k).bytes.take r.sendLen] := by
            simp [sentBy, h4]
          rw [this]
          exact framesOf_append h7 h10
        · rw [h2]
          simp only [SAct.local, OutBufs.set_get]
          exact h11
      · refine ⟨_, done, left, hth, h6, ?_, ?_⟩
        · have : sentBy (s.step cfg j) j = sentBy s j := by simp [sentBy, h4, ha]
          rw [this]; exact h7
        · rw [h2]
          exact (Emits.step ha).mp h8 _
    · refine ⟨t, done, left, ?_, h6, ?_, ?_⟩
      · rw [h3, List.getElem?_set_ne hij]; exact h5
      · have : sentBy (s.step cfg j) i = sentBy s i := by
          simp only [sentBy, h4, List.filter_append]
          split
          · simp [hij]
          · simp
        rw [this]; exact h7
      · refine h8.congr ?_
        intro k' hk'
        have hne : k' ≠ k := by
          rintro rfl
          exact hsep i j t _ k' (Ne.symm hij) h5 h1 hk' ⟨a, List.mem_cons_self ..⟩
        rw [h2, OutBufs.get_set_ne _ _ hne]

theorem going_run {cfg : Cfg} {i : Nat} {ps : List SPkt} (is : List Nat) : ∀ {s : SSys}, Separate s → Going cfg s i ps →
    Going cfg (s.run cfg is) i ps := by
  induction is with
  | nil => intro s _ h; exact h
  | cons j is ih => intro s hsep h; exact ih (hsep.step j) (h.step hsep j)

/-- No two threads send the same kind of packets. -/
def Spec.OneSenderPerKind (progs : List (List SPkt)) : Prop :=
  ∀ (i j : Nat) ps qs p q, i ≠ j → progs[i]? = some ps → progs[j]? = some qs → p ∈ ps → q ∈ qs → p.kind ≠ q.kind

/-- C77, part: when responses (and events) are sent by one thread and measurement packets by one thread, then for every
schedule what each thread has put on the wire is frames with exactly its packets, complete, in order, with
right length fields; and all of them when it is done.  The counters are left out: see
`C77_counter_fails`. -/
theorem C77_intact_partial {cfg : Cfg} {progs : List (List SPkt)} (hfit : ∀ ps ∈ progs, ∀ p ∈ ps, PktFits cfg p)
    (hone : OneSenderPerKind progs) (sched : List Nat) {i : Nat} {ps : List SPkt} (hi : progs[i]? = some ps) :
    let s := (SSys.init cfg progs).run cfg sched
    ∃ n, FramesOf cfg ((ps.take n).map (·.bytes)) (sentBy s i) ∧
      (∀ t, s.threads[i]? = some t → t.todo = [] → FramesOf cfg (ps.map (·.bytes)) (sentBy s i)) := by
  intro s
  have hth : ∀ (j : Nat) qs, progs[j]? = some qs → (SSys.init cfg progs).threads[j]? = some ⟨(qs.map (SPkt.acts cfg)).flatten, ⟨0, 0, 0⟩⟩ := by
    intro j qs hj
    simp [SSys.init, hj]
  have huse : ∀ (j : Nat) t k, (SSys.init cfg progs).threads[j]? = some t → Uses t k → ∃ qs q, progs[j]? = some qs ∧ q ∈ qs ∧ q.kind = k := by
    intro j t k ht ⟨a, ha⟩
    simp only [SSys.init, List.getElem?_map, Option.map_eq_some_iff] at ht
    obtain ⟨qs, hq, rfl⟩ := ht
    simp only [List.mem_flatten, List.mem_map] at ha
    obtain ⟨l, ⟨q, hq1, rfl⟩, hl⟩ := ha
    simp only [SPkt.acts, List.mem_map, Prod.mk.injEq] at hl
    obtain ⟨_, -, h, -⟩ := hl
    exact ⟨qs, q, hq, hq1, h⟩
  have hsep : Separate (SSys.init cfg progs) := by
    intro j j' t u k hne ht hu hk hk'
    obtain ⟨qs, q, h1, h2, h3⟩ := huse j t k ht hk
    obtain ⟨qs', q', h4, h5, h6⟩ := huse j' u k hu hk'
    exact hone j j' qs qs' q q' hne h1 h4 h2 h5 (h3.trans h6.symm)
  have hgo : Going cfg (SSys.init cfg progs) i ps := by
    refine ⟨_, [], ps, hth i ps hi, rfl, ?_, ?_⟩
    · simp [sentBy, SSys.init, FramesOf]
    · exact emits_program (hfit ps (List.mem_of_getElem? hi)) ⟨by simp [SSys.init], by simp [SSys.init]⟩
  obtain ⟨t, done, left, h1, h2, h3, h4⟩ := going_run sched hsep hgo
  refine ⟨done.length, ?_, ?_⟩
  · rw [h2, List.take_left]; exact h3
  · intro t' ht' hnil
    rw [show s.threads[i]? = some t from h1] at ht'
    cases ht'
    rw [hnil] at h4
    have h5 : left = [] := h4
    rw [h2, h5, List.append_nil]; exact h3

/-- Each `acq` is followed by `send` and `rel`, which do not occur otherwise. -/
def WfActs : List (Kind × SAct) → Prop
  | [] => True
  | (_, .acq) :: rest =>
    match rest with
    | (_, .send) :: (_, .rel) :: rest' => WfActs rest'
    | _ => False
  | (_, .send) :: _ => False
  | (_, .rel) :: _ => False
  | _ :: rest => WfActs rest

/-- A thread with the lock is about to send or to release it, a thread without it has a well-formed rest. -/
def LockOk (s : SSys) : Prop :=
  (∀ j, s.owner = some j → ∃ t, s.threads[j]? = some t ∧
    ((∃ k k' rest, t.todo = (k, .send) :: (k', .rel) :: rest ∧ WfActs rest) ∨ ∃ k rest, t.todo = (k, .rel) :: rest ∧ WfActs rest)) ∧
  ∀ (i : Nat) t, s.threads[i]? = some t → s.owner ≠ some i → WfActs t.todo

theorem LockOk.step {cfg : Cfg} {s : SSys} (h : LockOk s) (j : Nat) : LockOk (s.step cfg j) := by
  unfold SSys.step
  split
  · exact h
  · exact h
  · next k a rest r hj =>
    have hlt := (List.getElem?_eq_some_iff.mp hj).1
    by_cases ho : s.owner = some j
    · obtain ⟨t, h1, h2⟩ := h.1 j ho
      rw [hj] at h1
      cases h1
      rcases h2 with ⟨k1, k2, rest', h3, h4⟩ | ⟨k1, rest', h3, h4⟩
      · simp only [List.cons.injEq, Prod.mk.injEq] at h3
        obtain ⟨⟨rfl, rfl⟩, rfl⟩ := h3
        refine ⟨?_, ?_⟩
        · intro i hi
          simp only at hi
          rw [ho] at hi
          cases hi
          exact ⟨_, by simp only [List.getElem?_set_self hlt]; rfl, Or.inr ⟨k2, rest', rfl, h4⟩⟩
        · intro i t ht hi
          simp only at ht hi
          rw [List.getElem?_set_ne (by rintro rfl; exact hi ho)] at ht
          exact h.2 i t ht hi
      · simp only [List.cons.injEq, Prod.mk.injEq] at h3
        obtain ⟨⟨rfl, rfl⟩, rfl⟩ := h3
        refine ⟨(fun i hi => by simp at hi), ?_⟩
        intro i t ht _
        simp only at ht
        by_cases hij : j = i
        · subst hij
          rw [List.getElem?_set_self hlt] at ht
          cases ht
          exact h4
        · rw [List.getElem?_set_ne hij] at ht
          exact h.2 i t ht (by rw [ho]; simpa using hij)
    · have hw := h.2 j _ hj ho
      have keep : ∀ s' : SSys, WfActs rest → s'.owner = s.owner → (∃ r', s'.threads = s.threads.set j ⟨rest, r'⟩) → LockOk s' := by
        intro s' hr e1 ⟨r', e2⟩
        refine ⟨?_, ?_⟩
        · intro i hi
          rw [e1] at hi
          have hij : j ≠ i := by rintro rfl; exact ho hi
          obtain ⟨t, h1, h2⟩ := h.1 i hi
          exact ⟨t, by rw [e2, List.getElem?_set_ne hij]; exact h1, h2⟩
        · intro i t ht hi
          rw [e1] at hi
          rw [e2] at ht
          by_cases hij : j = i
          · subst hij
            rw [List.getElem?_set_self hlt] at ht
            cases ht
            exact hr
          · rw [List.getElem?_set_ne hij] at ht
            exact h.2 i t ht hi
      cases a with
      | send => exact absurd hw (by simp [WfActs])
      | rel => exact absurd hw (by simp [WfActs])
      | acq =>
        by_cases hn : s.owner = none
        · simp only [hn, if_true]
          match rest, hw with
          | (k1, .send) :: (k2, .rel) :: rest', hw =>
            refine ⟨?_, ?_⟩
            · intro i hi
              simp only [Option.some.injEq] at hi
              subst hi
              exact ⟨_, by simp only [List.getElem?_set_self hlt]; rfl, Or.inl ⟨k1, k2, rest', rfl, hw⟩⟩
            · intro i t ht hi
              simp only [ne_eq, Option.some.injEq] at hi
              simp only [List.getElem?_set_ne hi] at ht
              exact h.2 i t ht (by rw [hn]; simp)
        · simp only [hn, if_false]
          exact h
      | _ => exact keep _ hw rfl ⟨_, rfl⟩

/-- Accesses still to be made. -/
def SSys.work (s : SSys) : Nat := (s.threads.map (·.todo.length)).sum

theorem sum_set_lt {l : List Nat} : ∀ {j n m : Nat}, l[j]? = some n → m < n → (l.set j m).sum < l.sum := by
  induction l with
  | nil => intro j n m h; simp at h
  | cons a l ih =>
    intro j n m h hm
    cases j with
    | zero => simp at h; subst h; simp; exact hm
    | succ j => simp at h; have := ih h hm; simp; omega

/-- Some thread can go on unless all are done. -/
theorem LockOk.progress {cfg : Cfg} {s : SSys} (h : LockOk s) (hd : ¬ ∀ t ∈ s.threads, t.todo = []) :
    ∃ j, (s.step cfg j).work < s.work := by
  have go : ∀ (j : Nat) k a rest r, s.threads[j]? = some ⟨(k, a) :: rest, r⟩ → (a = .acq → s.owner = none) →
      (s.step cfg j).work < s.work := by
    intro j k a rest r hj hown
    have : ∃ r', (s.step cfg j).threads = s.threads.set j ⟨rest, r'⟩ := by
      unfold SSys.step
      rw [hj]
      cases a with
      | acq => exact ⟨_, by simp [hown rfl]; rfl⟩
      | _ => exact ⟨_, rfl⟩
    obtain ⟨r', e⟩ := this
    unfold SSys.work
    rw [e, List.map_set]
    refine sum_set_lt (n := rest.length + 1) ?_ (by simp)
    simp [hj]
  cases ho : s.owner with
  | some j =>
    obtain ⟨t, h1, h2⟩ := h.1 j ho
    obtain ⟨todo, r⟩ := t
    rcases h2 with ⟨k1, k2, rest', h3, h4⟩ | ⟨k1, rest', h3, h4⟩
    · simp only at h3; subst h3
      exact ⟨j, go j _ _ _ _ h1 (by simp)⟩
    · simp only at h3; subst h3
      exact ⟨j, go j _ _ _ _ h1 (by simp)⟩
  | none =>
    have : ∃ t ∈ s.threads, t.todo ≠ [] := by
      apply Classical.byContradiction
      intro hno
      exact hd fun t ht => Classical.byContradiction fun hne => hno ⟨t, ht, hne⟩
    obtain ⟨t, ht, hne⟩ := this
    obtain ⟨j, hj⟩ := List.getElem?_of_mem ht
    obtain ⟨todo, r⟩ := t
    cases todo with
    | nil => exact absurd rfl hne
    | cons x rest => exact ⟨j, go j x.1 x.2 rest r hj (fun _ => ho)⟩

theorem wfActs_append {as : List (Kind × SAct)} (hb : ∀ x ∈ as, x.2 ≠ .acq ∧ x.2 ≠ .send ∧ x.2 ≠ .rel) {bs : List (Kind × SAct)} (h : WfActs bs) :
    WfActs (as ++ bs) := by
  induction as with
  | nil => exact h
  | cons x as ih =>
    obtain ⟨k, a⟩ := x
    have h1 := hb _ (List.mem_cons_self ..)
    have h2 := ih (fun y hy => hb y (List.mem_cons_of_mem _ hy))
    cases a <;> first | exact h2 | simp at h1

theorem mem_puts {a : SAct} {bs : List UInt8} : ∀ {i : Nat}, a ∈ puts i bs → ∃ i v, a = .put i v := by
  induction bs with
  | nil => intro i h; simp [puts] at h
  | cons v vs ih =>
    intro i h
    simp only [puts, List.mem_cons] at h
    rcases h with h | h
    · exact ⟨_, _, h⟩
    · exact ih h

theorem wfActs_program {cfg : Cfg} (ps : List SPkt) : WfActs (ps.map (SPkt.acts cfg)).flatten := by
  induction ps with
  | nil => trivial
  | cons p ps ih =>
    obtain ⟨k, m, bs⟩ := p
    rw [List.map_cons, List.flatten_cons]
    have e : SPkt.acts cfg ⟨k, m, bs⟩ = ((m.acts bs ++ (SAct.getLen :: (List.range cfg.lenSize).map SAct.putLen ++
        (List.range cfg.ctrSize).map SAct.putCtr ++ (if cfg.ctrSize = 0 then [] else [SAct.loadCtr, SAct.storeCtr]) ++ [SAct.getSendLen])).map (k, ·)) ++
        [(k, .acq), (k, .send), (k, .rel)] := by
      simp [SPkt.acts, sendActs]
    rw [e, List.append_assoc]
    apply wfActs_append
    · intro x hx
      obtain ⟨a, ha, rfl⟩ := List.mem_map.mp hx
      simp only [List.mem_append, List.mem_cons, List.mem_map, List.not_mem_nil, or_false] at ha
      rcases ha with ha | (((ha | ⟨_, -, rfl⟩) | ⟨_, -, rfl⟩) | ha) | rfl
      · cases m with
        | send8 =>
          simp only [Maker.acts, List.mem_cons, List.mem_reverse] at ha
          rcases ha with rfl | ha
          · simp
          · obtain ⟨_, _, rfl⟩ := mem_puts ha; simp
        | special =>
          simp only [Maker.acts, List.mem_cons] at ha
          rcases ha with rfl | ha
          · simp
          · obtain ⟨_, _, rfl⟩ := mem_puts ha; simp
        | raw =>
          simp only [Maker.acts, List.mem_append, List.mem_cons, List.not_mem_nil, or_false] at ha
          rcases ha with ha | rfl
          · obtain ⟨_, _, rfl⟩ := mem_puts ha; simp
          · simp
      · subst ha; simp
      · simp
      · simp
      · split at ha
        · simp at ha
        · simp only [List.mem_cons, List.not_mem_nil, or_false] at ha
          rcases ha with rfl | rfl <;> simp
      · simp
    · exact ih

theorem SSys.run_append (cfg : Cfg) (s : SSys) (a b : List Nat) : s.run cfg (a ++ b) = (s.run cfg a).run cfg b := by
  induction a generalizing s with
  | nil => rfl
  | cons j a ih => exact ih _

/-- Sending never gets stuck: every schedule can be continued until all threads have sent all their packets. -/
theorem C77_finishes (cfg : Cfg) (progs : List (List SPkt)) (sched : List Nat) :
    ∃ more, ∀ t ∈ ((SSys.init cfg progs).run cfg (sched ++ more)).threads, t.todo = [] := by
  have h0 : LockOk (SSys.init cfg progs) := by
    refine ⟨(fun j hj => by simp [SSys.init] at hj), ?_⟩
    intro i t ht _
    simp only [SSys.init, List.getElem?_map, Option.map_eq_some_iff] at ht
    obtain ⟨ps, -, rfl⟩ := ht
    exact wfActs_program ps
  have h1 : ∀ (is : List Nat) s, LockOk s → LockOk (SSys.run cfg s is) := by
    intro is
    induction is with
    | nil => intro s h; exact h
    | cons j is ih => intro s h; exact ih _ (h.step j)
  suffices ∀ n s, SSys.work s ≤ n → LockOk s → ∃ more, ∀ t ∈ (SSys.run cfg s more).threads, t.todo = [] by
    obtain ⟨more, h⟩ := this _ _ (Nat.le_refl _) (h1 sched _ h0)
    exact ⟨more, by rw [SSys.run_append]; exact h⟩
  intro n
  induction n with
  | zero =>
    intro s hw h
    by_cases hd : ∀ t ∈ s.threads, t.todo = []
    · exact ⟨[], hd⟩
    · obtain ⟨j, hj⟩ := h.progress (cfg := cfg) hd; omega
  | succ n ih =>
    intro s hw h
    by_cases hd : ∀ t ∈ s.threads, t.todo = []
    · exact ⟨[], hd⟩
    · obtain ⟨j, hj⟩ := h.progress (cfg := cfg) hd
      obtain ⟨more, hm⟩ := ih (s.step cfg j) (by omega) (h.step j)
      exact ⟨j :: more, hm⟩

/-- A response of the first thread and a measurement packet of the second. -/
def Ex.twoSenders : List (List SPkt) := [[⟨.cto, .send8, [0xFF]⟩], [⟨.dto, .raw, [0, 0x11, 0x22]⟩]]

/-- The wire after a schedule. -/
def Ex.wire (cfg : Cfg) (progs : List (List SPkt)) (sched : List Nat) : List (Nat × List UInt8) := ((SSys.init cfg progs).run cfg sched).wire

/-- The counters are wrong as soon as two threads send: both frames carry number 0 when the second thread reads the
counter before the first has written it back. -/
theorem C77_counter_fails : Ex.wire Ex.sim Ex.twoSenders (List.replicate 8 0 ++ List.replicate 15 1 ++ List.replicate 8 0) =
    [(1, [3, 0, 0, 0, 0, 0x11, 0x22]), (0, [1, 0, 0, 0, 0xFF])] := by decide +kernel

/-- A response and an event packet sent from different threads get mixed up: the packets FF 00 00 and FD 05 06 07 were
to be sent, the first frame has the length of one and bytes of the other. -/
theorem C77_mixed_fails : Ex.wire Ex.sim [[⟨.cto, .send8, [0xFF, 0, 0]⟩], [⟨.cto, .special, [0xFD, 5, 6, 7]⟩]]
    (List.replicate 4 0 ++ List.replicate 4 1 ++ List.replicate 12 0 ++ List.replicate 20 1) =
    [(0, [4, 0, 0, 0, 0xFD, 5, 6, 0]), (1, [4, 0, 1, 0, 0xFD, 5, 6, 7])] := by decide +kernel

example : OneSenderPerKind Ex.twoSenders := by
  intro i j ps qs p q hne h1 h2 h3 h4
  match i, j with
  | 0, 0 => exact absurd rfl hne
  | 0, 1 => cases h1; cases h2; simp_all
  | 1, 0 => cases h1; cases h2; simp_all
  | 1, 1 => exact absurd rfl hne
  | 0, _ + 2 => cases h2
  | 1, _ + 2 => cases h2
  | _ + 2, _ => cases h1

/-! Packets sent one after the other. -/

/-- Accesses in a row while the counter stays the same. -/
def lexec (cfg : Cfg) (c : Nat) (as : List SAct) (x : OutBuf × SRegs) : OutBuf × SRegs := as.foldl (fun y a => a.local cfg c y.1 y.2) x

theorem lexec_lrun (cfg : Cfg) (c : Nat) : ∀ (as : List SAct) (x : OutBuf × SRegs), LRun cfg as x (lexec cfg c as x)
  | [], _ => rfl
  | _ :: as, _ => ⟨c, lexec_lrun cfg c as _⟩

theorem lexec_append (cfg : Cfg) (c : Nat) (as bs : List SAct) (x : OutBuf × SRegs) :
    lexec cfg c (as ++ bs) x = lexec cfg c bs (lexec cfg c as x) := by simp [lexec]

theorem lexec_putCtr {cfg : Cfg} (c : Nat) : ∀ (n : Nat) {o : OutBuf} {r : SRegs}, cfg.lenSize + n ≤ o.bytes.length →
    lexec cfg c ((List.range n).map .putCtr) (o, r) =
      (⟨o.len, o.bytes.take cfg.lenSize ++ leBytes n c ++ o.bytes.drop (cfg.lenSize + n)⟩, r) := by
  intro n
  induction n with
  | zero => intro o r _; simp [lexec, leBytes]
  | succ n ih =>
    intro o r hn
    rw [List.range_succ, List.map_append, lexec_append, ih (by omega)]
    simp only [lexec, List.map_cons, List.map_nil, List.foldl_cons, List.foldl_nil, SAct.local]
    have h3 : (leBytes n c).length = n := leBytes_length ..
    have := set_overlay o.bytes cfg.lenSize (byteOf c n) (leBytes n c) (by omega)
    rw [h3] at this
    rw [this]
    have h4 : leBytes n c ++ [byteOf c n] = leBytes (n + 1) c := by simp [leBytes, List.range_succ, byteOf]
    rw [h4]
    simp [leBytes_length]

/-- Accesses to buffer and local variables only. -/
def SAct.quiet : SAct → Bool
  | .storeCtr | .acq | .send | .rel => false
  | _ => true

theorem run_quiet {cfg : Cfg} {i : Nat} {k : Kind} {rest : List (Kind × SAct)} : ∀ (as : List SAct), (∀ a ∈ as, a.quiet = true) →
    ∀ {s : SSys} {r : SRegs}, s.threads[i]? = some ⟨as.map (k, ·) ++ rest, r⟩ →
    s.run cfg (List.replicate as.length i) =
      { s with bufs := s.bufs.set k (lexec cfg s.counter as (s.bufs.get k, r)).1
               threads := s.threads.set i ⟨rest, (lexec cfg s.counter as (s.bufs.get k, r)).2⟩ }
  | [], _, s, r, h => by
    have ht : s.threads.set i ⟨rest, r⟩ = s.threads := by
      obtain ⟨hlt, he⟩ := List.getElem?_eq_some_iff.mp h
      exact List.ext_getElem? fun j => by
        by_cases hj : i = j
        · subst hj; rw [List.getElem?_set_self hlt]; exact h.symm
        · rw [List.getElem?_set_ne hj]
    show s = _
    simp only [lexec, List.foldl_nil, OutBufs.set_get, ht]
  | a :: as, hq, s, r, h => by
    have hlt := (List.getElem?_eq_some_iff.mp h).1
    have e : s.step cfg i = { s with bufs := s.bufs.set k (a.local cfg s.counter (s.bufs.get k) r).1
                                     threads := s.threads.set i ⟨as.map (k, ·) ++ rest, (a.local cfg s.counter (s.bufs.get k) r).2⟩ } := by
      have ha := hq a (List.mem_cons_self ..)
      unfold SSys.step
      rw [h]
      cases a <;> first | rfl | cases ha
    show (s.step cfg i).run cfg (List.replicate as.length i) = _
    rw [e, run_quiet as (fun b hb => hq b (List.mem_cons_of_mem _ hb)) (r := (a.local cfg s.counter (s.bufs.get k) r).2)
      (List.getElem?_set_self hlt)]
    simp only [OutBufs.get_set, OutBufs.set_set, List.set_set]
    rfl

theorem ssys_run_append (cfg : Cfg) : ∀ (as bs : List Nat) (s : SSys), s.run cfg (as ++ bs) = (s.run cfg as).run cfg bs
  | [], _, _ => rfl
  | a :: as, bs, s => ssys_run_append cfg as bs (s.step cfg a)

/-- The frame the packet gets when the counter is `c`. -/
def Spec.frameFor (cfg : Cfg) (c : Nat) (bs : List UInt8) : List UInt8 :=
  enc false cfg.lenSize bs.length ++ enc false cfg.ctrSize c ++ bs

theorem quiet_maker {m : Maker} {bs : List UInt8} {a : SAct} (h : a ∈ m.acts bs) : a.quiet = true := by
  have hp : ∀ (bs : List UInt8) (i : Nat), ∀ a ∈ puts i bs, a.quiet = true := by
    intro bs
    induction bs with
    | nil => intro i a h; simp [puts] at h
    | cons v vs ih =>
      intro i a h
      rcases List.mem_cons.mp h with rfl | h
      · rfl
      · exact ih _ _ h
  cases m <;> simp only [Maker.acts, List.mem_cons, List.mem_append, List.mem_reverse, List.not_mem_nil, or_false] at h
  · rcases h with rfl | h
    · rfl
    · exact hp _ _ _ h
  · rcases h with rfl | h
    · rfl
    · exact hp _ _ _ h
  · rcases h with h | rfl
    · exact hp _ _ _ h
    · rfl

/-- C77: a thread that sends a packet without interruption sends the frame with the present number, and the next frame gets the
next number, modulo 2^16. -/
theorem C77_uninterrupted {cfg : Cfg} {s : SSys} {i : Nat} {p : SPkt} {rest : List (Kind × SAct)} {r : SRegs} (hp : PktFits cfg p)
    (hb : BufsOk cfg s.bufs) (ho : s.owner = none) (ht : s.threads[i]? = some ⟨p.acts cfg ++ rest, r⟩) :
    let y := s.run cfg (List.replicate (p.acts cfg).length i)
    y.wire = s.wire ++ [(i, frameFor cfg s.counter p.bytes)] ∧
    y.counter = (if cfg.ctrSize = 0 then s.counter else (s.counter + 1) % 2 ^ 16) ∧ y.owner = none ∧ BufsOk cfg y.bufs ∧
    ∃ r', y.threads = s.threads.set i ⟨rest, r'⟩ := by
  obtain ⟨k, m, bs⟩ := p
  have hlt := (List.getElem?_eq_some_iff.mp ht).1
  have hfit : hdrSize cfg + bs.length ≤ (s.bufs.get k).bytes.length := by
    cases k
    · have h1 : bs.length ≤ cfg.maxCto := hp
      show _ ≤ s.bufs.cto.bytes.length
      rw [hb.1]; omega
    · have h1 : bs.length ≤ cfg.maxDto := hp
      show _ ≤ s.bufs.dto.bytes.length
      rw [hb.2]; omega
  let pre := m.acts bs ++ (.getLen :: (List.range cfg.lenSize).map .putLen ++ (List.range cfg.ctrSize).map .putCtr)
  have hpre : ∀ a ∈ pre, a.quiet = true := by
    intro a ha
    simp only [pre, List.mem_append, List.mem_cons, List.mem_map] at ha
    rcases ha with h | (rfl | ⟨x, -, rfl⟩) | ⟨x, -, rfl⟩
    · exact quiet_maker h
    all_goals rfl
  let n := (if cfg.ctrSize = 0 then 4 else 6)
  let tail : List SAct := (if cfg.ctrSize = 0 then [] else [.loadCtr, .storeCtr]) ++ [.getSendLen, .acq, .send, .rel]
  have hacts : SPkt.acts cfg ⟨k, m, bs⟩ = pre.map (k, ·) ++ tail.map (k, ·) := by simp [SPkt.acts, sendActs, pre, tail]
  -- the buffer before the counter is touched
  let B := (s.bufs.get k).bytes.take (hdrSize cfg) ++ bs ++ (s.bufs.get k).bytes.drop (hdrSize cfg + bs.length)
  have hBl : B.length = (s.bufs.get k).bytes.length := by
    simp only [B, List.length_append, List.length_take, List.length_drop]; omega
  have hBd : B.drop (hdrSize cfg) = bs ++ (s.bufs.get k).bytes.drop (hdrSize cfg + bs.length) := by
    simp only [B]
    rw [List.append_assoc, List.drop_append_of_le_length (by simp; omega)]
    simp
  have hh : cfg.lenSize + cfg.ctrSize = hdrSize cfg := rfl
  let F := leBytes cfg.lenSize bs.length ++ leBytes cfg.ctrSize s.counter ++ B.drop (hdrSize cfg)
  have hFl : F.length = (s.bufs.get k).bytes.length := by
    simp only [F, List.length_append, leBytes_length, List.length_drop, hBl]; omega
  have hex : lexec cfg s.counter pre (s.bufs.get k, r) = (⟨bs.length, F⟩, { r with len := bs.length }) := by
    simp only [pre]
    rw [lexec_append, lrun_maker hfit (lexec_lrun cfg s.counter _ _)]
    show lexec cfg s.counter ([.getLen] ++ ((List.range cfg.lenSize).map .putLen) ++ (List.range cfg.ctrSize).map .putCtr) (⟨bs.length, B⟩, r) = _
    rw [lexec_append, lexec_append]
    show lexec cfg s.counter _ (lexec cfg s.counter _ (⟨bs.length, B⟩, { r with len := bs.length })) = _
    rw [lrun_putLen cfg.lenSize (by show _ ≤ B.length; omega) (lexec_lrun cfg s.counter _ _), lexec_putCtr _ _ (by simp [leBytes_length]; omega)]
    simp only [F, Prod.mk.injEq, OutBuf.mk.injEq, true_and, and_true]
    rw [List.take_left' (leBytes_length ..), drop_add_append _ (leBytes_length ..), List.drop_drop]
    rfl
  rw [hacts, List.append_assoc] at ht
  have hrun := run_quiet (cfg := cfg) pre hpre ht
  rw [hex] at hrun
  intro y
  have hy : y = (s.run cfg (List.replicate pre.length i)).run cfg (List.replicate tail.length i) := by
    simp only [y]
    rw [hacts, List.length_append, List.length_map, List.length_map, ← List.replicate_append_replicate, ssys_run_append]
  have hframe : F.take (bs.length + hdrSize cfg) = frameFor cfg s.counter bs := by
    simp only [F, hBd]
    rw [List.take_append, List.take_of_length_le (by simp [leBytes_length]; omega)]
    show _ = leBytes _ _ ++ leBytes _ _ ++ bs
    congr 1
    rw [List.take_append_of_le_length (by simp [leBytes_length]; omega), List.take_of_length_le (by simp [leBytes_length]; omega)]
  have hbufs : BufsOk cfg (s.bufs.set k ⟨bs.length, F⟩) := by
    cases k
    · exact ⟨hFl.trans hb.1, hb.2⟩
    · exact ⟨hb.1, hFl.trans hb.2⟩
  rw [hy, hrun]
  by_cases hz : cfg.ctrSize = 0
  · simp only [tail, if_pos hz]
    simp [List.replicate, SSys.run, SSys.step, hlt, SAct.local, ho, OutBufs.get_set, OutBufs.set_set, hframe, hbufs]
    exact ⟨_, rfl⟩
  · simp only [tail, if_neg hz]
    simp [List.replicate, SSys.run, SSys.step, hlt, SAct.local, ho, OutBufs.get_set, OutBufs.set_set, hframe, hbufs]
    exact ⟨_, rfl⟩

/-- The threads take turns, one packet each: whose turn it is and what it sends. -/
def Spec.Turns : List (List SPkt) → List (Nat × SPkt) → Prop
  | _, [] => True
  | progs, (i, p) :: ts => ∃ ps, progs[i]? = some (p :: ps) ∧ Turns (progs.set i ps) ts

/-- The accesses of these turns. -/
def Spec.turnsSched (cfg : Cfg) (ts : List (Nat × SPkt)) : List Nat := ts.flatMap fun t => List.replicate (t.2.acts cfg).length t.1

theorem turns_wire {cfg : Cfg} (hctr : cfg.ctrSize ≠ 0) : ∀ (ts : List (Nat × SPkt)) {progs : List (List SPkt)} {s : SSys},
    (∀ ps ∈ progs, ∀ p ∈ ps, PktFits cfg p) → Turns progs ts → BufsOk cfg s.bufs → s.owner = none → s.counter < 2 ^ 16 →
    s.threads.length = progs.length → (∀ (i : Nat) (ps : List SPkt), progs[i]? = some ps → ∃ r, s.threads[i]? = some ⟨(ps.map (SPkt.acts cfg)).flatten, r⟩) →
    (s.run cfg (turnsSched cfg ts)).wire =
      s.wire ++ ts.mapIdx (fun n t => (t.1, frameFor cfg ((s.counter + n) % 2 ^ 16) t.2.bytes)) := by
  intro ts
  induction ts with
  | nil => intro progs s _ _ _ _ _ _ _; simp [turnsSched, SSys.run]
  | cons t ts ih =>
    obtain ⟨i, p⟩ := t
    intro progs s hfit htn hb ho hc hlen hth
    obtain ⟨ps, hi, htn⟩ := htn
    obtain ⟨r, hr⟩ := hth i _ hi
    rw [List.map_cons, List.flatten_cons] at hr
    have hmem : p :: ps ∈ progs := List.mem_of_getElem? hi
    obtain ⟨h1, h2, h3, h4, r', h5⟩ := C77_uninterrupted (hfit _ hmem p (List.mem_cons_self ..)) hb ho hr
    have hlt := (List.getElem?_eq_some_iff.mp hi).1
    have e : turnsSched cfg ((i, p) :: ts) = List.replicate (p.acts cfg).length i ++ turnsSched cfg ts := by simp [turnsSched]
    rw [e, ssys_run_append]
    generalize s.run cfg (List.replicate (p.acts cfg).length i) = y at *
    rw [if_neg hctr] at h2
    rw [ih (progs := progs.set i ps) ?_ htn h4 h3 (by rw [h2]; exact Nat.mod_lt _ (by decide)) (by rw [h5]; simp [hlen]) ?_, h1, h2,
      List.mapIdx_cons]
    · simp only [List.append_assoc, List.singleton_append, Nat.add_zero, Nat.mod_eq_of_lt hc]
      congr 2
      apply List.ext_getElem
      · simp
      · intro n hn _
        simp only [List.getElem_mapIdx]
        congr 2
        omega
    · intro qs hqs q hq
      rcases List.mem_or_eq_of_mem_set hqs with h | rfl
      · exact hfit qs h q hq
      · exact hfit _ hmem q (List.mem_cons_of_mem _ hq)
    · intro j qs hj
      rw [h5]
      by_cases hij : i = j
      · subst hij
        rw [List.getElem?_set_self hlt] at hj
        cases hj
        exact ⟨r', List.getElem?_set_self (by omega)⟩
      · rw [List.getElem?_set_ne hij] at hj
        obtain ⟨r'', h⟩ := hth j qs hj
        exact ⟨r'', by rw [List.getElem?_set_ne hij]; exact h⟩

/-- C77: when every packet is sent without interruption, whichever threads send and whatever they send, the wire carries exactly the
packets in the order of the turns, numbered from 0 modulo 2^16. -/
theorem C77_turns {cfg : Cfg} (hctr : cfg.ctrSize ≠ 0) {progs : List (List SPkt)} (hfit : ∀ ps ∈ progs, ∀ p ∈ ps, PktFits cfg p)
    {ts : List (Nat × SPkt)} (ht : Turns progs ts) :
    ((SSys.init cfg progs).run cfg (turnsSched cfg ts)).wire =
      ts.mapIdx fun n t => (t.1, frameFor cfg (n % 2 ^ 16) t.2.bytes) := by
  have := turns_wire hctr ts (s := SSys.init cfg progs) hfit ht ⟨by simp [SSys.init], by simp [SSys.init]⟩ rfl (by simp [SSys.init])
    (by simp [SSys.init]) (fun i ps hi => ⟨⟨0, 0, 0⟩, by simp [SSys.init, hi]⟩)
  rw [this]
  simp [SSys.init]

example : Turns Ex.twoSenders [(1, ⟨.dto, .raw, [0, 0x11, 0x22]⟩), (0, ⟨.cto, .send8, [0xFF]⟩)] := ⟨[], rfl, [], rfl, trivial⟩

example : Ex.wire Ex.sim Ex.twoSenders (turnsSched Ex.sim [(1, ⟨.dto, .raw, [0, 0x11, 0x22]⟩), (0, ⟨.cto, .send8, [0xFF]⟩)]) =
    [(1, [3, 0, 0, 0, 0, 0x11, 0x22]), (0, [1, 0, 1, 0, 0xFF])] := by decide +kernel

end Xcp
