import Verif.Model.Term
import Verif.Props.C83_Measurement
import Verif.Props.C56_Statistics
import Verif.Props.C52_Fls
/-
C88: the terminal of the example application carries out what is typed, key by key until ESC or q, and displays the
measurement configuration as the tool has set it up.

False of the program in three respects.  The display of a list begins with the number of ODTs of the list before: it is right
exactly when the list has ODTs if and only if the list before has.  On POSIX systems keys that arrive together are all ignored.  The key i
ends the example application with an access through a null pointer, because its flash memory is never opened.
-/
set_option autoImplicit false
namespace Xcp
open Spec

/-- The display of one ODT. -/
def Spec.odtText (x : List (UInt8 × UInt32) × Nat) : List Shown :=
  .odt x.2 :: x.1.zipIdx.map fun y => .entry y.2 y.1.2 y.1.1.toNat

/-- The number of bytes of some ODTs. -/
def Spec.bytesOf (odts : Odts) : Nat := (odts.map fun es => (es.map fun e => e.1.toNat).sum).sum

/-- The display of one list: its number, the number of its first packet, the flags, its ODTs and elements in order, the
number of bytes. -/
def Spec.Plan.listText (p : Plan) (mode : UInt8) (l : Nat) (odts : Odts) : List Shown :=
  .list l (p.conf.firstPid l) (mode.toNat.testBit 1) (mode.toNat.testBit 6) (mode.toNat.testBit 7) (mode.toNat.testBit 0)
    (mode.toNat.testBit 5) (mode.toNat.testBit 4) :: odts.zipIdx.flatMap odtText ++ [.total (bytesOf odts)]

/-- The display of a configuration. -/
def Spec.Plan.text (p : Plan) (mode : UInt8) : List Shown :=
  p.lists.zipIdx.flatMap fun x => p.listText mode x.2 x.1

section
variable {cfg : Cfg} {d : Daq} {p : Plan}

theorem shownEntries_eq (hc : cfg.Ok) (hr : Rep cfg d p.conf) (hw : Stocked p d fun _ _ _ => True) {l o : Nat}
    {es : List (UInt8 × UInt32)} (h : (l, o, es) ∈ p.cells) :
    shownEntries cfg d l o es.length =
      .ok (es.zipIdx.map (fun x => .entry x.2 x.1.2 x.1.1.toNat), (es.map fun e => e.1.toNat).sum) := by
  have key : ∀ n, n ≤ es.length → shownEntries cfg d l o n =
      .ok ((es.take n).zipIdx.map (fun x => .entry x.2 x.1.2 x.1.1.toNat), ((es.take n).map fun e => e.1.toNat).sum) := by
    intro n
    induction n with
    | zero => intro _; rfl
    | succ n ih =>
      intro hn
      unfold shownEntries at ih ⊢
      rw [foldlM_range_succ, ih (by omega)]
      obtain ⟨e, he⟩ : ∃ e, es[n]? = some e := ⟨es[n], List.getElem?_eq_getElem (by omega)⟩
      have hk := conf_cell h (getElem?_lt he)
      have h1 := hr.inside _ hk
      have h2 := hr.count_le
      have h3 := hw l o es n e h he trivial
      show (getOdtEntryIdx cfg d l o n).bind _ = _
      rw [hr.getEntry hc hk]
      show (d.ent cfg _).bind _ = _
      unfold Daq.ent
      rw [if_pos (by omega)]
      show Except.ok _ = _
      rw [List.take_add_one, he, h3.1, h3.2]
      simp [List.zipIdx_append, List.length_take, Nat.min_eq_left (by omega : n ≤ es.length)]
  have := key es.length (Nat.le_refl _)
  rwa [List.take_length] at this

theorem shownOdts_eq (hc : cfg.Ok) (hr : Rep cfg d p.conf) (hw : Stocked p d fun _ _ _ => True) {l : Nat} {odts : Odts}
    (hl : p.lists[l]? = some odts) : ∀ (fuel o : Nat) (rest : Odts), odts.drop o = rest → rest.length ≤ fuel →
    shownOdts cfg d l fuel o odts.length = .ok ((rest.zipIdx o).flatMap odtText, bytesOf rest) := by
  intro fuel
  induction fuel with
  | zero =>
    intro o rest hd hf
    have : rest = [] := List.length_eq_zero_iff.mp (by omega)
    subst this; rfl
  | succ fuel ih =>
    intro o rest hd hf
    unfold shownOdts
    cases rest with
    | nil =>
      have : odts.length ≤ o := List.drop_eq_nil_iff.mp hd
      rw [if_neg (by omega)]; rfl
    | cons es rest =>
      have ho : odts[o]? = some es := by
        have := congrArg List.head? hd
        simpa [List.head?_drop] using this
      have hdr : odts.drop (o + 1) = rest := by
        rw [← List.drop_drop, hd]; rfl
      have hcell : (l, o, es) ∈ p.cells := mem_cells.mpr ⟨odts, hl, ho⟩
      have hcf : p.conf[l]? = some (odts.map List.length) := by simp [Plan.conf, hl]
      have hodt : p.conf.has (.odt l o) := ⟨_, hcf, by simpa using getElem?_lt ho⟩
      rw [if_pos (getElem?_lt ho), hr.getOdt hc hodt]
      show (shownEntries cfg d l o _).bind _ = _
      rw [hr.odtNum l o _ es.length hcf (by simp [ho]), shownEntries_eq hc hr hw hcell]
      show (d.ent cfg l).bind _ = _
      rw [hr.ent_list (getElem?_lt hcf)]
      show (shownOdts cfg d l fuel (o + 1) _).bind _ = _
      rw [hr.listNum l _ hcf, List.length_map, ih (o + 1) rest hdr (by simpa using hf)]
      show Except.ok _ = _
      simp [odtText, bytesOf, List.zipIdx_cons]

theorem flags_eq (m : UInt8) : (m &&& 0x02 != 0) = m.toNat.testBit 1 ∧ (m &&& 0x40 != 0) = m.toNat.testBit 6 ∧
    (m &&& 0x80 != 0) = m.toNat.testBit 7 ∧ (m &&& 0x01 != 0) = m.toNat.testBit 0 ∧ (m &&& 0x20 != 0) = m.toNat.testBit 5 ∧
    (m &&& 0x10 != 0) = m.toNat.testBit 4 :=
  forall_u8 (P := fun m => (m &&& 0x02 != 0) = m.toNat.testBit 1 ∧ (m &&& 0x40 != 0) = m.toNat.testBit 6 ∧
    (m &&& 0x80 != 0) = m.toNat.testBit 7 ∧ (m &&& 0x01 != 0) = m.toNat.testBit 0 ∧ (m &&& 0x20 != 0) = m.toNat.testBit 5 ∧
    (m &&& 0x10 != 0) = m.toNat.testBit 4) (by decide +kernel) m

/-- Apart from 0 the number the ODT loop begins with does not matter. -/
theorem shownOdts_num (l : Nat) (fuel a b : Nat) (ha : 0 < a) (hb : 0 < b) :
    shownOdts cfg d l fuel 0 a = shownOdts cfg d l fuel 0 b := by
  cases fuel with
  | zero => rfl
  | succ n => unfold shownOdts; rw [if_pos ha, if_pos hb]

/-- The number of ODTs of the list the ODT loop begins with. -/
theorem shownList_eq (hc : cfg.Ok) (hr : Rep cfg d p.conf) {l : Nat} (hl : l < p.lists.length) :
    shownList cfg d l = (shownOdts cfg d l 256 0 (p.odts (l - 1))).map fun x =>
      .list l (p.conf.firstPid l) (d.mode.toNat.testBit 1) (d.mode.toNat.testBit 6) (d.mode.toNat.testBit 7)
        (d.mode.toNat.testBit 0) (d.mode.toNat.testBit 5) (d.mode.toNat.testBit 4) :: x.1 ++ [.total x.2] := by
  have hlen : p.conf.length = p.lists.length := by simp [Plan.conf]
  have hnum : ∀ i, i < p.lists.length → (d.entities i).num = p.odts i := by
    intro i hi
    rw [hr.listNum i (p.lists[i].map List.length) (by simp [Plan.conf, hi])]
    simp [Plan.odts, hi]
  unfold shownList
  rw [hr.ent_list (by omega)]
  show (getFirstPid cfg d l).bind _ = _
  rw [hr.firstPid hc (by omega)]
  obtain ⟨h1, h2, h3, h4, h5, h6⟩ := flags_eq d.mode
  simp only [show d.mode &&& MODE_SELECTED = d.mode &&& 0x40 from rfl, show d.mode &&& MODE_STARTED = d.mode &&& 0x80 from rfl,
    show d.mode &&& MODE_TIMESTAMP = d.mode &&& 0x10 from rfl, h1, h2, h3, h4, h5, h6]
  by_cases h0 : l = 0
  · subst h0
    rw [← hnum 0 hl]
    show (shownOdts cfg d 0 256 0 _).bind _ = _
    cases shownOdts cfg d 0 256 0 (d.entities 0).num <;> rfl
  · have hb := hr.ent_list (i := l - 1) (by omega)
    rw [← hnum (l - 1) (by omega)]
    show (if l = 0 then _ else Except.bind (d.ent cfg (l - 1)) _) = _
    rw [if_neg h0, hb]
    show (shownOdts cfg d l 256 0 _).bind _ = _
    cases shownOdts cfg d l 256 0 (d.entities (l - 1)).num <;> rfl

theorem odts_small (hc : cfg.Ok) (hr : Rep cfg d p.conf) {l : Nat} {odts : Odts} (hl : p.lists[l]? = some odts) : odts.length < 256 := by
  have hcf : p.conf[l]? = some (odts.map List.length) := by simp [Plan.conf, hl]
  have h1 := firstPid_succ hcf
  have h2 := firstPid_le p.conf (l + 1)
  have h3 := hr.odts_lt hc
  simp at h1
  omega

/-- The display of a list is right if and only if it has ODTs exactly when the list before has. -/
theorem shownList_iff (hc : cfg.Ok) (hr : Rep cfg d p.conf) (hw : Stocked p d fun _ _ _ => True) {l : Nat} {odts : Odts}
    (hl : p.lists[l]? = some odts) :
    shownList cfg d l = .ok (p.listText d.mode l odts) ↔ (p.odts l = 0 ↔ p.odts (l - 1) = 0) := by
  have ho : p.odts l = odts.length := by simp [Plan.odts, hl]
  have hsmall := odts_small hc hr hl
  rw [shownList_eq hc hr (getElem?_lt hl), ho]
  have hgood := shownOdts_eq hc hr hw hl 256 0 odts rfl (by omega)
  by_cases h0 : p.odts (l - 1) = 0
  · rw [h0]
    show Except.ok _ = _ ↔ _
    simp only [iff_true]
    constructor
    · intro h
      have h := Except.ok.inj h
      unfold Plan.listText at h
      cases odts with
      | nil => rfl
      | cons es rest => simp [List.zipIdx_cons, odtText] at h
    · intro h
      have : odts = [] := List.length_eq_zero_iff.mp h
      subst this; rfl
  · simp only [h0, iff_false]
    by_cases h1 : odts.length = 0
    · have : odts = [] := List.length_eq_zero_iff.mp h1
      subst this
      simp only [List.length_nil, not_true_eq_false, iff_false]
      intro h
      unfold shownOdts at h
      rw [if_pos (by omega)] at h
      cases hg : getOdt cfg d l 0 with
      | error f => rw [hg] at h; cases h
      | ok o =>
        rw [hg] at h
        change Except.map _ ((shownEntries cfg d l 0 o.num).bind _) = _ at h
        cases hs : shownEntries cfg d l 0 o.num with
        | error f => rw [hs] at h; cases h
        | ok r =>
          rw [hs] at h
          change Except.map _ ((d.ent cfg l).bind _) = _ at h
          rw [hr.ent_list (by have := getElem?_lt hl; simpa [Plan.conf] using this)] at h
          change Except.map _ ((shownOdts cfg d l 255 (0 + 1) _).bind _) = _ at h
          cases hq : shownOdts cfg d l 255 (0 + 1) (d.entities l).num with
          | error f => rw [hq] at h; cases h
          | ok q =>
            rw [hq] at h
            have h := Except.ok.inj h
            simp [Plan.listText] at h
    · rw [shownOdts_num l 256 _ odts.length (by omega) (by omega), hgood]
      simp only [h1, not_false_eq_true, iff_true]
      rfl

/-- The display of the configuration. -/
theorem shownDaq_eq (hc : cfg.Ok) (hr : Rep cfg d p.conf) (hw : Stocked p d fun _ _ _ => True)
    (hu : ∀ l, l < p.lists.length → (p.odts l = 0 ↔ p.odts (l - 1) = 0)) : shownDaq cfg d = .ok (p.text d.mode) := by
  have key : ∀ n, n ≤ p.lists.length → (List.range n).foldlM (fun acc i => do
      let r ← shownList cfg d i
      return acc ++ r) [] = (Except.ok ((p.lists.take n).zipIdx.flatMap fun x => p.listText d.mode x.2 x.1) : Except Fault _) := by
    intro n
    induction n with
    | zero => intro _; rfl
    | succ n ih =>
      intro hn
      obtain ⟨odts, ho⟩ : ∃ odts, p.lists[n]? = some odts := ⟨p.lists[n], List.getElem?_eq_getElem (by omega)⟩
      rw [foldlM_range_succ, ih (by omega)]
      show (shownList cfg d n).bind _ = _
      rw [(shownList_iff hc hr hw ho).mpr (hu n (by omega))]
      show Except.ok _ = _
      rw [List.take_add_one, ho]
      simp [List.zipIdx_append, List.length_take, Nat.min_eq_left (by omega : n ≤ p.lists.length)]
  unfold shownDaq
  rw [hr.lists, show p.conf.length = p.lists.length by simp [Plan.conf], key _ (Nat.le_refl _), List.take_length]
  rfl

end

/-- Keys that end the program: ESC, q and Q. -/
def Spec.endsProgram (b : UInt8) : Bool := b == 0x1B || b == 0x71 || b == 0x51

/-- What is displayed for a key: h help, i information about the slave, d the measurement configuration, otherwise nothing. -/
def Spec.keyText (cfg : Cfg) (f : Fls) (x : UInt8 × St) : Except Fault (List Shown) :=
  if x.1 = 0x68 ∨ x.1 = 0x48 then .ok [.help]
  else if x.1 = 0x69 ∨ x.1 = 0x49 then shownSystem cfg f x.2
  else if x.1 = 0x64 ∨ x.1 = 0x44 then shownDaq cfg x.2.daq
  else .ok []

/-- What is displayed for several keys, and whether the program ends. -/
def Spec.typedText (cfg : Cfg) (f : Fls) (keys : List (UInt8 × St)) : Except Fault (List Shown × Bool) :=
  ((keys.takeWhile fun x => !endsProgram x.1).mapM (keyText cfg f)).map fun r => (r.flatten, keys.any fun x => endsProgram x.1)

theorem key_cases (b : UInt8) : (endsProgram b = true ∧ keyAct b = some .quit) ∨
    (endsProgram b = false ∧ ((keyAct b = some .help ∧ (b = 0x68 ∨ b = 0x48)) ∨
      (keyAct b = some .system ∧ (b = 0x69 ∨ b = 0x49)) ∨ (keyAct b = some .daq ∧ (b = 0x64 ∨ b = 0x44)) ∨
      (keyAct b = none ∧ b ≠ 0x68 ∧ b ≠ 0x48 ∧ b ≠ 0x69 ∧ b ≠ 0x49 ∧ b ≠ 0x64 ∧ b ≠ 0x44))) :=
  forall_u8 (P := fun b => (endsProgram b = true ∧ keyAct b = some .quit) ∨
    (endsProgram b = false ∧ ((keyAct b = some .help ∧ (b = 0x68 ∨ b = 0x48)) ∨
      (keyAct b = some .system ∧ (b = 0x69 ∨ b = 0x49)) ∨ (keyAct b = some .daq ∧ (b = 0x64 ∨ b = 0x44)) ∨
      (keyAct b = none ∧ b ≠ 0x68 ∧ b ≠ 0x48 ∧ b ≠ 0x69 ∧ b ≠ 0x49 ∧ b ≠ 0x64 ∧ b ≠ 0x44)))) (by decide +kernel) b

theorem typedText_quit (cfg : Cfg) (f : Fls) {x : UInt8 × St} (rest : List (UInt8 × St)) (h : endsProgram x.1 = true) :
    typedText cfg f (x :: rest) = .ok ([], true) := by
  simp only [typedText, List.takeWhile_cons, h, Bool.not_true, Bool.false_eq_true, if_false, List.any_cons, Bool.true_or]
  rfl

theorem typedText_cons (cfg : Cfg) (f : Fls) {x : UInt8 × St} (rest : List (UInt8 × St)) (h : endsProgram x.1 = false) :
    typedText cfg f (x :: rest) = (do
      let a ← keyText cfg f x
      let (b, e) ← typedText cfg f rest
      return (a ++ b, e)) := by
  simp only [typedText, List.takeWhile_cons, h, Bool.not_false, if_true, List.any_cons, Bool.false_or, List.mapM_cons]
  cases keyText cfg f x with
  | error f => rfl
  | ok a =>
    cases List.mapM (keyText cfg f) (List.takeWhile (fun x => !endsProgram x.1) rest) <;> rfl

theorem show_eq (cfg : Cfg) (f : Fls) {b : UInt8} {s : St} {a : KeyAct} (h : endsProgram b = false) (ha : keyAct b = some a) :
    a ≠ .quit ∧ a.show cfg f s = keyText cfg f (b, s) := by
  rcases key_cases b with ⟨h1, -⟩ | ⟨-, h2⟩
  · rw [h] at h1; cases h1
  · unfold keyText
    rcases h2 with ⟨h2, h3⟩ | ⟨h2, h3⟩ | ⟨h2, h3⟩ | ⟨h2, h3⟩
    · rw [ha] at h2; cases h2
      refine ⟨by simp, ?_⟩
      rcases h3 with rfl | rfl <;> simp [KeyAct.show]
    · rw [ha] at h2; cases h2
      refine ⟨by simp, ?_⟩
      rcases h3 with rfl | rfl <;> simp [KeyAct.show]
    · rw [ha] at h2; cases h2
      refine ⟨by simp, ?_⟩
      rcases h3 with rfl | rfl <;> simp [KeyAct.show]
    · rw [ha] at h2; cases h2

theorem keyText_none (cfg : Cfg) (f : Fls) {b : UInt8} {s : St} (ha : keyAct b = none) :
    endsProgram b = false ∧ keyText cfg f (b, s) = .ok [] := by
  rcases key_cases b with ⟨-, h1⟩ | ⟨h, h2⟩
  · rw [ha] at h1; cases h1
  · refine ⟨h, ?_⟩
    rcases h2 with ⟨h2, h3⟩ | ⟨h2, h3⟩ | ⟨h2, h3⟩ | ⟨-, h3⟩
    · rw [ha] at h2; cases h2
    · rw [ha] at h2; cases h2
    · rw [ha] at h2; cases h2
    · simp [keyText, h3]

/-- The keys the program sees on POSIX systems: reads of exactly one byte. -/
def Spec.single : List (Option (List UInt8) × St) → List (UInt8 × St)
  | [] => []
  | (some [b], s) :: rest => (b, s) :: single rest
  | _ :: rest => single rest

/-- The keys of the records on Windows: a key that is pressed, not released.  The ESC key counts by its number, so that
another key with the character ESC (Ctrl-[) is none. -/
def Spec.pressed : List (InputRec × St) → List (UInt8 × St)
  | [] => []
  | (r, s) :: rest =>
    if r.isKey && r.down && (r.escape || r.char != 0x1B) then (if r.escape then 0x1B else r.char, s) :: pressed rest
    else pressed rest

/-- C88 on POSIX systems, what happens in all cases: the keys that are read alone are carried out, the others are ignored. -/
theorem C88_reads (cfg : Cfg) (f : Fls) : ∀ (rs : List (Option (List UInt8) × St)), termThread cfg f rs = typedText cfg f (single rs)
  | [] => rfl
  | (r, s) :: rest => by
    have ih := C88_reads cfg f rest
    match r with
    | none => exact ih
    | some [] => exact ih
    | some (_ :: _ :: _) => exact ih
    | some [b] =>
      show _ = typedText cfg f ((b, s) :: single rest)
      unfold termThread
      show (match keyAct b with | none => _ | some .quit => _ | some a => _) = _
      cases hq : endsProgram b with
      | true =>
        rw [typedText_quit cfg f _ hq]
        rcases key_cases b with ⟨-, h2⟩ | ⟨h1, -⟩
        · rw [h2]
        · rw [hq] at h1; cases h1
      | false =>
        rw [typedText_cons cfg f _ hq, ← ih]
        cases ha : keyAct b with
        | none => rw [(keyText_none cfg f ha).2]; cases termThread cfg f rest <;> rfl
        | some a =>
          obtain ⟨h1, h2⟩ := show_eq cfg f (s := s) hq ha
          rw [← h2]
          cases a <;> first | rfl | exact absurd rfl h1

/-- C88, the keys on POSIX systems, partial: if every key arrives alone, all keys are carried out, until ESC or q. -/
theorem C88_keys_partial (cfg : Cfg) (f : Fls) (keys : List (UInt8 × St)) :
    termThread cfg f (keys.map fun x => (some [x.1], x.2)) = typedText cfg f keys := by
  rw [C88_reads]
  congr 1
  induction keys with
  | nil => rfl
  | cons x rest ih => exact congrArg (x :: ·) ih

theorem act_none {r : InputRec} (h : (r.isKey && r.down && (r.escape || r.char != 0x1B)) = false) : r.act = none := by
  obtain ⟨k, d, e, b⟩ := r
  unfold InputRec.act
  cases k
  · rfl
  cases d
  · rfl
  cases e
  · have : b = 0x1B := by simpa using h
    subst this
    rfl
  · cases h

theorem act_key {r : InputRec} (h : (r.isKey && r.down && (r.escape || r.char != 0x1B)) = true) :
    r.act = keyAct (if r.escape then 0x1B else r.char) := by
  obtain ⟨k, d, e, b⟩ := r
  unfold InputRec.act
  cases k
  · cases h
  cases d
  · cases h
  cases e
  · have hb : b ≠ 0x1B := by simpa using h
    revert hb
    exact forall_u8 (P := fun b => b ≠ 0x1B → (if ¬ (true = true) ∨ ¬ (true = true) then none else if false = true then some .quit else
      (match (lower b).toNat with | 0x71 => some .quit | 0x68 => some .help | 0x69 => some .system | 0x64 => some .daq | _ => none)) =
      keyAct b) (by decide +kernel) b
  · rfl

/-- C88, the keys on Windows: all keys that are pressed are carried out, until ESC or q. -/
theorem C88_windows (cfg : Cfg) (f : Fls) : ∀ (rs : List (InputRec × St)), winTermThread cfg f rs = typedText cfg f (pressed rs)
  | [] => rfl
  | (r, s) :: rest => by
    have ih := C88_windows cfg f rest
    unfold winTermThread pressed
    cases hk : r.isKey && r.down && (r.escape || r.char != 0x1B) with
    | false => rw [act_none hk]; exact ih
    | true =>
      rw [act_key hk, if_pos rfl]
      generalize (if r.escape = true then (0x1B : UInt8) else r.char) = b
      cases hq : endsProgram b with
      | true =>
        rw [typedText_quit cfg f _ hq]
        rcases key_cases b with ⟨-, h2⟩ | ⟨h1, -⟩
        · rw [h2]
        · rw [hq] at h1; cases h1
      | false =>
        rw [typedText_cons cfg f _ hq, ← ih]
        cases ha : keyAct b with
        | none => rw [(keyText_none cfg f ha).2]; cases winTermThread cfg f rest <;> rfl
        | some a =>
          obtain ⟨h1, h2⟩ := show_eq cfg f (s := s) hq ha
          rw [← h2]
          cases a <;> first | rfl | exact absurd rfl h1

/-- C88, the display of one list of a configuration in the slave, exactly: it is right if and only if the list has
ODTs when the list before has and none when the list before has none.  The first list is always right. -/
theorem C88_list {cfg : Cfg} (hc : cfg.Ok) {p : Plan} {s : St} (hl : Loaded cfg p s) {l : Nat} {odts : Odts}
    (ho : p.lists[l]? = some odts) :
    shownList cfg s.daq l = .ok (p.listText s.daq.mode l odts) ↔ (p.odts l = 0 ↔ p.odts (l - 1) = 0) :=
  shownList_iff hc hl.rep hl.written ho

/-- C88, the display of the configuration, partial: after the commands of a measurement of lists that all have ODTs, the
key d displays the lists, packets and elements the tool has asked for. -/
theorem C88_display_partial {cfg : Cfg} (f : Fls) (hc : cfg.Ok) (hs : ShortOk cfg) (ho : OffersDaq cfg) {p : Plan} (hp : p.Suits cfg) {s : St} {h : Nat}
    (hf : Fresh cfg s h) {ps : List (Env × Pdu)} (hb : Begin ps (p.setup cfg.motorola)) (hall : ∀ odts ∈ p.lists, odts ≠ []) :
    ∃ t, run cfg s (ps.map fun x => (x.1, .cmd x.2)) = .ok t ∧ termThread cfg f [(some [0x64], t)] = .ok (p.text t.daq.mode, false) ∧
      (p.lists ≠ [] → t.daq.mode.toNat.testBit 4 = p.stamps) := by
  obtain ⟨t, ⟨h1, -⟩, h4, -⟩ := setup_runs hc hs ho hp hf hb
  have hpos : ∀ l, l < p.lists.length → p.odts l ≠ 0 := by
    intro l hl h0
    have : p.lists[l] = [] := by simpa [Plan.odts, hl] using h0
    exact hall _ (List.getElem_mem hl) this
  refine ⟨t, h1, ?_, ?_⟩
  · show (shownDaq cfg t.daq).bind _ = _
    rw [shownDaq_eq hc h4.armed.loaded.rep h4.armed.loaded.written fun l hl =>
      ⟨fun h => absurd h (hpos l hl), fun h => absurd h (hpos (l - 1) (by omega))⟩]
    show Except.ok (_ ++ _, _) = _
    rw [List.append_nil]
  · intro hne
    have hev : p.events ≠ [] := by
      intro h
      have := hp.one
      rw [h] at this
      exact hne (List.length_eq_zero_iff.mp this.symm)
    have := h4.armed.mode hev
    rw [← (flags_eq t.daq.mode).2.2.2.2.2, this]
    unfold Plan.mode
    cases p.stamps <;> rfl

/-- The flash memory: for each segment its address, where it is mapped to, size and page size in kilobytes, number of pages. -/
def Spec.flashText (f : Fls) : List Shown :=
  f.segs.filterMap fun s => s.arr.map fun a =>
    .segment s.base a.map (s.memSize.toNat / 1024) (s.pageSize.toNat / 1024) (s.memSize.toNat / s.pageSize.toNat)

/-- The information about a slave: sizes, block modes, the command groups with their protection, whether a measurement
runs, the number of elements of the pool in use, the flash memory, the packets not rejected, rejected as busy and sent. -/
def Spec.systemText (cfg : Cfg) (running : Bool) (used : Nat) (flash : List Shown) (received busy sent : Nat) : List Shown :=
  .limits cfg.maxCto cfg.maxDto cfg.slaveBlock cfg.masterBlock ::
  .calGroup (if cfg.cal then some cfg.protCal else none) ::
  .pagGroup (if cfg.pag then some cfg.protPag else none) ::
  .daqGroup (if cfg.daq then some (cfg.protDaq, cfg.protStim) else none) ::
  .pgmGroup (if cfg.pgm then some cfg.protPgm else none) ::
  .processor running :: .entities used cfg.maxEnt :: flash ++ [.statistics received busy sent]

theorem shownSegment_eq {f : Fls} (hi : f.init = true) {idx : Nat} {s : FlsSeg} (hs : f.segs[idx]? = some s) {a : FlsArr}
    (ha : s.arr = some a) (hp : s.pageSize ≠ 0) :
    shownSegment f idx =
      .ok (.segment s.base a.map (s.memSize.toNat / 1024) (s.pageSize.toNat / 1024) (s.memSize.toNat / s.pageSize.toNat)) := by
  simp only [shownSegment, Fls.basePointer, Fls.numPages, hi, hs, FlsSeg.array, ha, if_neg hp]
  rfl

theorem mapM_flash {f : Fls} (hi : f.init = true) : ∀ (segs : List FlsSeg) (k : Nat), (∀ s ∈ segs, s.arr.isSome ∧ s.pageSize ≠ 0) →
    (∀ j s, segs[j]? = some s → f.segs[k + j]? = some s) →
    (List.range' k segs.length).mapM (shownSegment f) = (.ok (segs.filterMap fun s => s.arr.map fun a =>
      .segment s.base a.map (s.memSize.toNat / 1024) (s.pageSize.toNat / 1024) (s.memSize.toNat / s.pageSize.toNat)) : Except Fault _)
  | [], _, _, _ => rfl
  | s :: segs, k, h, hk => by
    obtain ⟨ha, hp⟩ := h s (List.mem_cons_self ..)
    obtain ⟨a, ha⟩ := Option.isSome_iff_exists.mp ha
    have ih := mapM_flash hi segs (k + 1) (fun s hs => h s (List.mem_cons_of_mem _ hs))
      fun j t ht => by have := hk (j + 1) t (by simpa using ht); rwa [show k + 1 + j = k + (j + 1) by omega]
    rw [List.length_cons, List.range'_succ, List.mapM_cons, shownSegment_eq hi (by simpa using hk 0 s rfl) ha hp, ih]
    simp only [List.filterMap_cons, ha, Option.map_some]
    rfl

theorem shownFlash_eq {f : Fls} (h : ∀ s ∈ f.segs, s.arr.isSome ∧ s.pageSize ≠ 0) :
    shownFlash f = .ok (if f.init then flashText f else []) := by
  unfold shownFlash
  cases hi : f.init with
  | false => rfl
  | true =>
    rw [if_pos rfl, if_pos rfl, List.range_eq_range']
    exact mapM_flash hi f.segs 0 h fun j s hs => by simpa using hs

/-- C88, the key i, partial: in every history, with all segments of the flash memory opened (or no flash memory), what it displays
counts the packets of the history (C56) and the elements of the configuration in the slave.
Simplification: numbers from 2 ^ 31 on are displayed as negative numbers (`%d`). -/
theorem C88_system_partial {cfg : Cfg} (hst : cfg.statistics = true) {f : Fls} (hf : ∀ s ∈ f.segs, s.arr.isSome ∧ s.pageSize ≠ 0)
    {mem : Mem} {h : List (Env × Op)} {s : St} (hr : run cfg (St.init cfg mem) h = .ok s) {p : Plan} (hl : Loaded cfg p s) :
    termThread cfg f [(some [0x69], s)] = .ok (systemText cfg s.daq.running p.conf.size (if f.init then flashText f else [])
      (occurrences notRejected cfg (St.init cfg mem) h % 2 ^ 32) (occurrences rejectedBusy cfg (St.init cfg mem) h % 2 ^ 32)
      (s.tx.length % 2 ^ 32), false) := by
  obtain ⟨h1, h2, h3⟩ := C56_statistics_partial hst hr
  rw [← h1, ← h2, ← h3, ← hl.rep.used]
  show (shownSystem cfg f s).bind _ = _
  unfold shownSystem
  rw [shownFlash_eq hf, hst]
  show Except.ok (_ ++ [], false) = _
  simp [systemText, shownInfo]

/-- C88 is false of the key i in the example application: the flash emulation is initialised without opening its segments (C52), and
displaying them dereferences a null pointer, on POSIX systems and on Windows. -/
theorem C88_fails_information (cfg : Cfg) (granularity : UInt32) (segs : List FlsSeg) (hne : segs ≠ []) (hs : ∀ s ∈ segs, s.static) :
    ∃ f, Fls.initialize granularity segs = .ok f ∧ ∀ s rest rest', termThread cfg f ((some [0x69], s) :: rest) = .error .nullDeref ∧
      winTermThread cfg f (({ isKey := true, down := true, escape := false, char := 0x69 }, s) :: rest') = .error .nullDeref := by
  refine ⟨⟨true, granularity, segs⟩, openAll_same _ rfl _, ?_⟩
  intro s rest rest'
  have h : shownSystem cfg ⟨true, granularity, segs⟩ s = .error .nullDeref := by
    cases segs with
    | nil => exact absurd rfl hne
    | cons x segs =>
      have : x.arr = none := hs x (List.mem_cons_self ..)
      simp only [shownSystem, shownFlash, List.length_cons, List.range_eq_range', List.range'_succ, List.mapM_cons, shownSegment,
        Fls.basePointer, List.getElem?_cons_zero, FlsSeg.array, this]
      rfl
  constructor
  · show (shownSystem cfg _ s).bind _ = _
    rw [h]; rfl
  · show (shownSystem cfg _ s).bind _ = _
    rw [h]; rfl

/-- No flash memory, and one of two pages of 4 kB that is open. -/
def Ex.noFlash : Fls := ⟨false, 4096, []⟩

def Ex.openFlash : Fls :=
  ⟨true, 4096, [⟨8192, 256, 4096, 1, 0x40000, some ⟨0x7F0000, 8192, 0, fun _ => 0xFF, 8192, 0⟩, 0⟩]⟩

/-- The state after some commands. -/
def Ex.terminal (f : Fls) (cmds : List (List UInt8)) (rs : List (List UInt8)) : Option (List Shown × Bool) :=
  (run { Ex.sim with timestamping := true } (St.init { Ex.sim with timestamping := true } Ex.mem) (cmds.map Ex.c)).toOption.bind fun s =>
    (termThread { Ex.sim with timestamping := true } f (rs.map fun r => (some r, s))).toOption

/-- The display of a measurement. -/
example : Ex.terminal Ex.noFlash ([0xFF] :: Ex.plan.setup false) [[0x64], [0x71], [0x64]] = some
    ([.list 0 0 false false true false false true, .odt 0, .entry 0 0x10 2, .entry 1 0x20 1, .odt 1, .entry 0 0x30 4, .total 7,
      .list 1 2 false false true false false true, .odt 0, .entry 0 0x40 1, .total 1], true) := by decide +kernel

example : Ex.plan.text 0x90 =
    [.list 0 0 false false true false false true, .odt 0, .entry 0 0x10 2, .entry 1 0x20 1, .odt 1, .entry 0 0x30 4, .total 7,
      .list 1 2 false false true false false true, .odt 0, .entry 0 0x40 1, .total 1] := by decide +kernel

/-- Information while it runs: 20 packets received, 20 answers. -/
example : Ex.terminal Ex.noFlash ([0xFF] :: Ex.plan.setup false) [[0x69]] = some
    (systemText { Ex.sim with timestamping := true } true 9 [] 20 0 20, false) := by decide +kernel

example : (Ex.terminal Ex.openFlash [[0xFF]] [[0x69]]).map (fun x => x.1.drop 6) = some
    [.entities 0 Ex.sim.maxEnt, .segment 0x40000 0x7F0000 8 4 2, .statistics 1 0 1] := by decide +kernel

/-- C88 is false of the display: two lists, of which only the second has an ODT, of one element.  The ODT is not displayed. -/
theorem C88_fails_hidden : Ex.terminal Ex.noFlash [[0xFF], [0xD6], [0xD5, 0, 2, 0], [0xD4, 0, 1, 0, 1], [0xD3, 0, 1, 0, 0, 1], [0xE2, 0, 1, 0, 0, 0],
      [0xE1, 0xFF, 4, 0, 0x30, 0, 0, 0]] [[0x64]] =
    some ([.list 0 0 false false false false false false, .total 0, .list 1 0 false false false false false false, .total 0], false) := by
  decide +kernel

/-- C88 is false of the display: two lists, of which only the first has an ODT.  The second is displayed with an ODT
and an element too, which are the first list and its ODT in the memory of the slave. -/
theorem C88_fails_bogus : Ex.terminal Ex.noFlash [[0xFF], [0xD6], [0xD5, 0, 2, 0], [0xD4, 0, 0, 0, 1], [0xD3, 0, 0, 0, 0, 1], [0xE2, 0, 0, 0, 0, 0],
      [0xE1, 0xFF, 4, 0, 0x30, 0, 0, 0]] [[0x64]] =
    some ([.list 0 0 false false false false false false, .odt 0, .entry 0 0x30 4, .total 4,
      .list 1 1 false false false false false false, .odt 0, .entry 0 0x30001 0, .total 0], false) := by
  decide +kernel

/-- C88 is false of the keys on POSIX systems: two keys that arrive together, whichever, are ignored. -/
theorem C88_fails_together (cfg : Cfg) (f : Fls) (s : St) (a b : UInt8) : termThread cfg f [(some [a, b], s)] = .ok ([], false) := rfl

end Xcp
