import Verif.Proofs.Layout
/-
C31: WRITE_DAQ fills consecutive entries of one ODT and nothing else.

True as long as the writes stay inside the ODT.  Writes past the last entry are not refused: they
overwrite the next element of the pool (`C31_fails`).
-/
set_option autoImplicit false
namespace Xcp
open Spec

/-- What is written: the size of an element and its address. -/
abbrev Spec.Element := UInt8 × UInt32

/-- `d'` is `d` after the elements `ws` were stored in the entries `e, e+1, …` of ODT `o` of list
`l`; nothing else changed but the position of the pointer. -/
structure Spec.Wrote (d d' : Daq) (l o e : Nat) (ws : List Element) : Prop where
  stored : ∀ i w, ws[i]? = some w → (d'.entities (slot d (.entry l o (e + i)))).len = w.1.toNat ∧
    (d'.entities (slot d (.entry l o (e + i)))).addr = w.2
  others : ∀ x, (∀ i, i < ws.length → x ≠ slot d (.entry l o (e + i))) → d'.entities x = d.entities x
  ptr : d'.ptr = ⟨l, o, e + ws.length⟩
  rest : d' = { d with entities := d'.entities, ptr := d'.ptr }

theorem slot_entry {d d' : Daq} {c : Conf}
    (h : ∀ x, (∃ i, i < c.length ∧ x = slot d (.list i)) ∨ (∃ i j, c.has (.odt i j) ∧ x = slot d (.odt i j)) →
      d'.entities x = d.entities x) :
    ∀ o, c.has o → slot d' o = slot d o := by
  have hl : ∀ i, i < c.length → d'.entities i = d.entities i := fun i hi => h i (Or.inl ⟨i, hi, rfl⟩)
  have ho : ∀ i j, c.has (.odt i j) → slot d' (.odt i j) = slot d (.odt i j) := by
    intro i j hij
    obtain ⟨odts, h1, h2⟩ := hij
    show (d'.entities i).first + j = (d.entities i).first + j
    rw [hl i (getElem?_lt h1)]
  intro o hio
  cases o with
  | list i => rfl
  | odt i j => exact ho i j hio
  | entry i j k =>
    obtain ⟨odts, m, h1, h2, h3⟩ := hio
    have hij : c.has (.odt i j) := ⟨odts, h1, getElem?_lt h2⟩
    show (d'.entities (slot d' (.odt i j))).first + k = (d.entities (slot d (.odt i j))).first + k
    rw [ho i j hij, h _ (Or.inr ⟨i, j, hij, rfl⟩)]

/-- Storing into an entry keeps the configuration. -/
theorem rep_store {cfg : Cfg} {d d' : Daq} {c : Conf} (hr : Rep cfg d c) {l o e : Nat} (he : c.has (.entry l o e))
    (hother : ∀ x, x ≠ slot d (.entry l o e) → d'.entities x = d.entities x)
    (h1 : d'.listCount = d.listCount) (h2 : d'.odtCount = d.odtCount) (h3 : d'.entityCount = d.entityCount) :
    Rep cfg d' c ∧ ∀ o, c.has o → slot d' o = slot d o := by
  have hkeep : ∀ x, (∃ i, i < c.length ∧ x = slot d (.list i)) ∨ (∃ i j, c.has (.odt i j) ∧ x = slot d (.odt i j)) →
      d'.entities x = d.entities x := by
    intro x hx
    apply hother
    rcases hx with ⟨i, hi, hx⟩ | ⟨i, j, hij, rfl⟩
    · intro h
      rw [hx] at h
      have := hr.disjoint (.list i) (.entry l o e) hi he h
      cases this
    · intro h
      have := hr.disjoint (.odt i j) (.entry l o e) hij he h
      cases this
  have hs := slot_entry hkeep
  refine ⟨⟨h1.trans hr.lists, h2.trans hr.odtCount, h3.trans hr.used, hr.fits, ?_, ?_, ?_, ?_, ?_⟩, hs⟩
  · intro i odts hi
    rw [hkeep i (Or.inl ⟨i, getElem?_lt hi, rfl⟩)]
    exact hr.listNum i odts hi
  · intro i j odts m hi hj
    have hij : c.has (.odt i j) := ⟨odts, hi, getElem?_lt hj⟩
    rw [hs _ hij, hkeep _ (Or.inr ⟨i, j, hij, rfl⟩)]
    exact hr.odtNum i j odts m hi hj
  · intro o ho
    rw [hs o ho, h3]
    exact hr.inside o ho
  · intro o o' ho ho' h
    rw [hs o ho, hs o' ho'] at h
    exact hr.disjoint o o' ho ho' h
  · intro i hi
    rw [h3] at hi
    have := hr.inside _ he
    rw [hother i (by omega)]
    exact hr.fresh i hi

/-- One write. -/
theorem write_entry {cfg : Cfg} (hc : cfg.Ok) {d : Daq} {c : Conf} (hr : Rep cfg d c) {l o e : Nat} (hp : d.ptr = ⟨l, o, e⟩)
    (he : c.has (.entry l o e)) (w : Element) :
    ∃ d', writeDaqEntry cfg d w.1 w.2 = .ok d' ∧ Wrote d d' l o e [w] ∧ Rep cfg d' c ∧ ∀ x, c.has x → slot d' x = slot d x := by
  have hin := hr.inside _ he
  have hcl := hr.count_le
  have hlt := hc.ent_lt
  have he255 : e + 1 < 256 := by
    obtain ⟨odts, m, h1, h2, h3⟩ := he
    have : (d.entities (slot d (.odt l o))).num = m := hr.odtNum l o odts m h1 h2
    have : m < 256 := by rw [← this]; unfold Entity.num; omega
    have hs : slot d (.entry l o e) = (d.entities (slot d (.odt l o))).first + e := rfl
    omega
  refine ⟨{ d.setEnt (slot d (.entry l o e)) ({ d.entities (slot d (.entry l o e)) with len := w.1.toNat }.setAddr w.2) with
      ptr := { d.ptr with entry := (d.ptr.entry + 1) % 256 } }, ?_, ?_, ?_⟩
  · unfold writeDaqEntry
    rw [hp]
    simp only
    rw [hr.getEntry hc he]
    simp only [ok_bind, Daq.ent]
    rw [if_pos (by omega)]
    rfl
  · refine ⟨?_, ?_, ?_, rfl⟩
    · intro i w' hw
      have hi : i = 0 := by have := getElem?_lt hw; simp at this; exact this
      subst hi
      simp at hw
      subst hw
      simp [Daq.setEnt, Entity.setAddr, Entity.addr]
    · intro x hx
      have : x ≠ slot d (.entry l o e) := hx 0 (by simp)
      simp only [Daq.setEnt]
      rw [if_neg this]
    · simp only [hp, List.length_cons, List.length_nil]
      rw [Nat.mod_eq_of_lt (by omega)]
  · refine rep_store hr he ?_ rfl rfl rfl
    intro x hx
    simp only [Daq.setEnt]
    rw [if_neg hx]

/-- All entries from `e` on for the elements `ws` exist. -/
def Spec.Room (c : Conf) (l o e : Nat) (ws : List Element) : Prop := ∀ i, i < ws.length → c.has (.entry l o (e + i))

theorem wrote_cons {d d1 d2 : Daq} {cfg : Cfg} {c : Conf} (hr : Rep cfg d c) {l o e : Nat} {w : Element} {ws : List Element}
    (hroom : Room c l o e (w :: ws)) (hs : ∀ x, c.has x → slot d1 x = slot d x)
    (h1 : Wrote d d1 l o e [w]) (h2 : Wrote d1 d2 l o (e + 1) ws) : Wrote d d2 l o e (w :: ws) := by
  have hs' : ∀ i, i < ws.length → slot d1 (.entry l o (e + 1 + i)) = slot d (.entry l o (e + (i + 1))) := by
    intro i hi
    have := hs _ (hroom (i + 1) (by simp; omega))
    rw [show e + 1 + i = e + (i + 1) by omega]
    exact this
  refine ⟨?_, ?_, ?_, ?_⟩
  · intro i w' hw
    cases i with
    | zero =>
      simp at hw; subst hw
      rw [h2.others]
      · exact h1.stored 0 w rfl
      · intro i hi he
        rw [hs' i hi] at he
        have := hr.disjoint _ _ (hroom 0 (by simp)) (hroom (i + 1) (by simp; omega)) he
        simp at this
    | succ i =>
      have hw : ws[i]? = some w' := by simpa using hw
      have := h2.stored i w' hw
      rw [hs' i (getElem?_lt hw)] at this
      exact this
  · intro x hx
    rw [h2.others, h1.others]
    · intro i hi
      have : i = 0 := by simpa using hi
      subst this
      exact hx 0 (by simp)
    · intro i hi
      rw [hs' i hi]
      exact hx (i + 1) (by simp; omega)
  · rw [h2.ptr]
    simp only [List.length_cons]
    congr 1
    omega
  · rw [h2.rest, h1.rest]

/-- Any number of writes. -/
theorem write_many {cfg : Cfg} (hc : cfg.Ok) {d : Daq} {c : Conf} (hr : Rep cfg d c) {l o e : Nat} (hp : d.ptr = ⟨l, o, e⟩)
    (ws : List Element) (hroom : Room c l o e ws) :
    ∃ d', ws.foldlM (fun d w => writeDaqEntry cfg d w.1 w.2) d = .ok d' ∧ Wrote d d' l o e ws ∧ Rep cfg d' c := by
  induction ws generalizing d e with
  | nil =>
    refine ⟨d, rfl, ⟨?_, fun _ _ => rfl, ?_, rfl⟩, hr⟩
    · intro i w hw; simp at hw
    · simp [hp]
  | cons w ws ih =>
    obtain ⟨d1, h1, h2, h3, h4⟩ := write_entry hc hr hp (hroom 0 (by simp)) w
    have hroom' : Room c l o (e + 1) ws := by
      intro i hi
      have := hroom (i + 1) (by simp; omega)
      rw [show e + 1 + i = e + (i + 1) by omega]
      exact this
    obtain ⟨d2, h5, h6, h7⟩ := ih h3 h2.ptr hroom'
    refine ⟨d2, ?_, wrote_cons hr hroom h4 h2 h6, h7⟩
    rw [foldlM_cons, h1]
    exact h5

/-- The packet is a WRITE_DAQ with element `w`.  (Addresses from 2^31 on need a compiler that
defines signed overflow, see C45.) -/
structure Spec.IsWriteDaq (cfg : Cfg) (p : Pdu) (w : Element) : Prop where
  code : code p = some 0xE1
  bitOffset : ∃ b, p.buf[1]? = some b
  size : p.buf[2]? = some w.1
  ext : ∃ b, p.buf[3]? = some b
  addr : Param cfg.motorola p 4 4 w.2.toNat
  defined : cfg.wrapv = true ∨ w.2.toNat < 2 ^ 31

/-- `n` packets were sent, all of them positive responses. -/
def Spec.Positive (cfg : Cfg) (s s' : St) (n : Nat) : Prop :=
  ∃ fs, s'.tx = s.tx ++ fs ∧ fs.length = n ∧ ∀ f ∈ fs, Carries cfg f [0xFF]

theorem write_step {cfg : Cfg} (hc : cfg.Ok) (hs : ShortOk cfg) (env : Env) {s : St} (hd : DaqReady cfg s)
    (hsup : cfg.supports .writeDaq = true) (hrun : s.daq.running = false) {c : Conf} (hr : Rep cfg s.daq c)
    {l o e : Nat} (hptr : s.daq.ptr = ⟨l, o, e⟩) (he : c.has (.entry l o e)) {p : Pdu} {w : Element}
    (hp : IsWriteDaq cfg p w) :
    ∃ s', step cfg env s (.cmd p) = .ok s' ∧ Answers cfg s s' [0xFF] ∧ Wrote s.daq s'.daq l o e [w] ∧ Rep cfg s'.daq c ∧
      SameCore { s with daq := s'.daq } s' ∧ ∀ x, c.has x → slot s'.daq x = slot s.daq x := by
  obtain ⟨d', h1, h2, h3, h4⟩ := write_entry hc hr hptr he w
  obtain ⟨b1, hb1⟩ := hp.bitOffset
  obtain ⟨b3, hb3⟩ := hp.ext
  rw [hd.ready.stepc env .writeDaq hp.code hsup]
  have hb := hd.bump
  have hsame := bumpReceived_same cfg s
  have htx : (bumpReceived cfg s).tx = s.tx := bumpReceived_tx cfg s
  generalize bumpReceived cfg s = b at *
  simp only [handler, writeDaqRes, assertDaqStopped, assertPgmIdle, assertUnlocked, hsame.daq]
  simp only [byte_eq hb1, byte_eq hp.size, byte_eq hb3, hp.addr.dword hp.defined, ok_bind]
  rw [if_neg (by rw [hrun]; decide), if_neg hb.pgm, if_neg hb.notProtected]
  rw [show UInt32.ofNat w.2.toNat = w.2 from UInt32.ofNat_toNat, h1]
  exact ⟨_, rfl, send8_answers hs (by simp) htx, h2, h3, (hsame.withDaq d').trans (send8_same _ _ _), h4⟩

theorem Spec.DaqReady.same {cfg : Cfg} {s s' : St} (h : DaqReady cfg s) (hs : SameCore { s with daq := s'.daq } s') :
    DaqReady cfg s' :=
  ⟨⟨hs.connected.trans h.ready.conn, hs.busy.trans h.ready.idle⟩, by rw [hs.pgm]; exact h.pgm, by
    have := h.unlocked
    unfold Locked at *
    rw [hs.resProt]; exact this⟩

/-- C31 for WRITE_DAQ: with the pointer on entry `e` of an ODT, WRITE_DAQ packets for as many
elements as there are entries from `e` on are all accepted, store their elements in consecutive
entries and change nothing else in the configuration. -/
theorem C31_write_daq_partial {cfg : Cfg} (hc : cfg.Ok) (hs : ShortOk cfg) {s : St} (hd : DaqReady cfg s)
    (hsup : cfg.supports .writeDaq = true) (hrun : s.daq.running = false) {c : Conf} (hr : Rep cfg s.daq c)
    {l o e : Nat} (hptr : s.daq.ptr = ⟨l, o, e⟩) (xs : List (Env × Pdu × Element))
    (hroom : Room c l o e (xs.map fun x => x.2.2)) (hp : ∀ x ∈ xs, IsWriteDaq cfg x.2.1 x.2.2) :
    ∃ s', run cfg s (xs.map fun x => (x.1, .cmd x.2.1)) = .ok s' ∧ Positive cfg s s' xs.length ∧
      Wrote s.daq s'.daq l o e (xs.map fun x => x.2.2) ∧ Rep cfg s'.daq c ∧ SameCore { s with daq := s'.daq } s' := by
  induction xs generalizing s e with
  | nil =>
    refine ⟨s, rfl, ⟨[], by simp, rfl, by simp⟩, ⟨?_, fun _ _ => rfl, ?_, rfl⟩, hr, SameCore.refl s⟩
    · intro i w hw; simp at hw
    · simp [hptr]
  | cons x xs ih =>
    obtain ⟨s1, h1, ⟨f, h2, h2'⟩, h3, h4, h5, h6⟩ := write_step hc hs x.1 hd hsup hrun hr hptr (hroom 0 (by simp)) (hp x (by simp))
    have hroom' : Room c l o (e + 1) (xs.map fun x => x.2.2) := by
      intro i hi
      have := hroom (i + 1) (by simp at hi ⊢; omega)
      rw [show e + 1 + i = e + (i + 1) by omega]
      exact this
    have hrun1 : s1.daq.running = false := by rw [h3.rest]; exact hrun
    obtain ⟨s2, g1, ⟨fs, g2, g3, g4⟩, g5, g6, g7⟩ :=
      ih (hd.same h5) hrun1 h4 h3.ptr hroom' (fun y hy => hp y (by simp [hy]))
    refine ⟨s2, ?_, ⟨f :: fs, ?_, by simp [g3], ?_⟩, wrote_cons hr hroom h6 h3 g5, g6, ?_⟩
    · rw [List.map_cons]
      simp only [run]
      rw [h1]
      exact g1
    · rw [g2, h2]; simp
    · intro f' hf
      rcases List.mem_cons.mp hf with rfl | hf
      · exact h2'
      · exact g4 f' hf
    · exact (h5.withDaq s2.daq).trans g7

/-- The packet is a WRITE_DAQ_MULTIPLE with the elements `ws`. -/
structure Spec.IsWriteMultiple (cfg : Cfg) (p : Pdu) (ws : List Element) : Prop where
  code : code p = some 0xC7
  count : p.buf[1]? = some (UInt8.ofNat ws.length)
  fits : ws.length * 8 + 2 ≤ cfg.maxCto
  bitOffset : ∀ i, i < ws.length → ∃ b, p.buf[8 * i + 2]? = some b
  size : ∀ (i : Nat) (w : Element), ws[i]? = some w → p.buf[8 * i + 3]? = some w.1
  addr : ∀ (i : Nat) (w : Element), ws[i]? = some w → Param cfg.motorola p (8 * i + 4) 4 w.2.toNat
  defined : ∀ w ∈ ws, cfg.wrapv = true ∨ w.2.toNat < 2 ^ 31
  ext : ∀ i, i < ws.length → ∃ b, p.buf[8 * i + 8]? = some b

theorem multiple_fold {cfg : Cfg} (hc : cfg.Ok) {p : Pdu} {ws : List Element} (hp : IsWriteMultiple cfg p ws) :
    ∀ k n, n + k = ws.length → ∀ d, (List.range' n k).foldlM (writeDaqMultipleBody cfg p) d =
      (ws.drop n).foldlM (fun d w => writeDaqEntry cfg d w.1 w.2) d := by
  have hcto := hc.cto_hi
  have hfit := hp.fits
  intro k
  induction k with
  | zero =>
    intro n hn d
    rw [List.drop_of_length_le (by omega)]
    rfl
  | succ k ih =>
    intro n hn d
    have hlt : n < ws.length := by omega
    rw [List.range'_succ, foldlM_cons, List.drop_eq_getElem_cons hlt, foldlM_cons]
    have hw : ws[n]? = some ws[n] := List.getElem?_eq_getElem hlt
    have hb : writeDaqMultipleBody cfg p d n = writeDaqEntry cfg d ws[n].1 ws[n].2 := by
      obtain ⟨b1, hb1⟩ := hp.bitOffset n hlt
      obtain ⟨b2, hb2⟩ := hp.ext n hlt
      have e : (n * 8 + 2) % 256 = 8 * n + 2 := by omega
      unfold writeDaqMultipleBody
      simp only [e, byte_eq hb1, ok_bind]
      rw [show 8 * n + 2 + 1 = 8 * n + 3 by omega, byte_eq (hp.size n _ hw), ok_bind,
        show 8 * n + 2 + 2 = 8 * n + 4 by omega, (hp.addr n _ hw).dword (hp.defined _ (List.getElem_mem hlt)), ok_bind,
        show 8 * n + 2 + 6 = 8 * n + 8 by omega, byte_eq hb2, ok_bind,
        show UInt32.ofNat ws[n].2.toNat = ws[n].2 from UInt32.ofNat_toNat]
    rw [hb]
    congr 1
    funext d1
    exact ih (n + 1) (by omega) d1

/-- C31 for WRITE_DAQ_MULTIPLE: the same for the elements of one packet. -/
theorem C31_multiple_partial {cfg : Cfg} (hc : cfg.Ok) (hs : ShortOk cfg) (env : Env) {s : St} (hd : DaqReady cfg s)
    (hsup : cfg.supports .writeDaqMultiple = true) (hrun : s.daq.running = false) {c : Conf} (hr : Rep cfg s.daq c)
    {l o e : Nat} (hptr : s.daq.ptr = ⟨l, o, e⟩) {p : Pdu} {ws : List Element} (hp : IsWriteMultiple cfg p ws)
    (hroom : Room c l o e ws) :
    ∃ s', step cfg env s (.cmd p) = .ok s' ∧ Answers cfg s s' [0xFF] ∧ Wrote s.daq s'.daq l o e ws ∧ Rep cfg s'.daq c ∧
      SameCore { s with daq := s'.daq } s' := by
  obtain ⟨d', h1, h2, h3⟩ := write_many hc hr hptr ws hroom
  have hcto := hc.cto_hi
  have hfit := hp.fits
  have hn : (UInt8.ofNat ws.length).toNat = ws.length := u8n (by omega)
  rw [hd.ready.stepc env .writeDaqMultiple hp.code hsup]
  have hb := hd.bump
  have hsame := bumpReceived_same cfg s
  have htx : (bumpReceived cfg s).tx = s.tx := bumpReceived_tx cfg s
  generalize bumpReceived cfg s = b at *
  simp only [handler, writeDaqMultipleRes, assertDaqStopped, assertPgmIdle, assertUnlocked, hsame.daq]
  simp only [byte_eq hp.count, ok_bind, hn]
  rw [if_neg (by omega), if_neg (by rw [hrun]; decide), if_neg hb.pgm, if_neg hb.notProtected]
  rw [List.range_eq_range', multiple_fold hc hp ws.length 0 (by omega), List.drop_zero, h1]
  exact ⟨_, rfl, send8_answers hs (by simp) htx, h2, h3, (hsame.withDaq d').trans (send8_same _ _ _)⟩

/-- Two lists of one ODT each; the ODT of list 0 has two entries, that of list 1 has one. -/
def Ex.alloc3 : List (Env × Op) :=
  [Ex.c [0xFF], Ex.c [0xD6], Ex.c [0xD5, 0, 2, 0], Ex.c [0xD4, 0, 0, 0, 1], Ex.c [0xD4, 0, 1, 0, 1],
   Ex.c [0xD3, 0, 0, 0, 0, 2], Ex.c [0xD3, 0, 1, 0, 0, 1]]

/-- Two writes to the two entries of list 0. -/
example : Ex.obs Ex.sim (Ex.alloc3 ++ [Ex.c [0xE2, 0, 0, 0, 0, 0], Ex.c [0xE1, 0xFF, 4, 0, 0, 0x10, 0, 0],
      Ex.c [0xE1, 0xFF, 2, 0, 4, 0x20, 0, 0]])
    (fun s => ([slot s.daq (.entry 0 0 0), slot s.daq (.entry 0 0 1), slot s.daq (.entry 1 0 0)],
      [(s.daq.entities 4).len, (s.daq.entities 5).len, (s.daq.entities 6).len],
      [(s.daq.entities 4).addr, (s.daq.entities 5).addr, (s.daq.entities 6).addr])) =
    some ([4, 5, 6], [4, 2, 0], [0x1000, 0x2004, 0]) := by decide +kernel

/-- C31 is false past the last entry: a third write is accepted, and overwrites the entry of the
other list. -/
theorem C31_fails :
    Ex.obs Ex.sim (Ex.alloc3 ++ [Ex.c [0xE2, 0, 0, 0, 0, 0], Ex.c [0xE1, 0xFF, 4, 0, 0, 0x10, 0, 0],
      Ex.c [0xE1, 0xFF, 2, 0, 4, 0x20, 0, 0], Ex.c [0xE1, 0xFF, 1, 0, 0, 0x30, 0, 0]])
      (fun s => ((s.tx.map fun f => f.bytes.drop 4).getLast?, (s.daq.entities (slot s.daq (.entry 1 0 0))).addr,
        (s.daq.entities (slot s.daq (.entry 1 0 0))).len)) = some (some [0xFF], 0x3000, 1) := by decide +kernel

/-- With the pool fully allocated, a write past the last entry leaves the pool. -/
theorem C31_fails_oob :
    let h := [Ex.c [0xFF], Ex.c [0xD6], Ex.c [0xD5, 0, 1, 0], Ex.c [0xD4, 0, 0, 0, 1], Ex.c [0xD3, 0, 0, 0, 0, 98],
      Ex.c [0xE2, 0, 0, 0, 0, 97], Ex.c [0xE1, 0xFF, 1, 0, 0, 0x10, 0, 0]]
    Ex.obs Ex.sim h (fun s => s.daq.entityCount) = some 100 ∧
    Ex.faultOf Ex.sim (h ++ [Ex.c [0xE1, 0xFF, 1, 0, 0, 0x10, 0, 0]]) = some .entityOob := by
  refine ⟨?_, ?_⟩ <;> decide +kernel

end Xcp
