import Verif.Proofs.WideTrace
import Verif.Props.C31_WriteDaq
import Verif.Props.C33_Dto
/-
Writing and sampling entries with a large pool.
-/
set_option autoImplicit false
namespace Xcp
open Spec

/-- Storing into an entry keeps the configuration. -/
theorem wrep_store {cfg : Cfg} {d d' : Daq} {c : Conf} (hr : WideRep cfg d c) {l o e : Nat} (he : c.has (.entry l o e))
    (hother : ∀ x, x ≠ slot d (.entry l o e) → d'.entities x = d.entities x)
    (h1 : d'.listCount = d.listCount) (h2 : d'.odtCount = d.odtCount) (h3 : d'.entityCount = d.entityCount) :
    WideRep cfg d' c ∧ ∀ o, c.has o → slot d' o = slot d o := by
  have hkeep : ∀ x, (∃ i, i < c.length ∧ x = slot d (.list i)) ∨ (∃ i j, c.has (.odt i j) ∧ x = slot d (.odt i j)) →
      d'.entities x = d.entities x := by
    intro x hx
    apply hother
    rcases hx with ⟨i, hi, hx⟩ | ⟨i, j, hij, rfl⟩
    · intro h
      rw [hx] at h
      have := hr.disjoint (.list i) (.entry l o e) hi he h
      cases this
    · intro h
      have := hr.disjoint (.odt i j) (.entry l o e) hij he h
      cases this
  have hs := slot_entry hkeep
  refine ⟨⟨h1.trans hr.lists, h2.trans hr.odtCount, h3.trans hr.used, hr.fits, ?_, ?_, ?_, ?_, ?_⟩, hs⟩
  · intro i odts hi
    rw [hkeep i (Or.inl ⟨i, getElem?_lt hi, rfl⟩)]
    exact hr.listN i odts hi
  · intro i j odts m hi hj
    have hij : c.has (.odt i j) := ⟨odts, hi, getElem?_lt hj⟩
    rw [hs _ hij, hkeep _ (Or.inr ⟨i, j, hij, rfl⟩)]
    exact hr.odtN i j odts m hi hj
  · intro o ho
    rw [hs o ho, h3]
    exact hr.inside o ho
  · intro o o' ho ho' h
    rw [hs o ho, hs o' ho'] at h
    exact hr.disjoint o o' ho ho' h
  · intro i hi
    rw [h3] at hi
    have := hr.inside _ he
    rw [hother i (by omega)]
    exact hr.fresh i hi

/-- One write. -/
theorem wwrite_entry {cfg : Cfg} (hc : Wide16 cfg) {d : Daq} {c : Conf} (hr : WideRep cfg d c) {l o e : Nat} (hp : d.ptr = ⟨l, o, e⟩)
    (he : c.has (.entry l o e)) (w : Element) :
    ∃ d', wWriteDaqEntry cfg d w.1 w.2 = .ok d' ∧ Wrote d d' l o e [w] ∧ WideRep cfg d' c ∧ ∀ x, c.has x → slot d' x = slot d x := by
  have hin := hr.inside _ he
  have hcl := hr.count_le
  have hlt := hc.2
  have he255 : e + 1 < 65536 := by
    obtain ⟨odts, m, h1, h2, h3⟩ := he
    have : (d.entities (slot d (.odt l o))).numW .w16 = m := hr.odtN l o odts m h1 h2
    have : m < 65536 := by rw [← this]; unfold Entity.numW; exact Nat.mod_lt _ (by decide)
    have hs : slot d (.entry l o e) = (d.entities (slot d (.odt l o))).first + e := rfl
    omega
  refine ⟨{ d.setEnt (slot d (.entry l o e)) ({ d.entities (slot d (.entry l o e)) with len := w.1.toNat }.setAddr w.2) with
      ptr := { d.ptr with entry := (d.ptr.entry + 1) % 65536 } }, ?_, ?_, ?_⟩
  · unfold wWriteDaqEntry
    rw [hp]
    simp only
    rw [hr.getEntry hc he]
    simp only [ok_bind, Daq.ent]
    rw [if_pos (by omega)]
    simp only [hc.width, Width.mod, ok_bind]
    rfl
  · refine ⟨?_, ?_, ?_, rfl⟩
    · intro i w' hw
      have hi : i = 0 := by have := getElem?_lt hw; simp at this; exact this
      subst hi
      simp at hw
      subst hw
      simp [Daq.setEnt, Entity.setAddr, Entity.addr]
    · intro x hx
      have : x ≠ slot d (.entry l o e) := hx 0 (by simp)
      simp only [Daq.setEnt]
      rw [if_neg this]
    · simp only [hp, List.length_cons, List.length_nil]
      rw [Nat.mod_eq_of_lt (by omega)]
  · refine wrep_store hr he ?_ rfl rfl rfl
    intro x hx
    simp only [Daq.setEnt]
    rw [if_neg hx]

theorem wwrite_step {cfg : Cfg} (hc : Wide16 cfg) (hs : ShortOk cfg) (env : Env) {s : St} (hd : DaqReady cfg s)
    (hsup : cfg.supports .writeDaq = true) (hrun : s.daq.running = false) {c : Conf} (hr : WideRep cfg s.daq c)
    {l o e : Nat} (hptr : s.daq.ptr = ⟨l, o, e⟩) (he : c.has (.entry l o e)) {p : Pdu} {w : Element}
    (hp : IsWriteDaq cfg p w) :
    ∃ s', wStep cfg env s (.cmd p) = .ok s' ∧ Answers cfg s s' [0xFF] ∧ Wrote s.daq s'.daq l o e [w] ∧ WideRep cfg s'.daq c ∧
      SameCore { s with daq := s'.daq } s' ∧ ∀ x, c.has x → slot s'.daq x = slot s.daq x := by
  obtain ⟨d', h1, h2, h3, h4⟩ := wwrite_entry hc hr hptr he w
  obtain ⟨b1, hb1⟩ := hp.bitOffset
  obtain ⟨b3, hb3⟩ := hp.ext
  rw [hd.wstepc env .writeDaq hp.code hsup]
  have hb := hd.bump
  have hsame := bumpReceived_same cfg s
  have htx : (bumpReceived cfg s).tx = s.tx := bumpReceived_tx cfg s
  generalize bumpReceived cfg s = b at *
  simp only [wHandler, wWriteDaqRes, assertDaqStopped, assertPgmIdle, assertUnlocked, hsame.daq]
  simp only [byte_eq hb1, byte_eq hp.size, byte_eq hb3, hp.addr.dword hp.defined, ok_bind]
  rw [if_neg (by rw [hrun]; decide), if_neg hb.pgm, if_neg hb.notProtected]
  rw [show UInt32.ofNat w.2.toNat = w.2 from UInt32.ofNat_toNat, h1]
  exact ⟨_, rfl, send8_answers hs (by simp) htx, h2, h3, (hsame.withDaq d').trans (send8_same _ _ _), h4⟩

theorem wsample_entries {cfg : Cfg} (hc : Wide16 cfg) {s : St} {c : Conf} (hr : WideRep cfg s.daq c) {l j : Nat} :
    ∀ (ks : List Nat) (acc : List UInt8), (∀ k ∈ ks, c.has (.entry l j k)) →
    (∀ k ∈ ks, cfg.asserts = true → 0 < (s.daq.entities (slot s.daq (.entry l j k))).len) →
    acc.length + (ks.map fun k => (s.daq.entities (slot s.daq (.entry l j k))).len).sum ≤ cfg.maxDto →
    ks.foldlM (wSampleEntry cfg s l j) acc = .ok (acc ++ ks.flatMap (entryBytes s l j)) := by
  intro ks
  induction ks with
  | nil => intro acc _ _ _; simp
  | cons k ks ih =>
    intro acc hks hpos hlen
    rw [List.map_cons, List.sum_cons] at hlen
    have hk := hks k (by simp)
    have hin := hr.inside _ hk
    have hcl := hr.count_le
    have e : wSampleEntry cfg s l j acc k = .ok (acc ++ entryBytes s l j k) := by
      unfold wSampleEntry
      rw [hr.getEntry hc hk]
      simp only [ok_bind, Daq.ent]
      rw [if_pos (by omega)]
      simp only [ok_bind]
      rw [if_neg (by omega), if_neg]
      · rfl
      · intro h
        simp at h
        have := hpos k (by simp) h.1
        omega
    rw [foldlM_cons, e]
    show ks.foldlM _ _ = _
    rw [ih _ (fun x hx => hks x (by simp [hx])) (fun x hx => hpos x (by simp [hx]))]
    · simp
    · simp [entryBytes, read_length]; omega

theorem wsample_odt {cfg : Cfg} (hc : Wide16 cfg) {env : Env} {s : St} {c : Conf} (hr : WideRep cfg s.daq c) {l j m : Nat} {odts : List Nat}
    (hl : c[l]? = some odts) (hj : odts[j]? = some m)
    (hpos : ∀ k, k < m → cfg.asserts = true → 0 < (s.daq.entities (slot s.daq (.entry l j k))).len)
    (hlen : packetLen cfg s l j m ≤ cfg.maxDto) :
    ∃ bs, wSampleOdt cfg env s l (c.firstPid l + j) j = .ok bs ∧ Packet cfg env s c l j m bs ∧
      0 < bs.length ∧ bs.length ≤ packetLen cfg s l j m := by
  have hflat : ∀ m, ((List.range m).flatMap (entryBytes s l j)).length =
      ((List.range m).map fun k => (s.daq.entities (slot s.daq (.entry l j k))).len).sum := by
    intro m
    rw [List.length_flatMap]
    congr 1
    apply List.map_congr_left
    intro k _
    simp [entryBytes, read_length]
  unfold wSampleOdt
  rw [hr.getOdt hc ⟨odts, hl, getElem?_lt hj⟩]
  simp only [ok_bind, hc.width]
  rw [hr.odtN l j odts m hl hj]
  have hts : (cfg.timestamping && (s.daq.mode &&& MODE_TIMESTAMP == MODE_TIMESTAMP)) = true ↔ timestamped cfg s := by
    unfold timestamped MODE_TIMESTAMP; simp
  generalize hT : (if j = 0 ∧ (cfg.timestamping && (s.daq.mode &&& MODE_TIMESTAMP == MODE_TIMESTAMP)) = true
    then leBytes cfg.tsSize env.timer.toNat else []) = ts
  have htl : ts.length ≤ if j = 0 ∧ cfg.timestamping = true then cfg.tsSize else 0 := by
    subst hT
    split
    · rename_i h
      rw [if_pos ⟨h.1, (hts.mp h.2).1⟩, leBytes_length]
      exact Nat.le_refl _
    · simp
  have hpl : (UInt8.ofNat (c.firstPid l + j) :: ts).length +
      ((List.range m).map fun k => (s.daq.entities (slot s.daq (.entry l j k))).len).sum ≤ packetLen cfg s l j m := by
    unfold packetLen
    simp only [List.length_cons]
    omega
  refine ⟨_, wsample_entries hc hr (List.range m) _ ?_ ?_ (Nat.le_trans hpl hlen), ⟨ts, ?_, rfl⟩, by simp, ?_⟩
  · intro k hk; exact ⟨odts, m, hl, hj, List.mem_range.mp hk⟩
  · intro k hk; exact hpos k (List.mem_range.mp hk)
  · subst hT
    by_cases h0 : j = 0
    · rw [if_pos h0]
      constructor
      · intro h
        rw [if_pos ⟨h0, hts.mpr h⟩]
        exact ⟨leBytes_length _ _, leVal_leBytes _ _⟩
      · intro h
        rw [if_neg (fun hh => h (hts.mp hh.2))]
    · rw [if_neg h0, if_neg (fun hh => h0 hh.1)]
  · rw [List.length_append, hflat]; exact hpl

/-- The ODT loop puts the packets of the ODTs in the queue, as long as there is room. -/
theorem wsample_list {cfg : Cfg} (hc : Wide16 cfg) {env : Env} {s : St} {c : Conf} (hr : WideRep cfg s.daq c) {l : Nat} {odts : List Nat}
    (hl : c[l]? = some odts)
    (hpos : ∀ j m k, odts[j]? = some m → k < m → cfg.asserts = true → 0 < (s.daq.entities (slot s.daq (.entry l j k))).len)
    (hlen : ∀ j m, odts[j]? = some m → packetLen cfg s l j m ≤ cfg.maxDto ∧ packetLen cfg s l j m < 256)
    {h : Nat} {q : Queue} (hq : Holds q [] h) :
    ∀ n, n ≤ odts.length → h + n ≤ 4 → ∃ q' ps, (List.range n).foldlM (wSampleList cfg env s l) (c.firstPid l, q) = .ok (c.firstPid l + n, q') ∧
      Holds q' ps (h + n) ∧ q'.overload = q.overload ∧ ps.length = n ∧ (∀ bs ∈ ps, Fits cfg bs) ∧
      ∀ j m, j < n → odts[j]? = some m → ∃ bs, ps[j]? = some bs ∧ Packet cfg env s c l j m bs := by
  intro n
  induction n with
  | zero => intro _ _; exact ⟨q, [], rfl, hq, rfl, rfl, by simp, by intro j m hj; omega⟩
  | succ n ih =>
    intro hn hroom
    obtain ⟨q', ps, e, hh, ho, hps, hfit, hpk⟩ := ih (by omega) (by omega)
    obtain ⟨m, hm⟩ : ∃ m, odts[n]? = some m := ⟨odts[n], List.getElem?_eq_getElem (by omega)⟩
    obtain ⟨bs, eb, hb, hb0, hb1⟩ := wsample_odt hc (env := env) hr hl hm (hpos n m · hm) (hlen n m hm).1
    have hbf : Fits cfg bs := ⟨hb0, Nat.le_trans hb1 (hlen n m hm).1, Nat.lt_of_le_of_lt hb1 (hlen n m hm).2⟩
    obtain ⟨q'', e', hh', ho'⟩ := enqueue_ok (cfg := cfg) hh (by omega) hbf
    refine ⟨q'', ps ++ [bs], ?_, hh', ho'.trans ho, by simp [hps], ?_, ?_⟩
    · rw [foldlM_range_succ, e]
      show wSampleList cfg env s l (c.firstPid l + n, q') n = _
      unfold wSampleList
      simp only [eb, ok_bind, e']
      have h1 := firstPid_succ hl
      have h2 := firstPid_le c (l + 1)
      have h3 := hr.odts_lt hc
      rw [hc.width, Nat.mod_eq_of_lt (by simp only [Width.mod]; omega)]
      rfl
    · intro x hx
      rcases List.mem_append.mp hx with hx | hx
      · exact hfit x hx
      · simp at hx; subst hx; exact hbf
    · intro j m' hj hm'
      by_cases hjn : j = n
      · subst hjn
        rw [hm] at hm'; cases hm'
        exact ⟨bs, by rw [← hps]; simp, hb⟩
      · obtain ⟨b, h1, h2⟩ := hpk j m' (by omega) hm'
        exact ⟨b, by rw [List.getElem?_append_left (by omega)]; exact h1, h2⟩

end Xcp
