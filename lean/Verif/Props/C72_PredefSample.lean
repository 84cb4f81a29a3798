import Verif.Props.C71_PredefWrite
import Verif.Props.C33_Dto
/-
C72: the packets of predefined lists carry the memory described by the tables.

Proved while the packets of the list fit in the rest of the queue, for consistent tables.  Table indices are cut to
8 bits (src/xcp_daq.c:309-329, 617-632): with more than 256 ODT entries a wrong entry is sampled (`C72_fails_wrap`).
-/
set_option autoImplicit false
namespace Xcp
open Spec

/-- The ODTs of a list, and the entries of an ODT. -/
def Spec.listOdts (cfg : PCfg) (l : PList) : List POdt := (cfg.odts.drop l.firstOdt.toNat).take l.numOdts.toNat
def Spec.odtEntries (cfg : PCfg) (o : POdt) : List PEntry := (cfg.entries.drop o.firstEntry.toNat).take o.numEntries.toNat

/-- The packet of ODT `j`, described by `o`, of list `l` with mode `m`: PID, timestamp (first ODT, if switched on for
this list), memory of the entries. -/
def Spec.PPacket (cfg : PCfg) (env : Env) (s : PSt) (l j : Nat) (m : UInt8) (o : POdt) (bs : List UInt8) : Prop :=
  ∃ ts, (if j = 0 ∧ cfg.base.timestamping = true ∧ m &&& 0x10 = 0x10
      then ts.length = cfg.base.tsSize ∧ leVal ts = env.timer.toNat % 256 ^ cfg.base.tsSize else ts = []) ∧
    bs = UInt8.ofNat (firstPidOf cfg l + j) :: ts ++ (odtEntries cfg o).flatMap fun e => s.st.mem.read e.addr e.len.toNat

/-- The entries of ODT `o` fit in a packet (with a timestamp if it may come), and none is empty if asserts are on. -/
structure Spec.OdtFits (cfg : PCfg) (o : POdt) : Prop where
  len : 1 + (if cfg.base.timestamping = true then cfg.base.tsSize else 0) + ((odtEntries cfg o).map fun e => e.len.toNat).sum ≤ cfg.base.maxDto
  len8 : 1 + (if cfg.base.timestamping = true then cfg.base.tsSize else 0) + ((odtEntries cfg o).map fun e => e.len.toNat).sum < 256
  nonempty : cfg.base.asserts = true → ∀ e ∈ odtEntries cfg o, 0 < e.len.toNat

theorem flat_length (m : Mem) (es : List PEntry) :
    (es.flatMap fun e => m.read e.addr e.len.toNat).length = (es.map fun e => e.len.toNat).sum := by
  rw [List.length_flatMap]
  congr 1
  exact List.map_congr_left fun e _ => read_length _ _ _

theorem sum_take_le (l : List PEntry) (n : Nat) : ((l.take n).map fun e => e.len.toNat).sum ≤ (l.map fun e => e.len.toNat).sum := by
  conv => rhs; rw [← List.take_append_drop n l, List.map_append, List.sum_append]
  omega

theorem pSample_entries {cfg : PCfg} (hc : Consistent cfg) {s : PSt} {l j : Nat} {o : POdt} (hg : pGetOdt cfg l j = .ok o)
    (ho : o ∈ cfg.odts) (hf : OdtFits cfg o) (acc : List UInt8)
    (hlen : acc.length + ((odtEntries cfg o).map fun e => e.len.toNat).sum ≤ cfg.base.maxDto) :
    ∀ n, n ≤ o.numEntries.toNat → (List.range n).foldlM (pSampleEntry cfg s l j) acc =
      .ok (acc ++ ((odtEntries cfg o).take n).flatMap fun e => s.st.mem.read e.addr e.len.toNat) := by
  intro n
  induction n with
  | zero => intro _; simp
  | succ n ih =>
    intro hn
    obtain ⟨e, he, hge⟩ := pEntry hc hg ho (k := n) (by omega)
    have hoe : (odtEntries cfg o)[n]? = some e := by
      unfold odtEntries
      rw [List.getElem?_take_of_lt (by omega), List.getElem?_drop]
      exact he
    have htake : (odtEntries cfg o).take (n + 1) = (odtEntries cfg o).take n ++ [e] := by
      rw [List.take_add_one, hoe]; rfl
    have hle := sum_take_le (odtEntries cfg o) (n + 1)
    rw [htake, List.map_append, List.sum_append] at hle
    simp only [List.map_cons, List.map_nil, List.sum_cons, List.sum_nil, Nat.add_zero] at hle
    rw [foldlM_range_succ, ih (by omega)]
    show pSampleEntry cfg s l j _ n = _
    unfold pSampleEntry
    rw [hge]
    simp only [ok_bind]
    rw [if_neg, if_neg]
    · rw [htake, List.flatMap_append]
      simp
    · intro h
      simp at h
      have := hf.nonempty h.1 e (List.mem_of_getElem? hoe)
      rw [h.2] at this
      exact absurd this (by decide)
    · rw [List.length_append, flat_length]
      omega

theorem pSample_odt {cfg : PCfg} (hc : Consistent cfg) {env : Env} {s : PSt} {m : UInt8} {l j pid : Nat} {pl : PList} {o : POdt}
    (hpid : UInt8.ofNat pid = UInt8.ofNat (firstPidOf cfg l + j))
    (hl : cfg.lists[l]? = some pl) (hj : (listOdts cfg pl)[j]? = some o) (hf : OdtFits cfg o) :
    ∃ bs, pSampleOdt cfg env s m l pid j = .ok bs ∧ PPacket cfg env s l j m o bs ∧ Fits cfg.base bs := by
  have hjl : j < pl.numOdts.toNat := by
    have := getElem?_lt hj
    unfold listOdts at this
    simp at this
    omega
  obtain ⟨o', ho', hg⟩ := pOdt hc hl hjl
  have : o' = o := by
    unfold listOdts at hj
    rw [List.getElem?_take_of_lt hjl, List.getElem?_drop, ho'] at hj
    exact Option.some.inj hj
  subst this
  have hoe : (odtEntries cfg o').take o'.numEntries.toNat = odtEntries cfg o' := by
    apply List.take_of_length_le
    unfold odtEntries
    exact List.length_take_le ..
  unfold pSampleOdt
  rw [hg]
  simp only [ok_bind]
  have hts : (cfg.base.timestamping && (m &&& MODE_TIMESTAMP == MODE_TIMESTAMP)) = true ↔ cfg.base.timestamping = true ∧ m &&& 0x10 = 0x10 := by
    unfold MODE_TIMESTAMP; simp
  generalize hT : (if j = 0 ∧ (cfg.base.timestamping && (m &&& MODE_TIMESTAMP == MODE_TIMESTAMP)) = true
    then leBytes cfg.base.tsSize env.timer.toNat else []) = ts
  have htl : ts.length ≤ if cfg.base.timestamping = true then cfg.base.tsSize else 0 := by
    subst hT
    split
    · rename_i h
      rw [if_pos (hts.mp h.2).1, leBytes_length]
      exact Nat.le_refl _
    · simp
  have h1 := hf.len
  have h2 := hf.len8
  have hs := pSample_entries hc (s := s) hg (List.mem_of_getElem? ho') hf (UInt8.ofNat pid :: ts) (by rw [List.length_cons]; omega) _ (Nat.le_refl _)
  rw [hoe] at hs
  refine ⟨_, hs, ⟨ts, ?_, by rw [hpid]⟩, ?_, ?_, ?_⟩
  · subst hT
    by_cases h0 : j = 0 ∧ cfg.base.timestamping = true ∧ m &&& 0x10 = 0x10
    · rw [if_pos h0, if_pos ⟨h0.1, hts.mpr h0.2⟩]
      exact ⟨leBytes_length _ _, leVal_leBytes _ _⟩
    · rw [if_neg h0, if_neg (fun hh => h0 ⟨hh.1, hts.mp hh.2⟩)]
  · simp
  · rw [List.length_append, flat_length, List.length_cons]; omega
  · rw [List.length_append, flat_length, List.length_cons]; omega

theorem pSample_list {cfg : PCfg} (hc : Consistent cfg) {env : Env} {s : PSt} {m : UInt8} {l : Nat} {pl : PList}
    (hl : cfg.lists[l]? = some pl) (hf : ∀ o ∈ listOdts cfg pl, OdtFits cfg o)
    {h : Nat} {q : Queue} (hq : Holds q [] h) (hroom : h + (listOdts cfg pl).length ≤ 4) :
    ∀ n, n ≤ (listOdts cfg pl).length → ∃ q' ps,
      (List.range n).foldlM (pSampleList cfg env s m l) (firstPidOf cfg l % 256, q) = .ok ((firstPidOf cfg l + n) % 256, q') ∧
      Holds q' ps (h + n) ∧ ps.length = n ∧ (∀ bs ∈ ps, Fits cfg.base bs) ∧
      ∀ j o, j < n → (listOdts cfg pl)[j]? = some o → ∃ bs, ps[j]? = some bs ∧ PPacket cfg env s l j m o bs := by
  intro n
  induction n with
  | zero => intro _; exact ⟨q, [], rfl, hq, rfl, by simp, by intro j m hj; omega⟩
  | succ n ih =>
    intro hn
    obtain ⟨q', ps, e, hh, hps, hfit, hpk⟩ := ih (by omega)
    obtain ⟨o, ho⟩ : ∃ o, (listOdts cfg pl)[n]? = some o := ⟨_, List.getElem?_eq_getElem (by omega)⟩
    obtain ⟨bs, eb, hb, hbf⟩ := pSample_odt hc (env := env) (s := s) (m := m) (pid := (firstPidOf cfg l + n) % 256)
      (by apply UInt8.toNat_inj.mp; simp) hl ho (hf o (List.mem_of_getElem? ho))
    obtain ⟨q'', e', hh', ho'⟩ := enqueue_ok (cfg := cfg.base) hh (by omega) hbf
    refine ⟨q'', ps ++ [bs], ?_, hh', by simp [hps], ?_, ?_⟩
    · rw [foldlM_range_succ, e]
      show pSampleList cfg env s m l ((firstPidOf cfg l + n) % 256, q') n = _
      unfold pSampleList
      simp only [eb, ok_bind, e']
      rw [Nat.mod_add_mod]
      rfl
    · intro x hx
      rcases List.mem_append.mp hx with hx | hx
      · exact hfit x hx
      · simp at hx; subst hx; exact hbf
    · intro j o' hj ho''
      by_cases hjn : j = n
      · subst hjn
        rw [ho] at ho''; cases ho''
        exact ⟨bs, by rw [← hps]; simp, hb⟩
      · obtain ⟨b, h1, h2⟩ := hpk j o' (by omega) ho''
        exact ⟨b, by rw [List.getElem?_append_left (by omega)]; exact h1, h2⟩

/-- C72, partial: an event fires while acquisition runs; the queue is empty and has accepted so few packets before that
those of the list fit.  One packet per ODT of the list assigned to the event is sent, in order, each with PID, timestamp
and memory contents; memory, modes and DAQ state do not change. -/
theorem C72_event_partial {cfg : PCfg} (hc : Consistent cfg) (hev' : cfg.base.numEvents < 256) (env : Env) {s : PSt} (hi : PInv cfg s)
    (hrun : s.st.daq.running = true) {ev : UInt8} (hev : ev.toNat < cfg.base.numEvents) {l : Nat}
    (hlist : s.st.daq.listForEvent ev.toNat = l) {pl : PList} (hl : cfg.lists[l]? = some pl)
    (hf : ∀ o ∈ listOdts cfg pl, OdtFits cfg o)
    {h : Nat} (hq : Holds s.st.daq.queue [] h) (hroom : h + (listOdts cfg pl).length ≤ 4) :
    ∃ s' fs ps m, pStep cfg env s (.trigger ev) = .ok s' ∧ s.modes[l]? = some m ∧ s'.st.tx = s.st.tx ++ fs ∧ Dtos cfg.base fs ps ∧
      ps.length = (listOdts cfg pl).length ∧
      (∀ j o, (listOdts cfg pl)[j]? = some o → ∃ bs, ps[j]? = some bs ∧ PPacket cfg env s l j m o bs) ∧
      s'.st.mem = s.st.mem ∧ s'.modes = s.modes ∧
      (∃ q, s'.st.daq = { s.st.daq with queue := q } ∧ Holds q [] (h + (listOdts cfg pl).length)) := by
  have hll := getElem?_lt hl
  have hnum : (listOdts cfg pl).length = pl.numOdts.toNat := by
    have := hc.inOdts pl (List.mem_of_getElem? hl)
    unfold listOdts
    rw [List.length_take, List.length_drop]
    omega
  obtain ⟨m, hm⟩ : ∃ m, s.modes[l]? = some m := ⟨_, List.getElem?_eq_getElem (by rw [hi.modes]; exact hll)⟩
  obtain ⟨m', hm', hmm⟩ : ∃ m', pListMode cfg s l = .ok m' ∧ (cfg.base.timestamping = true → m' = m) := by
    unfold pListMode
    by_cases ht : cfg.base.timestamping = true
    · exact ⟨m, by rw [if_pos ht, tableAt_ok hm], fun _ => rfl⟩
    · exact ⟨0, if_neg ht, fun h => absurd h ht⟩
  obtain ⟨q', ps, e, hh, hps, hfit, hpk⟩ := pSample_list hc (env := env) (s := s) (m := m') hl hf hq hroom _ (Nat.le_refl _)
  obtain ⟨st', fs, et, htx, hd, hh', _⟩ := transmit_holds (cfg := cfg.base) (queueSize + 1) (s := { s.st with daq := { s.st.daq with queue := q' } })
    hh (by unfold queueSize; omega) hfit
  have est : pStep cfg env s (.trigger ev) = .ok { s with st := st' } := by
    show pTrigger cfg env s ev.toNat = _
    unfold pTrigger
    rw [if_neg (by simp [hrun]), if_neg (by rw [Nat.mod_eq_of_lt hev']; omega), hlist]
    simp only [pFirstPid hc hll, ok_bind, tableAt_ok hl, hm', not_true_eq_false, if_false]
    rw [← hnum, e]
    simp only [ok_bind]
    rw [et]
    rfl
  obtain ⟨heff, -⟩ := pTrigger_daq env ev.toNat _ est
  refine ⟨_, fs, ps, m, est, hm, htx, hd, hps, fun j o hj => ?_, heff.mem, rfl, ?_⟩
  · obtain ⟨bs, h1, ts, h2, h3⟩ := hpk j o (getElem?_lt hj) hj
    refine ⟨bs, h1, ts, ?_, h3⟩
    by_cases ht : cfg.base.timestamping = true
    · rw [← hmm ht]; exact h2
    · rw [if_neg (fun h => ht h.2.1)] at h2 ⊢; exact h2
  · obtain ⟨q, hq⟩ := heff.daq
    exact ⟨q, hq, by rw [hq] at hh'; exact hh'⟩

/-- DAQ packets after CONNECT and the given operations. -/
def Ex.pdto (cfg : PCfg) (h : List (Env × Op)) : Option (List (List UInt8)) :=
  Ex.pobs cfg ([Ex.c [0xFF]] ++ h) (fun s => (s.st.tx.filter (·.kind == .dto)).map fun f => f.bytes.drop 4)

/-- List 1 on event 1 with timestamps, list 0 on event 0 without. -/
example : Ex.pdto { Ex.pre with base := { Ex.sim with timestamping := true } }
    [Ex.c [0xE0, 0x10, 1, 0, 1, 0, 1, 0], Ex.c [0xE0, 0, 0, 0, 0, 0, 1, 0], Ex.c [0xDD, 1], (Ex.env, .appWrite 0x1005 0xAB),
      (Ex.env, .trigger 1), (Ex.env, .trigger 0)] =
    some [[2, 0x78, 0x56, 0x34, 0x12, 0x0C], [0, 0, 4, 0xAB], [1, 8, 9, 0xA, 0xB]] := by decide +kernel

/-- C72 is false for large tables: ODT entry 256 is taken for entry 0. -/
theorem C72_fails_wrap :
    Ex.pdto { Ex.pre with lists := [⟨1, 0⟩], odts := [⟨1, 256⟩], entries := List.replicate 256 ⟨0x1000, 1⟩ ++ [⟨0x1004, 2⟩] }
      [Ex.c [0xDD, 1], (Ex.env, .trigger 0)] = some [[0, 0]] := by decide +kernel

/-- C72 is false for tables that do not fit: of a packet of 64 bytes one is the PID.  An entry of 63 bytes is sent; the
one of 64 fails an assertion or, without assertions, is copied beyond the end of the packet. -/
theorem C72_fails_wide :
    let cfg (n : UInt32) (asserts : Bool) : PCfg :=
      { Ex.pre with base := { Ex.sim with asserts := asserts }, lists := [⟨1, 0⟩], odts := [⟨1, 0⟩], entries := [⟨0x1000, n⟩] }
    let h : List (Env × Op) := [Ex.c [0xFF], Ex.c [0xDD, 1], (Ex.env, .trigger 0)]
    Ex.pfault (cfg 63 true) h = none ∧ Ex.pfault (cfg 63 false) h = none ∧ Ex.pfault (cfg 64 true) h = some .assertFail ∧
      Ex.pfault (cfg 64 false) h = some .dtoOob := by decide +kernel

end Xcp
