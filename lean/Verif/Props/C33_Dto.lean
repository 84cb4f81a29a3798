import Verif.Proofs.Queue
/-
C33: DAQ packets carry the sampled memory.

Proved while the packets of the list fit in the rest of the queue.  A list with five ODTs loses the
last one (`C33_fails`); see C34 for the fifth packet after initialisation.
-/
set_option autoImplicit false
namespace Xcp
open Spec

/-- Current contents of the memory of entry `k` of ODT `j` of list `l`. -/
def Spec.entryBytes (s : St) (l j k : Nat) : List UInt8 :=
  s.mem.read (s.daq.entities (slot s.daq (.entry l j k))).addr (s.daq.entities (slot s.daq (.entry l j k))).len

/-- Timestamps are switched on (the mode is shared by all lists, see C37). -/
def Spec.timestamped (cfg : Cfg) (s : St) : Prop := cfg.timestamping = true ∧ s.daq.mode &&& 0x10 = 0x10

/-- The packet of ODT `j` (with `m` entries) of list `l`: PID, timestamp (first ODT, if switched on),
memory of the entries. -/
def Spec.Packet (cfg : Cfg) (env : Env) (s : St) (c : Conf) (l j m : Nat) (bs : List UInt8) : Prop :=
  ∃ ts, (if j = 0 then (timestamped cfg s → ts.length = cfg.tsSize ∧ leVal ts = env.timer.toNat % 256 ^ cfg.tsSize) ∧
      (¬ timestamped cfg s → ts = []) else ts = []) ∧
    bs = UInt8.ofNat (c.firstPid l + j) :: ts ++ (List.range m).flatMap (entryBytes s l j)

/-- Length of that packet. -/
def Spec.packetLen (cfg : Cfg) (s : St) (l j m : Nat) : Nat :=
  1 + (if j = 0 ∧ cfg.timestamping = true then cfg.tsSize else 0) +
    ((List.range m).map fun k => (s.daq.entities (slot s.daq (.entry l j k))).len).sum

theorem read_length (m : Mem) (a : UInt32) (n : Nat) : (m.read a n).length = n := by simp [Mem.read]

theorem sample_entries {cfg : Cfg} (hc : cfg.Ok) {s : St} {c : Conf} (hr : Rep cfg s.daq c) {l j : Nat} :
    ∀ (ks : List Nat) (acc : List UInt8), (∀ k ∈ ks, c.has (.entry l j k)) →
    (∀ k ∈ ks, cfg.asserts = true → 0 < (s.daq.entities (slot s.daq (.entry l j k))).len) →
    acc.length + (ks.map fun k => (s.daq.entities (slot s.daq (.entry l j k))).len).sum ≤ cfg.maxDto →
    ks.foldlM (sampleEntry cfg s l j) acc = .ok (acc ++ ks.flatMap (entryBytes s l j)) := by
  intro ks
  induction ks with
  | nil => intro acc _ _ _; simp
  | cons k ks ih =>
    intro acc hks hpos hlen
    rw [List.map_cons, List.sum_cons] at hlen
    have hk := hks k (by simp)
    have hin := hr.inside _ hk
    have hcl := hr.count_le
    have e : sampleEntry cfg s l j acc k = .ok (acc ++ entryBytes s l j k) := by
      unfold sampleEntry
      rw [hr.getEntry hc hk]
      simp only [ok_bind, Daq.ent]
      rw [if_pos (by omega)]
      simp only [ok_bind]
      rw [if_neg (by omega), if_neg]
      · rfl
      · intro h
        simp at h
        have := hpos k (by simp) h.1
        omega
    rw [foldlM_cons, e]
    show ks.foldlM _ _ = _
    rw [ih _ (fun x hx => hks x (by simp [hx])) (fun x hx => hpos x (by simp [hx]))]
    · simp
    · simp [entryBytes, read_length]; omega

theorem sample_odt {cfg : Cfg} (hc : cfg.Ok) {env : Env} {s : St} {c : Conf} (hr : Rep cfg s.daq c) {l j m : Nat} {odts : List Nat}
    (hl : c[l]? = some odts) (hj : odts[j]? = some m)
    (hpos : ∀ k, k < m → cfg.asserts = true → 0 < (s.daq.entities (slot s.daq (.entry l j k))).len)
    (hlen : packetLen cfg s l j m ≤ cfg.maxDto) :
    ∃ bs, sampleOdt cfg env s l (c.firstPid l + j) j = .ok bs ∧ Packet cfg env s c l j m bs ∧
      0 < bs.length ∧ bs.length ≤ packetLen cfg s l j m := by
  have hflat : ∀ m, ((List.range m).flatMap (entryBytes s l j)).length =
      ((List.range m).map fun k => (s.daq.entities (slot s.daq (.entry l j k))).len).sum := by
    intro m
    rw [List.length_flatMap]
    congr 1
    apply List.map_congr_left
    intro k _
    simp [entryBytes, read_length]
  unfold sampleOdt
  rw [hr.getOdt hc ⟨odts, hl, getElem?_lt hj⟩]
  simp only [ok_bind]
  rw [hr.odtNum l j odts m hl hj]
  have hts : (cfg.timestamping && (s.daq.mode &&& MODE_TIMESTAMP == MODE_TIMESTAMP)) = true ↔ timestamped cfg s := by
    unfold timestamped MODE_TIMESTAMP; simp
  generalize hT : (if j = 0 ∧ (cfg.timestamping && (s.daq.mode &&& MODE_TIMESTAMP == MODE_TIMESTAMP)) = true
    then leBytes cfg.tsSize env.timer.toNat else []) = ts
  have htl : ts.length ≤ if j = 0 ∧ cfg.timestamping = true then cfg.tsSize else 0 := by
    subst hT
    split
    · rename_i h
      rw [if_pos ⟨h.1, (hts.mp h.2).1⟩, leBytes_length]
      exact Nat.le_refl _
    · simp
  have hpl : (UInt8.ofNat (c.firstPid l + j) :: ts).length +
      ((List.range m).map fun k => (s.daq.entities (slot s.daq (.entry l j k))).len).sum ≤ packetLen cfg s l j m := by
    unfold packetLen
    simp only [List.length_cons]
    omega
  refine ⟨_, sample_entries hc hr (List.range m) _ ?_ ?_ (Nat.le_trans hpl hlen), ⟨ts, ?_, rfl⟩, by simp, ?_⟩
  · intro k hk; exact ⟨odts, m, hl, hj, List.mem_range.mp hk⟩
  · intro k hk; exact hpos k (List.mem_range.mp hk)
  · subst hT
    by_cases h0 : j = 0
    · rw [if_pos h0]
      constructor
      · intro h
        rw [if_pos ⟨h0, hts.mpr h⟩]
        exact ⟨leBytes_length _ _, leVal_leBytes _ _⟩
      · intro h
        rw [if_neg (fun hh => h (hts.mp hh.2))]
    · rw [if_neg h0, if_neg (fun hh => h0 hh.1)]
  · rw [List.length_append, hflat]; exact hpl

/-- The ODT loop puts the packets of the ODTs in the queue, as long as there is room. -/
theorem sample_list {cfg : Cfg} (hc : cfg.Ok) {env : Env} {s : St} {c : Conf} (hr : Rep cfg s.daq c) {l : Nat} {odts : List Nat}
    (hl : c[l]? = some odts)
    (hpos : ∀ j m k, odts[j]? = some m → k < m → cfg.asserts = true → 0 < (s.daq.entities (slot s.daq (.entry l j k))).len)
    (hlen : ∀ j m, odts[j]? = some m → packetLen cfg s l j m ≤ cfg.maxDto ∧ packetLen cfg s l j m < 256)
    {h : Nat} {q : Queue} (hq : Holds q [] h) :
    ∀ n, n ≤ odts.length → h + n ≤ 4 → ∃ q' ps, (List.range n).foldlM (sampleList cfg env s l) (c.firstPid l, q) = .ok (c.firstPid l + n, q') ∧
      Holds q' ps (h + n) ∧ q'.overload = q.overload ∧ ps.length = n ∧ (∀ bs ∈ ps, Fits cfg bs) ∧
      ∀ j m, j < n → odts[j]? = some m → ∃ bs, ps[j]? = some bs ∧ Packet cfg env s c l j m bs := by
  intro n
  induction n with
  | zero => intro _ _; exact ⟨q, [], rfl, hq, rfl, rfl, by simp, by intro j m hj; omega⟩
  | succ n ih =>
    intro hn hroom
    obtain ⟨q', ps, e, hh, ho, hps, hfit, hpk⟩ := ih (by omega) (by omega)
    obtain ⟨m, hm⟩ : ∃ m, odts[n]? = some m := ⟨odts[n], List.getElem?_eq_getElem (by omega)⟩
    obtain ⟨bs, eb, hb, hb0, hb1⟩ := sample_odt hc (env := env) hr hl hm (hpos n m · hm) (hlen n m hm).1
    have hbf : Fits cfg bs := ⟨hb0, Nat.le_trans hb1 (hlen n m hm).1, Nat.lt_of_le_of_lt hb1 (hlen n m hm).2⟩
    obtain ⟨q'', e', hh', ho'⟩ := enqueue_ok (cfg := cfg) hh (by omega) hbf
    refine ⟨q'', ps ++ [bs], ?_, hh', ho'.trans ho, by simp [hps], ?_, ?_⟩
    · rw [foldlM_range_succ, e]
      show sampleList cfg env s l (c.firstPid l + n, q') n = _
      unfold sampleList
      simp only [eb, ok_bind, e']
      have h1 := firstPid_succ hl
      have h2 := firstPid_le c (l + 1)
      have h3 := hr.odts_lt hc
      rw [Nat.mod_eq_of_lt (by omega)]
      rfl
    · intro x hx
      rcases List.mem_append.mp hx with hx | hx
      · exact hfit x hx
      · simp at hx; subst hx; exact hbf
    · intro j m' hj hm'
      by_cases hjn : j = n
      · subst hjn
        rw [hm] at hm'; cases hm'
        exact ⟨bs, by rw [← hps]; simp, hb⟩
      · obtain ⟨b, h1, h2⟩ := hpk j m' (by omega) hm'
        exact ⟨b, by rw [List.getElem?_append_left (by omega)]; exact h1, h2⟩

/-- C33, partial: an event fires while acquisition runs.  The list assigned to it exists, its entries
have been written, its packets fit in a packet, and the queue is empty and has accepted so few packets
before that those of the list fit.  Then one packet per ODT is sent, in order, each with PID, timestamp
and memory contents; memory and DAQ configuration do not change. -/
theorem C33_event_partial {cfg : Cfg} (hc : cfg.Ok) (env : Env) {s : St} (hdaq : cfg.daq = true) (hrun : s.daq.running = true)
    {c : Conf} (hr : Rep cfg s.daq c) {ev : UInt8} (hev : ev.toNat < cfg.numEvents) {l : Nat}
    (hlist : s.daq.listForEvent ev.toNat = l) {odts : List Nat} (hl : c[l]? = some odts)
    (hpos : ∀ j m k, odts[j]? = some m → k < m → cfg.asserts = true → 0 < (s.daq.entities (slot s.daq (.entry l j k))).len)
    (hlen : ∀ j m, odts[j]? = some m → packetLen cfg s l j m ≤ cfg.maxDto ∧ packetLen cfg s l j m < 256)
    {h : Nat} (hq : Holds s.daq.queue [] h) (hroom : h + odts.length ≤ 4) :
    ∃ s' fs ps, step cfg env s (.trigger ev) = .ok s' ∧ s'.tx = s.tx ++ fs ∧ Dtos cfg fs ps ∧ ps.length = odts.length ∧
      (∀ j m, odts[j]? = some m → ∃ bs, ps[j]? = some bs ∧ Packet cfg env s c l j m bs) ∧
      s'.mem = s.mem ∧ (∃ q, s'.daq = { s.daq with queue := q } ∧ Holds q [] (h + odts.length)) := by
  obtain ⟨q', ps, e, hh, ho, hps, hfit, hpk⟩ := sample_list hc (env := env) hr hl hpos hlen hq _ (Nat.le_refl _) hroom
  obtain ⟨s', fs, et, htx, hd, hh', _⟩ := transmit_holds (cfg := cfg) (queueSize + 1) (s := { s with daq := { s.daq with queue := q' } })
    hh (by unfold queueSize; omega) hfit
  have est : step cfg env s (.trigger ev) = .ok s' := by
    simp only [step, hdaq, if_true]
    unfold triggerEvent
    rw [if_neg (by simp [hrun]), if_neg (by rw [Nat.mod_eq_of_lt hc.ev_lt]; omega), hlist]
    simp only [hr.firstPid hc (getElem?_lt hl)]
    simp only [ok_bind, hr.ent_list (getElem?_lt hl), hr.listNum l odts hl, e]
    exact et
  refine ⟨s', fs, ps, est, htx, hd, hps, fun j m hj => hpk j m (getElem?_lt hj) hj, ?_⟩
  have heff : TrigEff s s' := by
    have : triggerEvent cfg env s ev.toNat = .ok s' := by simpa only [step, hdaq, if_true] using est
    exact trigger_eff env ev.toNat s' this
  refine ⟨heff.mem, ?_⟩
  obtain ⟨q, hq⟩ := heff.daq
  exact ⟨q, hq, by rw [hq] at hh'; exact hh'⟩

/-- One list with two ODTs of two and one entries. -/
def Ex.daq2 : List (Env × Op) :=
  [Ex.c [0xFF], Ex.c [0xD6], Ex.c [0xD5, 0, 1, 0], Ex.c [0xD4, 0, 0, 0, 2], Ex.c [0xD3, 0, 0, 0, 0, 2], Ex.c [0xD3, 0, 0, 0, 1, 1],
   Ex.c [0xE2, 0, 0, 0, 0, 0], Ex.c [0xE1, 0xFF, 2, 0, 0x10, 0, 0, 0], Ex.c [0xE1, 0xFF, 1, 0, 0x20, 0, 0, 0],
   Ex.c [0xE2, 0, 0, 0, 1, 0], Ex.c [0xE1, 0xFF, 4, 0, 0x30, 0, 0, 0]]

/-- Its packets. -/
example : Ex.obs Ex.sim (Ex.daq2 ++ [Ex.c [0xE0, 0x10, 0, 0, 1, 0, 1, 0], Ex.c [0xDE, 2, 0, 0], Ex.c [0xDD, 1],
      (Ex.env, .appWrite 0x11 0xAB), (Ex.env, .trigger 1)])
    (fun s => (s.tx.filter (·.kind == .dto)).map fun f => f.bytes.drop 4) =
    some [[0, 0x10, 0xAB, 0x20], [1, 0x30, 0x31, 0x32, 0x33]] := by decide +kernel

/-- The same list with timestamps. -/
example : Ex.obs { Ex.sim with timestamping := true } (Ex.daq2 ++ [Ex.c [0xE0, 0x10, 0, 0, 1, 0, 1, 0], Ex.c [0xDE, 2, 0, 0],
      Ex.c [0xDD, 1], (Ex.env, .trigger 1)])
    (fun s => (s.tx.filter (·.kind == .dto)).map fun f => f.bytes.drop 4) =
    some [[0, 0x78, 0x56, 0x34, 0x12, 0x10, 0x11, 0x20], [1, 0x30, 0x31, 0x32, 0x33]] := by decide +kernel

/-- C33 is false for larger lists: five ODTs, but only four packets are sent. -/
theorem C33_fails : Ex.obs Ex.sim ([Ex.c [0xFF], Ex.c [0xD6], Ex.c [0xD5, 0, 1, 0], Ex.c [0xD4, 0, 0, 0, 5], Ex.c [0xE0, 0, 0, 0, 0, 0, 1, 0],
      Ex.c [0xDE, 2, 0, 0], Ex.c [0xDD, 1], (Ex.env, .trigger 0)])
    (fun s => (s.tx.filter (·.kind == .dto)).map fun f => f.bytes.drop 4) = some [[0], [1], [2], [3]] := by decide +kernel

end Xcp
