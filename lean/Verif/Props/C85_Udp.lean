import Verif.Props.C84_Clients
/-
C85: over UDP the answers go to the tool that connected.
-/
set_option autoImplicit false
namespace Xcp
open Spec

/-- The bytes of a `struct sockaddr_in`: family, port (most significant byte first), address, padding. -/
def Spec.v4 (port : UInt16) (ip : UInt8 × UInt8 × UInt8 × UInt8) : List UInt8 :=
  [2, 0, UInt8.ofNat (port.toNat / 256), UInt8.ofNat port.toNat, ip.1, ip.2.1, ip.2.2.1, ip.2.2.2, 0, 0, 0, 0, 0, 0, 0, 0]

/-- The bytes of a `struct sockaddr_in6`: family, port, flow, 16 bytes of address, scope. -/
def Spec.v6 (port : UInt16) (ip : List UInt8) : List UInt8 :=
  [10, 0, UInt8.ofNat (port.toNat / 256), UInt8.ofNat port.toNat, 0, 0, 0, 0] ++ ip ++ [0, 0, 0, 0]

/-- An address in a `struct sockaddr_storage`. -/
def Spec.storage (a : List UInt8) : List UInt8 := a ++ List.replicate (128 - a.length) 0

/-- Packets sent as two datagrams, header and data, each with its sender. -/
structure Spec.Split where
  hdrFrom : List UInt8
  sender  : List UInt8
  ctr     : UInt16
  packet  : List UInt8

def Spec.Split.dgrams (q : Split) : List Dgram := [⟨q.hdrFrom, (framed q.ctr q.packet).take 4⟩, ⟨q.sender, q.packet⟩]

/-- What the slave knows of an address: its first eight bytes. -/
def Spec.known (a : List UInt8) : List UInt8 := storage (a.take 8)

/-- With UDP everything goes to the saved address. -/
theorem dispatch_master {cfg : Cfg} {w : World} {x : Link} (ht : x.eth.tcp = false) (p : Pdu) :
    ∃ con : St → Bool, x.dispatch cfg w p = (do
      let t ← run cfg x.s (w.apps x.n)
      let u ← step cfg (w.env x.n) t (.cmd p)
      let master' := if p.buf.head? = some 0xFF ∧ ¬ (t.connected = true ∧ t.busy = true) then x.current else x.saved
      return { x with
        s := u, saved := master', connected := con t, n := x.n + 1
        out := x.out ++ (framesOf x.s t).map (fun f => (.addr x.saved, f)) ++ (framesOf t u).map (fun f => (.addr master', f)) }) := by
  refine ⟨fun t => (((x.took t).connection (if (w.apps x.n).any (fun o => o.2 == .apiDisconnect) then some false else none)).connection
    (connectionCall cfg (w.env x.n) t p)).connected, ?_⟩
  unfold Link.dispatch
  cases hr : run cfg x.s (w.apps x.n) with
  | error f => rfl
  | ok t =>
    simp only [ok_bind]
    generalize hk : (if (w.apps x.n).any (fun o => o.2 == .apiDisconnect) then some false else none) = k
    have hk' : k ≠ some true := by rw [← hk]; split <;> simp
    have e1 : ((x.took t).connection k).s = t ∧ ((x.took t).connection k).n = x.n := by
      rcases k with _ | _ | _ <;> exact ⟨rfl, rfl⟩
    rw [e1.1, e1.2]
    cases hs : step cfg (w.env x.n) t (.cmd p) with
    | error f => rfl
    | ok u =>
      simp only [ok_bind, pure, Except.pure]
      congr 1
      have e2 : connectionCall cfg (w.env x.n) t p = some true ↔ (p.buf.head? = some 0xFF ∧ ¬ (t.connected = true ∧ t.busy = true)) := by
        unfold connectionCall
        split
        · next h => simp at h; simp [h]
        · next h =>
          simp only [Bool.and_eq_true] at h
          split
          · next h' => simp [h, h']
          · next h' =>
            split
            · simp [h']
            · split
              · simp [h']
              · split <;> simp [h']
      generalize hc : connectionCall cfg (w.env x.n) t p = c at e2 ⊢
      by_cases hcon : p.buf.head? = some 0xFF ∧ ¬ (t.connected = true ∧ t.busy = true)
      · have := e2.mpr hcon
        subst this
        rw [if_pos hcon]
        rcases k with _ | _ | _
        · simp [Link.connection, Link.took, Link.dest, ht, framesOf]
        · simp [Link.connection, Link.took, Link.dest, ht, framesOf]
        · exact absurd rfl hk'
      · rw [if_neg hcon]
        have : c ≠ some true := fun h => hcon (e2.mp h)
        rcases k with _ | _ | _
        · rcases c with _ | _ | _
          · simp [Link.connection, Link.took, Link.dest, ht, framesOf]
          · simp [Link.connection, Link.took, Link.dest, ht, framesOf]
          · exact absurd rfl this
        · rcases c with _ | _ | _
          · simp [Link.connection, Link.took, Link.dest, ht, framesOf]
          · simp [Link.connection, Link.took, Link.dest, ht, framesOf]
          · exact absurd rfl this
        · exact absurd rfl hk'

theorem store_known {cur a : List UInt8} (h : cur.drop 8 = List.replicate 120 0) (ha : 8 ≤ a.length) :
    storeAt cur 0 (a.take 8) = known a := by
  have e : (a.take 8).length = 8 := by simp; omega
  simp only [storeAt, List.take_zero, List.nil_append, Nat.zero_add, e, h, known, storage]

theorem known_drop {a : List UInt8} (ha : 8 ≤ a.length) : (known a).drop 8 = List.replicate 120 0 := by
  have e : (a.take 8).length = 8 := by simp; omega
  simp only [known, storage, List.drop_left' e, e]

theorem known_v4 (port : UInt16) (ip : UInt8 × UInt8 × UInt8 × UInt8) : known (v4 port ip) = storage (v4 port ip) := by
  simp [known, v4, storage, List.replicate]

theorem readData_alone {rx p : List UInt8} (h0 : p ≠ []) (h : p.length ≤ rx.length) (rest : Arrivals) :
    readData false rx p.length (.data p :: rest) = .ok (.done (storeAt rx 0 p) rest) := by
  have hl : p.length ≠ 0 := fun e => h0 (List.length_eq_zero_iff.mp e)
  simp only [readData, if_neg hl, readDataLoop, Nat.min_self, List.take_length]
  rw [if_neg (by omega)]
  simp [leftover]

/-- The loop of the receiver. -/
theorem rxUdp_split {cfg : Cfg} {w : World} (qs : List Split) : ∀ (fuel : Nat) (x : Link), x.eth.tcp = false → x.eth.junk.length = 8 →
    x.eth.ctoIn.length ≤ x.eth.rx.length → x.eth.ctoIn.length < 65536 → x.current.drop 8 = List.replicate 120 0 →
    (∀ q ∈ qs, (q.packet ≠ [] ∧ q.packet.length ≤ x.eth.ctoIn.length) ∧ 8 ≤ q.hdrFrom.length ∧ 8 ≤ q.sender.length) → qs.length < fuel →
    (x.rxUdp cfg w fuel (qs.flatMap Split.dgrams)).map (fun y => (y.1.s, y.1.out, y.2)) =
      (toMaster cfg w x.n x.s x.saved ((qs.map fun q => known q.sender).zip (inBuffer x.eth.ctoIn (qs.map Split.packet)))).map
        fun r => (r.1, x.out ++ r.2, []) := by
  induction qs with
  | nil =>
    intro fuel x _ _ _ _ _ _ hf
    obtain ⟨fuel, rfl⟩ : ∃ n, fuel = n + 1 := ⟨fuel - 1, by simp at hf; omega⟩
    simp [Link.rxUdp, readHeader, readHeaderLoop, toMaster, Except.map, Link.heard]
  | cons q qs ih =>
    intro fuel x ht hj hle h16 hcur hqs hf
    obtain ⟨fuel, rfl⟩ : ∃ n, fuel = n + 1 := ⟨fuel - 1, by simp at hf; omega⟩
    obtain ⟨⟨h0, hlen⟩, ha, hb⟩ := hqs q List.mem_cons_self
    have hds : (q :: qs).flatMap Split.dgrams = ⟨q.hdrFrom, (framed q.ctr q.packet).take 4⟩ :: ⟨q.sender, q.packet⟩ ::
        qs.flatMap Split.dgrams := rfl
    generalize hD : qs.flatMap Split.dgrams = D at hds ih
    obtain ⟨ctr, hh⟩ := header_alone (tcp := false) hj q.ctr (p := q.packet) (by omega) (.data q.packet :: D.map fun d => .data d.data)
    have hr1 : ∀ (a b : Dgram) (c : Arrival), (a :: b :: D).length - (c :: D.map fun d => Arrival.data d.data).length = 1 := by
      intros; simp only [List.length_cons, List.length_map]; omega
    have hr2 : ∀ (b : Dgram), (b :: D).length - (D.map fun d => Arrival.data d.data).length = 1 := by
      intros; simp only [List.length_cons, List.length_map]; omega
    rw [hds, Link.rxUdp]
    simp only [List.map_cons, hh, Link.heard, hr1, List.take_succ_cons, List.take_zero, List.drop_succ_cons, List.drop_zero,
      List.map_nil, recvFrom, fromLen]
    rw [readData_alone h0 (by omega)]
    simp only [hr2, List.take_succ_cons, List.take_zero, List.map_cons, List.map_nil, recvFrom, List.drop_succ_cons, List.drop_zero]
    rw [if_neg (by omega), store_known hcur ha, store_known (known_drop ha) hb]
    have hin : storeAt x.eth.ctoIn 0 ((storeAt x.eth.rx 0 q.packet).take q.packet.length) = q.packet ++ x.eth.ctoIn.drop q.packet.length := by
      simp [storeAt]
    rw [hin]
    have htl : (q.packet ++ x.eth.ctoIn.drop q.packet.length).length = x.eth.ctoIn.length := by simp; omega
    have hrl : (storeAt x.eth.rx 0 q.packet).length = x.eth.rx.length := storeAt_length (by omega)
    obtain ⟨con, hcon⟩ := dispatch_master (cfg := cfg) (w := w)
      (x := { x with
        eth := { x.eth with rx := storeAt x.eth.rx 0 q.packet, ctoIn := q.packet ++ x.eth.ctoIn.drop q.packet.length }
        current := known q.sender }) ht ⟨q.packet.length, q.packet ++ x.eth.ctoIn.drop q.packet.length⟩
    rw [hcon]
    simp only [inBuffer, List.zip_cons_cons, toMaster]
    cases run cfg x.s (w.apps x.n) with
    | error f => rfl
    | ok t =>
      simp only [ok_bind]
      cases step cfg (w.env x.n) t (.cmd ⟨q.packet.length, q.packet ++ x.eth.ctoIn.drop q.packet.length⟩) with
      | error f => rfl
      | ok u =>
        simp only [ok_bind, pure, Except.pure]
        generalize hm : (if (q.packet ++ x.eth.ctoIn.drop q.packet.length).head? = some 0xFF ∧ ¬ (t.connected = true ∧ t.busy = true) then
          known q.sender else x.saved) = m
        have := ih fuel { x with
            s := u
            eth := { x.eth with rx := storeAt x.eth.rx 0 q.packet, ctoIn := q.packet ++ x.eth.ctoIn.drop q.packet.length }
            current := known q.sender
            saved := m
            connected := con t
            n := x.n + 1
            out := x.out ++ (framesOf x.s t).map (fun f => (.addr x.saved, f)) ++ (framesOf t u).map (fun f => (.addr m, f)) } ht hj
          (by simp only [htl, hrl]; exact hle) (by simp only [htl]; exact h16) (known_drop hb)
          (by intro r hr; simp only [htl]; exact hqs r (List.mem_cons_of_mem _ hr)) (by simp at hf; omega)
        simp only at this
        rw [this]
        cases toMaster cfg w (x.n + 1) u m _ with
        | error f => rfl
        | ok r => simp [bind, Except.bind, Except.map]

theorem udpLoop_succ {cfg : Cfg} {w : World} (x : Link) (fuel : Nat) {ds : List Dgram} (h : ds ≠ []) :
    x.udpLoop cfg w (fuel + 1) ds =
      match x.clear.rxUdp cfg w (ds.length + 1) ds with
      | .error f => .error f
      | .ok (x, ds) => Link.udpLoop cfg w fuel x ds := by
  cases ds with
  | nil => exact absurd rfl h
  | cons d ds => rfl

/-- An empty datagram where the data of a packet should be: the packet is dropped, nothing is executed or sent, and the datagrams that
follow are handled as if neither had arrived. -/
theorem C85_empty {cfg : Cfg} {w : World} {x : Link} (hj : x.eth.junk.length = 8) (from1 from2 : List UInt8) (ctr : UInt16)
    {p : List UInt8} (h0 : p ≠ []) (hp : p.length < 65536) (fuel : Nat) (ds : List Dgram) :
    ∃ x' : Link, x.udpLoop cfg w (fuel + 1) (⟨from1, (framed ctr p).take 4⟩ :: ⟨from2, []⟩ :: ds) = x'.udpLoop cfg w fuel ds ∧
      x'.s = x.s ∧ x'.out = x.out ∧ x'.saved = x.saved ∧ x'.connected = x.connected ∧ x'.eth.ctoIn = x.eth.ctoIn ∧ x'.n = x.n := by
  have hl : p.length ≠ 0 := fun e => h0 (List.length_eq_zero_iff.mp e)
  obtain ⟨c, hh⟩ := header_alone (tcp := false) hj ctr (p := p) hp (.data [] :: ds.map fun d => .data d.data)
  have hh' : readHeader false x.clear.eth.junk _ = _ := hh
  have hr1 : (⟨from1, (framed ctr p).take 4⟩ :: ⟨from2, []⟩ :: ds : List Dgram).length -
      (Arrival.data [] :: ds.map fun d => Arrival.data d.data).length = 1 := by
    simp only [List.length_cons, List.length_map]; omega
  have hr2 : (⟨from2, []⟩ :: ds : List Dgram).length - (ds.map fun d => Arrival.data d.data).length = 1 := by
    simp only [List.length_cons, List.length_map]; omega
  have hd : ∀ rx, readData false rx p.length (.data [] :: ds.map fun d => .data d.data) = .ok (.closed (ds.map fun d => .data d.data)) := by
    intro rx
    simp [readData, hl, readDataLoop]
  rw [udpLoop_succ _ _ (by simp), Link.rxUdp]
  simp only [List.map_cons]
  rw [hh']
  simp only [Link.heard, hr1, List.drop_succ_cons, List.drop_zero]
  rw [hd]
  simp only [hr2, List.drop_succ_cons, List.drop_zero]
  exact ⟨_, rfl, rfl, rfl, rfl, rfl, rfl, rfl⟩

/-- A header that announces no data: the datagram that follows it is taken and thrown away, whoever sent it, and the
datagrams after that are handled as if neither had arrived. -/
theorem C85_zero {cfg : Cfg} {w : World} {x : Link} (hj : x.eth.junk.length = 8) (from1 : List UInt8) (d : Dgram) (ctr : UInt16)
    (fuel : Nat) (ds : List Dgram) :
    ∃ x' : Link, x.udpLoop cfg w (fuel + 1) (⟨from1, (framed ctr []).take 4⟩ :: d :: ds) = x'.udpLoop cfg w fuel ds ∧
      x'.s = x.s ∧ x'.out = x.out ∧ x'.saved = x.saved ∧ x'.connected = x.connected ∧ x'.eth.ctoIn = x.eth.ctoIn ∧ x'.n = x.n := by
  obtain ⟨c, hh⟩ := header_alone (tcp := false) hj ctr (p := []) (by decide) (.data d.data :: ds.map fun d => .data d.data)
  have hh' : readHeader false x.clear.eth.junk _ = _ := hh
  have hr1 : (⟨from1, (framed ctr []).take 4⟩ :: d :: ds : List Dgram).length -
      (Arrival.data d.data :: ds.map fun d => Arrival.data d.data).length = 1 := by
    simp only [List.length_cons, List.length_map]; omega
  have hr2 : (d :: ds : List Dgram).length - (ds.map fun d => Arrival.data d.data).length = 1 := by
    simp only [List.length_cons, List.length_map]; omega
  have hd : ∀ rx, readData false rx ([] : List UInt8).length (.data d.data :: ds.map fun d => .data d.data) = .ok (.closed (ds.map fun d => .data d.data)) := by
    intro rx
    simp [readData]
  rw [udpLoop_succ _ _ (by simp), Link.rxUdp]
  simp only [List.map_cons]
  rw [hh']
  simp only [Link.heard, hr1, List.drop_succ_cons, List.drop_zero]
  rw [hd]
  simp only [hr2, List.drop_succ_cons, List.drop_zero]
  exact ⟨_, rfl, rfl, rfl, rfl, rfl, rfl, rfl⟩

/-- C85, what the code does: packets are sent as header and data in two datagrams (a packet in one datagram is lost, C49), from any
number of clients, with whatever happens in between.  The slave executes the packets in their order, and everything it
sends goes to the client whose CONNECT was executed last, or rather, to what it knows of its address. -/
theorem C85_udp_exact {cfg : Cfg} (hok : cfg.maxCto ≤ 255) (hl : cfg.lenSize + cfg.ctrSize ≤ 4) (w : World) (mem : Mem)
    {junk : List UInt8} (hj : junk.length = 8) (qs : List Split)
    (hqs : ∀ q ∈ qs, (q.packet ≠ [] ∧ q.packet.length ≤ cfg.maxCto + cfg.lenSize + cfg.ctrSize) ∧ 8 ≤ q.hdrFrom.length ∧ 8 ≤ q.sender.length) :
    ((Link.init cfg mem false junk).hear cfg w (qs.flatMap Split.dgrams)).map (fun y => (y.s, y.out)) =
      toMaster cfg w 0 (St.init cfg mem) (List.replicate 128 0) ((qs.map fun q => known q.sender).zip
        (inBuffer (List.replicate (cfg.maxCto + cfg.lenSize + cfg.ctrSize) 0) (qs.map Split.packet))) := by
  have hlen : ((Link.init cfg mem false junk).clear.eth.ctoIn).length = cfg.maxCto + cfg.lenSize + cfg.ctrSize := by
    simp [Link.init, Eth.init, Link.clear]
  have hle : ((Link.init cfg mem false junk).clear.eth.ctoIn).length ≤ ((Link.init cfg mem false junk).clear.eth.rx).length := by
    rw [hlen]; simp only [Link.init, Eth.init, Link.clear, List.length_replicate, commBufLen]; omega
  have hlq : qs.length ≤ (qs.flatMap Split.dgrams).length := by
    clear hqs
    induction qs with
    | nil => simp
    | cons q qs ih => simp [List.flatMap_cons, Split.dgrams] at ih ⊢; omega
  have := rxUdp_split (cfg := cfg) (w := w) qs ((qs.flatMap Split.dgrams).length + 1) (Link.init cfg mem false junk).clear rfl hj hle
    (by rw [hlen]; omega) (by simp [Link.init, Link.clear, addrSize]) (by rw [hlen]; exact hqs) (by omega)
  unfold Link.hear
  have hbase : toMaster cfg w 0 (St.init cfg mem) (List.replicate 128 0) ((qs.map fun q => known q.sender).zip
        (inBuffer (List.replicate (cfg.maxCto + cfg.lenSize + cfg.ctrSize) 0) (qs.map Split.packet))) =
      toMaster cfg w (Link.init cfg mem false junk).clear.n (Link.init cfg mem false junk).clear.s (Link.init cfg mem false junk).clear.saved
        ((qs.map fun q => known q.sender).zip (inBuffer (Link.init cfg mem false junk).clear.eth.ctoIn (qs.map Split.packet))) := rfl
  rw [hbase]
  generalize toMaster cfg w (Link.init cfg mem false junk).clear.n _ _ _ = m at this ⊢
  by_cases hq : qs.flatMap Split.dgrams = []
  · rw [hq] at this ⊢
    have e1 : Link.udpLoop cfg w (0 + 1) (Link.init cfg mem false junk) [] = .ok (Link.init cfg mem false junk) := by simp [Link.udpLoop]
    have e2 : (Link.init cfg mem false junk).clear.rxUdp cfg w (0 + 1) [] =
        .ok ({ (Link.init cfg mem false junk).clear.heard [] [] with connected := false }, []) := by
      simp [Link.rxUdp, readHeader, readHeaderLoop]
    simp only [List.length_nil] at this ⊢
    rw [e1]
    rw [e2] at this
    cases m with
    | error f => cases this
    | ok r =>
      simp only [Except.map, Except.ok.injEq, Prod.mk.injEq] at this
      simp only [Except.map, Except.ok.injEq, Prod.ext_iff]
      exact ⟨this.1, this.2.1⟩
  · rw [udpLoop_succ _ _ hq]
    cases hr : (Link.init cfg mem false junk).clear.rxUdp cfg w ((qs.flatMap Split.dgrams).length + 1) (qs.flatMap Split.dgrams) with
    | error f =>
      rw [hr] at this
      cases m with
      | error g => cases this; rfl
      | ok r => cases this
    | ok y =>
      rw [hr] at this
      cases m with
      | error g => cases this
      | ok r =>
        simp only [Except.map, Except.ok.injEq, Prod.mk.injEq] at this
        obtain ⟨a, b, c⟩ := this
        simp only [c]
        have e1 : ∀ (z : Link) n, Link.udpLoop cfg w n z [] = .ok z := by intro z n; cases n <;> simp [Link.udpLoop]
        rw [e1]
        simp only [Except.map, Except.ok.injEq, Prod.ext_iff]
        exact ⟨a, b⟩

/-- C85 for IPv4: everything goes to the client whose CONNECT was executed last. -/
theorem C85_udp_partial {cfg : Cfg} (hok : cfg.maxCto ≤ 255) (hl : cfg.lenSize + cfg.ctrSize ≤ 4) (w : World) (mem : Mem)
    {junk : List UInt8} (hj : junk.length = 8) (qs : List Split)
    (hqs : ∀ q ∈ qs, q.packet ≠ [] ∧ q.packet.length ≤ cfg.maxCto + cfg.lenSize + cfg.ctrSize)
    (h4 : ∀ q ∈ qs, (∃ port ip, q.hdrFrom = v4 port ip) ∧ ∃ port ip, q.sender = v4 port ip) :
    ((Link.init cfg mem false junk).hear cfg w (qs.flatMap Split.dgrams)).map (fun y => (y.s, y.out)) =
      toMaster cfg w 0 (St.init cfg mem) (List.replicate 128 0) ((qs.map fun q => storage q.sender).zip
        (inBuffer (List.replicate (cfg.maxCto + cfg.lenSize + cfg.ctrSize) 0) (qs.map Split.packet))) := by
  rw [C85_udp_exact hok hl w mem hj qs (by
    intro q hq
    obtain ⟨⟨p1, i1, h1⟩, p2, i2, h2⟩ := h4 q hq
    exact ⟨hqs q hq, by rw [h1]; simp [v4], by rw [h2]; simp [v4]⟩)]
  congr 2
  apply List.map_congr_left
  intro q hq
  obtain ⟨-, p2, i2, h2⟩ := h4 q hq
  rw [h2, known_v4]

theorem toMaster_dest {cfg : Cfg} {w : World} : ∀ (l : List (List UInt8 × Pdu)) (n : Nat) {s v : St} {m : List UInt8} {out : List (Dest × Frame)},
    toMaster cfg w n s m l = .ok (v, out) → ∀ f ∈ out, f.1 = .addr m ∨ ∃ a ∈ l, f.1 = .addr a.1
  | [], _, _, _, _, _, h, f, hf => by cases h; cases hf
  | (a, p) :: l, n, s, v, m, out, h, f, hf => by
    rw [toMaster] at h
    cases hr : run cfg s (w.apps n) with
    | error e => rw [hr] at h; cases h
    | ok t =>
      rw [hr] at h
      simp only [ok_bind] at h
      cases hs : step cfg (w.env n) t (.cmd p) with
      | error e => rw [hs] at h; cases h
      | ok u =>
        rw [hs] at h
        simp only [ok_bind] at h
        generalize hm : (if p.buf.head? = some 0xFF ∧ ¬ (t.connected = true ∧ t.busy = true) then a else m) = m' at h
        have hm' : m' = a ∨ m' = m := by rw [← hm]; split <;> simp
        cases hq : toMaster cfg w (n + 1) u m' l with
        | error e => rw [hq] at h; cases h
        | ok q =>
          rw [hq] at h
          cases h
          rcases List.mem_append.mp hf with hf | hf
          · rcases List.mem_append.mp hf with hf | hf
            · obtain ⟨g, -, rfl⟩ := List.mem_map.mp hf
              exact Or.inl rfl
            · obtain ⟨g, -, rfl⟩ := List.mem_map.mp hf
              rcases hm' with rfl | rfl
              · exact Or.inr ⟨(m', p), List.mem_cons_self, rfl⟩
              · exact Or.inl rfl
          · rcases toMaster_dest l (n + 1) hq f hf with h | ⟨b, hb, h⟩
            · rcases hm' with rfl | rfl
              · exact Or.inr ⟨(m', p), List.mem_cons_self, h⟩
              · exact Or.inl h
            · exact Or.inr ⟨b, List.mem_cons_of_mem _ hb, h⟩

/-- The datagrams sent, with their destinations. -/
def Ex.hears (ds : List Dgram) : Option (List (Dest × List UInt8)) :=
  ((Link.init Ex.sim Ex.mem false (List.replicate 8 0)).hear Ex.sim Ex.quiet ds).toOption.map fun y => y.out.map fun f => (f.1, f.2.bytes)

/-- A tool at 10.0.0.1, port 40000 connects and reads memory; another one at 10.0.0.2 asks for a synchronisation. -/
def Ex.split : List Split :=
  [⟨v4 40000 (10, 0, 0, 1), v4 40000 (10, 0, 0, 1), 0, [0xFF, 0]⟩,
   ⟨v4 40000 (10, 0, 0, 1), v4 40000 (10, 0, 0, 1), 1, [0xF4, 2, 0, 0, 0x34, 0x12, 0, 0]⟩,
   ⟨v4 50000 (10, 0, 0, 2), v4 50000 (10, 0, 0, 2), 0, [0xFC]⟩]

example : Ex.hears (Ex.split.flatMap Split.dgrams) =
    some [(.addr (storage (v4 40000 (10, 0, 0, 1))), [8, 0, 0, 0, 0xFF, 0x15, 0x80, 64, 64, 0, 1, 1]),
      (.addr (storage (v4 40000 (10, 0, 0, 1))), [3, 0, 1, 0, 0xFF, 0x34, 0x35]),
      (.addr (storage (v4 40000 (10, 0, 0, 1))), [2, 0, 2, 0, 0xFE, 0])] := by decide +kernel

/-- The rest of the claim is false.  Commands of others are executed too: a stranger reads (or writes) memory in the session of another tool. -/
theorem C85_fails_stranger : Ex.hears (Ex.split.flatMap Split.dgrams) ≠ Ex.hears ((Ex.split.take 2).flatMap Split.dgrams) := by decide +kernel

/-- Header and data may come from different senders: the stranger's data complete the header of the tool, which
connects the stranger. -/
theorem C85_fails_mixed : Ex.hears [⟨v4 40000 (10, 0, 0, 1), [2, 0, 0, 0]⟩, ⟨v4 50000 (10, 0, 0, 2), [0xFF, 0]⟩] =
    some [(.addr (storage (v4 50000 (10, 0, 0, 2))), [8, 0, 0, 0, 0xFF, 0x15, 0x80, 64, 64, 0, 1, 1])] := by decide +kernel

/-- IPv6: `recvfrom` is told that an address has the size of a pointer, so all of it but the port is lost.  Whatever the clients
send, nothing is ever sent to any of them (unless its address is `::`). -/
theorem C85_fails_v6 {cfg : Cfg} (hok : cfg.maxCto ≤ 255) (hl : cfg.lenSize + cfg.ctrSize ≤ 4) (w : World) (mem : Mem)
    {junk : List UInt8} (hj : junk.length = 8) (qs : List Split)
    (hqs : ∀ q ∈ qs, q.packet ≠ [] ∧ q.packet.length ≤ cfg.maxCto + cfg.lenSize + cfg.ctrSize)
    (h6 : ∀ q ∈ qs, (∃ port ip, ip.length = 16 ∧ q.hdrFrom = v6 port ip) ∧ ∃ port ip, ip.length = 16 ∧ q.sender = v6 port ip) {y : Link}
    (hy : (Link.init cfg mem false junk).hear cfg w (qs.flatMap Split.dgrams) = .ok y) (port : UInt16) {ip : List UInt8}
    (hip : ip.length = 16) (h0 : ip ≠ List.replicate 16 0) : ∀ f ∈ y.out, f.1 ≠ .addr (storage (v6 port ip)) := by
  have h := C85_udp_exact hok hl w mem hj qs (by
    intro q hq
    obtain ⟨⟨p1, i1, -, h1⟩, p2, i2, -, h2⟩ := h6 q hq
    exact ⟨hqs q hq, by rw [h1]; simp [v6], by rw [h2]; simp [v6]⟩)
  rw [hy] at h
  intro f hf he
  have key : ∀ a : List UInt8, (a.drop 8).take 16 = List.replicate 16 0 → Dest.addr a ≠ .addr (storage (v6 port ip)) := by
    intro a ha e
    simp only [Dest.addr.injEq] at e
    rw [e] at ha
    apply h0
    rw [← ha]
    simp only [storage, v6]
    rw [List.append_assoc, List.append_assoc, List.drop_left' (i := 8) (by rfl), List.take_left' hip]
  rcases toMaster_dest _ _ h.symm f hf with h | ⟨a, ha, h⟩
  · rw [h] at he
    exact key _ (by simp) he
  · obtain ⟨ha, -⟩ := List.of_mem_zip ha
    obtain ⟨q, hq, hqa⟩ := List.mem_map.mp ha
    obtain ⟨-, p2, i2, hi, h2⟩ := h6 q hq
    rw [h] at he
    refine key _ ?_ he
    rw [← hqa, known_drop (by rw [h2]; simp [v6])]
    simp

/-- A tool at fe80::1 connects: the answer goes to `::`. -/
example : Ex.hears ((⟨v6 40000 [0xFE, 0x80, 0, 0, 0, 0, 0, 0, 0, 0, 0, 0, 0, 0, 0, 1], v6 40000 [0xFE, 0x80, 0, 0, 0, 0, 0, 0, 0, 0, 0, 0, 0, 0, 0, 1],
      0, [0xFF, 0]⟩ : Split).dgrams) =
    some [(.addr (storage (v6 40000 (List.replicate 16 0))), [8, 0, 0, 0, 0xFF, 0x15, 0x80, 64, 64, 0, 1, 1])] := by decide +kernel

/-- A stranger's empty packet makes the slave lose the header of the next CONNECT, and take its data for a header. -/
example : Ex.hears (⟨v4 50000 (10, 0, 0, 2), [0, 0, 0, 0]⟩ :: Ex.split.flatMap Split.dgrams) ≠ Ex.hears (Ex.split.flatMap Split.dgrams) := by decide +kernel

end Xcp
