import Verif.Spec.Link
import Verif.Props.C80_EndToEnd
/-
C84: TCP clients are served one after the other, each gets the answers to its own requests.
-/
set_option autoImplicit false
namespace Xcp
open Spec

/-- Packets executed in the link. -/
def Link.dispatchAll (cfg : Cfg) (w : World) : Link → List Pdu → Except Fault Link
  | x, [] => .ok x
  | x, p :: ps => x.dispatch cfg w p >>= fun y => y.dispatchAll cfg w ps

theorem connection_eth (x : Link) (e : Eth) (k : Option Bool) : { x with eth := e }.connection k = { x.connection k with eth := e } := by
  rcases k with _ | _ | _ <;> rfl

theorem dispatch_eth {cfg : Cfg} {w : World} {x : Link} {e : Eth} (h : e.tcp = x.eth.tcp) (p : Pdu) :
    { x with eth := e }.dispatch cfg w p = (x.dispatch cfg w p).map fun y => { y with eth := e } := by
  have h1 : ∀ (y : Link) s, y.eth.tcp = e.tcp → { y with eth := e }.took s = { y.took s with eth := e } := by
    intro y s hy
    simp [Link.took, Link.dest, hy]
  have h2 : ∀ (y : Link) k, (y.connection k).eth = y.eth := by
    intro y k
    rcases k with _ | _ | _ <;> rfl
  have h3 : ∀ (y : Link) k, (y.connection k).s = y.s := by
    intro y k
    rcases k with _ | _ | _ <;> rfl
  have h4 : ∀ (y : Link) k, (y.connection k).n = y.n := by
    intro y k
    rcases k with _ | _ | _ <;> rfl
  unfold Link.dispatch
  simp only
  cases run cfg x.s (w.apps x.n) with
  | error f => rfl
  | ok s =>
    simp only [ok_bind]
    rw [h1 x s h.symm, connection_eth]
    simp only
    generalize hy : (x.took s).connection _ = y
    have hye : y.eth.tcp = e.tcp := by rw [← hy, h2]; exact h.symm
    cases step cfg (w.env y.n) y.s (.cmd p) with
    | error f => rfl
    | ok u =>
      simp only [ok_bind]
      rw [connection_eth, h1 _ _ (by rw [h2]; exact hye)]
      rfl

theorem dispatch_keeps {cfg : Cfg} {w : World} {x y : Link} {p : Pdu} (h : x.dispatch cfg w p = .ok y) :
    y.eth = x.eth ∧ y.sock = x.sock ∧ y.current = x.current ∧ y.n = x.n + 1 := by
  have h2 : ∀ (y : Link) k, (y.connection k).eth = y.eth ∧ (y.connection k).sock = y.sock ∧ (y.connection k).n = y.n ∧
      (y.connection k).current = y.current := by
    intro y k
    rcases k with _ | _ | _ <;> exact ⟨rfl, rfl, rfl, rfl⟩
  unfold Link.dispatch at h
  simp only at h
  cases hr : run cfg x.s (w.apps x.n) with
  | error f => rw [hr] at h; cases h
  | ok s =>
    rw [hr] at h
    simp only [ok_bind] at h
    generalize hz : (x.took s).connection _ = z at h
    obtain ⟨a, b, c, d⟩ := h2 (x.took s) (if (w.apps x.n).any (fun o => o.2 == .apiDisconnect) then some false else none)
    rw [hz] at a b c d
    cases hs : step cfg (w.env z.n) z.s (.cmd p) with
    | error f => rw [hs] at h; cases h
    | ok u =>
      rw [hs] at h
      simp only [ok_bind] at h
      cases h
      obtain ⟨a', b', c', d'⟩ := h2 z (connectionCall cfg (w.env z.n) z.s p)
      refine ⟨a'.trans a, b'.trans b, d'.trans d, ?_⟩
      simp only [c]
      rfl

theorem dispatchAll_eth {cfg : Cfg} {w : World} {e : Eth} : ∀ (ps : List Pdu) {x : Link}, e.tcp = x.eth.tcp →
    { x with eth := e }.dispatchAll cfg w ps = (x.dispatchAll cfg w ps).map fun y => { y with eth := e }
  | [], _, _ => rfl
  | p :: ps, x, h => by
    rw [Link.dispatchAll, dispatch_eth h, Link.dispatchAll]
    cases hd : x.dispatch cfg w p with
    | error f => rfl
    | ok y =>
      simp only [Except.map, ok_bind]
      exact dispatchAll_eth ps (by rw [(dispatch_keeps hd).1]; exact h)

/-- Receiving and executing. -/
theorem rxTcp_eq {cfg : Cfg} {w : World} : ∀ (fuel : Nat) {x : Link} {as : Arrivals} {ps : List Pdu} {en : RxEnd} {e : Eth} {rest : Arrivals},
    x.eth.tcp = true → x.eth.rxLoop fuel as = .ok (ps, en, e, rest) →
    x.rxTcp cfg w fuel as = (x.dispatchAll cfg w ps >>= fun y =>
      .ok ({ y with eth := e, connected := if en = .released then false else y.connected }, rest))
  | 0, _, _, _, _, _, _, _, h => by cases h
  | fuel + 1, x, as, ps, en, e, rest, ht, h => by
    rw [Eth.rxLoop, ht] at h
    rw [Link.rxTcp]
    split at h
    · cases h
    · next hh => cases h; rw [hh]; rfl
    · next dlc ctr rest1 hh =>
      rw [hh]
      simp only
      split at h
      · cases h
      · next hd => cases h; rw [hd]; rfl
      · next rx rest2 hd =>
        rw [hd]
        simp only
        split at h
        · cases h
        · next hlen =>
          rw [if_neg hlen]
          simp only at h
          split at h
          · cases h
          · next ps' r heq =>
            obtain ⟨en1, e1, r1⟩ := r
            cases h
            rw [dispatch_eth (x := x) (e := { x.eth with rx, ctoIn := storeAt x.eth.ctoIn 0 (rx.take dlc) }) rfl, Link.dispatchAll]
            cases hd : x.dispatch cfg w ⟨dlc, storeAt x.eth.ctoIn 0 (rx.take dlc)⟩ with
            | error f => rfl
            | ok y =>
              simp only [Except.map, ok_bind]
              have hk := dispatch_keeps hd
              have := rxTcp_eq (cfg := cfg) (w := w) fuel (x := { y with eth := { x.eth with rx, ctoIn := storeAt x.eth.ctoIn 0 (rx.take dlc), tcp := true } })
                rfl heq
              have e0 : ({ x.eth with rx, ctoIn := storeAt x.eth.ctoIn 0 (rx.take dlc) } : Eth) =
                { x.eth with rx, ctoIn := storeAt x.eth.ctoIn 0 (rx.take dlc), tcp := true } := by rw [← ht]
              rw [e0, this, dispatchAll_eth _ (by rw [hk.1, ht])]
              cases y.dispatchAll cfg w ps' with
              | error f => rfl
              | ok z => rfl

/-- With TCP everything goes to the connected client. -/
theorem dispatch_sender {cfg : Cfg} {w : World} {x : Link} (ht : x.eth.tcp = true) (p : Pdu) :
    (x.dispatch cfg w p).map (fun y => (y.s, y.out)) = (do
      let t ← run cfg x.s (w.apps x.n)
      let u ← step cfg (w.env x.n) t (.cmd p)
      return (u, x.out ++ (framesOf x.s t ++ framesOf t u).map fun f => (.socket x.sock, f))) := by
  have h2 : ∀ (y : Link) k, (y.connection k).eth = y.eth ∧ (y.connection k).sock = y.sock ∧ (y.connection k).n = y.n ∧
      (y.connection k).s = y.s ∧ (y.connection k).out = y.out := by
    intro y k
    rcases k with _ | _ | _ <;> exact ⟨rfl, rfl, rfl, rfl, rfl⟩
  have hdest : ∀ y : Link, y.eth = x.eth → y.sock = x.sock → y.dest = .socket x.sock := by
    intro y h1 h2
    simp [Link.dest, h1, h2, ht]
  unfold Link.dispatch
  simp only
  cases hr : run cfg x.s (w.apps x.n) with
  | error f => rfl
  | ok s =>
    simp only [ok_bind]
    generalize hz : (x.took s).connection _ = z
    obtain ⟨a, b, c, d, o⟩ := h2 (x.took s) (if (w.apps x.n).any (fun o => o.2 == .apiDisconnect) then some false else none)
    rw [hz] at a b c d o
    have hn : z.n = x.n := c
    have hs : z.s = s := d
    rw [hn, hs]
    cases step cfg (w.env x.n) s (.cmd p) with
    | error f => rfl
    | ok u =>
      simp only [ok_bind, Except.map]
      obtain ⟨a', b', c', d', o'⟩ := h2 z (connectionCall cfg (w.env x.n) s p)
      have e1 := hdest _ (a'.trans a) (b'.trans b)
      have e2 := hdest x rfl rfl
      simp only [pure, Except.pure, Except.ok.injEq, Prod.mk.injEq, Link.took, true_and]
      rw [e1, o', o, d', hs]
      simp [Link.took, e2, framesOf]

theorem dispatchAll_sender {cfg : Cfg} {w : World} : ∀ (ps : List Pdu) {x : Link}, x.eth.tcp = true →
    (x.dispatchAll cfg w ps).map (fun y => (y.s, y.out)) =
      (toSender cfg w x.n x.s (ps.map fun p => (x.sock, p))).map fun r => (r.1, x.out ++ r.2)
  | [], x, _ => by simp [Link.dispatchAll, toSender, Except.map]
  | p :: ps, x, ht => by
    have h := dispatch_sender (cfg := cfg) (w := w) ht p
    rw [Link.dispatchAll, List.map_cons, toSender]
    cases hr : run cfg x.s (w.apps x.n) with
    | error f =>
      rw [hr] at h
      cases hd : x.dispatch cfg w p with
      | error g => rw [hd] at h; cases h; rfl
      | ok y => rw [hd] at h; cases h
    | ok t =>
      rw [hr] at h
      simp only [ok_bind] at h ⊢
      cases hs : step cfg (w.env x.n) t (.cmd p) with
      | error f =>
        rw [hs] at h
        cases hd : x.dispatch cfg w p with
        | error g => rw [hd] at h; cases h; rfl
        | ok y => rw [hd] at h; cases h
      | ok u =>
        rw [hs] at h
        cases hd : x.dispatch cfg w p with
        | error g => rw [hd] at h; cases h
        | ok y =>
          rw [hd] at h
          simp only [ok_bind, Except.map, pure, Except.pure, Except.ok.injEq, Prod.mk.injEq] at h ⊢
          obtain ⟨k1, k2, -, k4⟩ := dispatch_keeps hd
          have := dispatchAll_sender (cfg := cfg) (w := w) ps (x := y) (by rw [k1, ht])
          rw [h.1, h.2, k2, k4] at this
          simp only [Except.map] at this
          rw [this]
          cases toSender cfg w (x.n + 1) u (ps.map fun p => (x.sock, p)) with
          | error f => rfl
          | ok r => simp [bind, Except.bind]

theorem toSender_append {cfg : Cfg} {w : World} : ∀ (a b : List (Nat × Pdu)) (n : Nat) (s : St),
    toSender cfg w n s (a ++ b) = (do
      let r ← toSender cfg w n s a
      let q ← toSender cfg w (n + a.length) r.1 b
      return (q.1, r.2 ++ q.2))
  | [], b, n, s => by
    simp only [List.nil_append, toSender, ok_bind, List.length_nil, Nat.add_zero]
    cases toSender cfg w n s b <;> rfl
  | (c, p) :: a, b, n, s => by
    simp only [List.cons_append, toSender, List.length_cons]
    cases run cfg s (w.apps n) with
    | error f => rfl
    | ok t =>
      simp only [ok_bind]
      cases step cfg (w.env n) t (.cmd p) with
      | error f => rfl
      | ok u =>
        simp only [ok_bind]
        rw [toSender_append a b (n + 1) u, show n + (a.length + 1) = n + 1 + a.length by omega]
        cases toSender cfg w (n + 1) u a with
        | error f => rfl
        | ok r =>
          simp only [ok_bind, pure, Except.pure]
          cases toSender cfg w (n + 1 + a.length) r.1 b with
          | error f => rfl
          | ok q => simp [bind, Except.bind]

/-- Who sends the packets: clients are numbered from `k + 1` on. -/
def Spec.senders (k : Nat) (cs : List Client) : List Nat := (cs.zipIdx (k + 1)).flatMap fun c => c.1.packets.map fun _ => c.2

theorem dispatchAll_keeps {cfg : Cfg} {w : World} : ∀ (ps : List Pdu) {x y : Link}, x.dispatchAll cfg w ps = .ok y →
    y.eth = x.eth ∧ y.sock = x.sock ∧ y.n = x.n + ps.length
  | [], x, y, h => by cases h; exact ⟨rfl, rfl, rfl⟩
  | p :: ps, x, y, h => by
    rw [Link.dispatchAll] at h
    cases hd : x.dispatch cfg w p with
    | error f => rw [hd] at h; cases h
    | ok z =>
      rw [hd] at h
      obtain ⟨a, b, -, c⟩ := dispatch_keeps hd
      obtain ⟨a', b', c'⟩ := dispatchAll_keeps ps h
      exact ⟨a'.trans a, b'.trans b, by rw [c', c, List.length_cons]; omega⟩

theorem inBuffer_length : ∀ (ds : List (List UInt8)) (buf : List UInt8), (inBuffer buf ds).length = ds.length
  | [], _ => rfl
  | d :: ds, buf => by simp [inBuffer, inBuffer_length ds]

/-- One client is accepted, served until it closes, and forgotten. -/
theorem client_served {cfg : Cfg} {w : World} {x : Link} {c : Client} (ht : x.eth.tcp = true) (hj : x.eth.junk.length = 8)
    (hle : x.eth.ctoIn.length ≤ x.eth.rx.length) (h16 : x.eth.ctoIn.length < 65536) (hc : c.Ok x.eth.ctoIn.length) :
    ∃ e rest, e.tcp = true ∧ e.junk.length = 8 ∧ e.rx.length = x.eth.rx.length ∧
      e.ctoIn = bufAfter x.eth.ctoIn (c.packets.map Prod.snd) ∧
      x.clear.rxTcp cfg w (Arrivals.size (c.segs.map .data) + 1) (c.segs.map .data) =
        (x.dispatchAll cfg w (inBuffer x.eth.ctoIn (c.packets.map Prod.snd)) >>= fun y =>
          .ok ({ y with eth := e, connected := false }, rest)) := by
  obtain ⟨h1, h2, h3⟩ := hc
  obtain ⟨r, hr⟩ := rxLoop_stream c.packets { x.eth with rx := List.replicate x.eth.rx.length 0 }
    (Arrivals.size (c.segs.map .data) + 1) c.segs ht hj
    (by
      intro cp hcp
      obtain ⟨a, b⟩ := h1 cp hcp
      refine ⟨a, by omega, ?_, b⟩
      simp only [List.length_replicate]; omega)
    h2 h3 (by
      rw [map_data_size, h2.2]
      have := stream_length_ge c.packets
      omega)
  obtain ⟨e', rest⟩ := r
  obtain ⟨k1, k2, k3, k4⟩ := rxLoop_keeps _ _ _ hr
  refine ⟨e', rest, k1.trans ht, by rw [k2]; exact hj, by rw [k3]; simp, k4, ?_⟩
  rw [rxTcp_eq _ (x := x.clear) ht hr]
  have hcl : x.clear = { x with eth := { x.eth with rx := List.replicate x.eth.rx.length 0 } } := rfl
  rw [hcl, dispatchAll_eth (x := x) (e := { x.eth with rx := List.replicate x.eth.rx.length 0 }) _ rfl]
  simp only
  cases x.dispatchAll cfg w (inBuffer x.eth.ctoIn (c.packets.map Prod.snd)) <;> rfl

theorem tcpLoop_clients {cfg : Cfg} {w : World} (cs : List Client) : ∀ (fuel : Nat) (x : Link) (cur : Arrivals), x.connected = false →
    x.eth.tcp = true → x.eth.junk.length = 8 → x.eth.ctoIn.length ≤ x.eth.rx.length → x.eth.ctoIn.length < 65536 →
    (∀ c ∈ cs, c.Ok x.eth.ctoIn.length) → cs.length < fuel →
    (x.tcpLoop cfg w fuel cur (cs.map fun c => c.segs.map .data)).map (fun y => (y.s, y.out)) =
      (toSender cfg w x.n x.s ((senders x.sock cs).zip (inBuffer x.eth.ctoIn (cs.flatMap fun c => c.packets.map Prod.snd)))).map
        fun r => (r.1, x.out ++ r.2) := by
  induction cs with
  | nil =>
    intro fuel x cur hcon _ _ _ _ _ hf
    obtain ⟨fuel, rfl⟩ : ∃ n, fuel = n + 1 := ⟨fuel - 1, by simp at hf; omega⟩
    simp [Link.tcpLoop, hcon, senders, toSender, Except.map]
  | cons c cs ih =>
    intro fuel x cur hcon ht hj hle h16 hcs hf
    obtain ⟨fuel, rfl⟩ : ∃ n, fuel = n + 1 := ⟨fuel - 1, by simp at hf; omega⟩
    have hc := hcs c List.mem_cons_self
    have hbl : (bufAfter x.eth.ctoIn (c.packets.map Prod.snd)).length = x.eth.ctoIn.length := by
      apply bufAfter_length
      intro p hp
      obtain ⟨cp, hcp, rfl⟩ := List.mem_map.mp hp
      exact (hc.1 cp hcp).2
    obtain ⟨e, rest, e1, e2, e3, e4, e5⟩ := client_served (cfg := cfg) (w := w) (x := { x with sock := x.sock + 1 }) (c := c) ht hj hle h16 hc
    have hz : (senders x.sock (c :: cs)).zip (inBuffer x.eth.ctoIn ((c :: cs).flatMap fun c => c.packets.map Prod.snd)) =
        (inBuffer x.eth.ctoIn (c.packets.map Prod.snd)).map (fun p => (x.sock + 1, p)) ++
          (senders (x.sock + 1) cs).zip (inBuffer (bufAfter x.eth.ctoIn (c.packets.map Prod.snd)) (cs.flatMap fun c => c.packets.map Prod.snd)) := by
      simp only [senders, List.flatMap_cons, List.zipIdx_cons]
      rw [inBuffer_append, List.zip_append (by simp [inBuffer_length])]
      congr 1
      rw [show (c.packets.map fun _ => x.sock + 1) = List.replicate (inBuffer x.eth.ctoIn (c.packets.map Prod.snd)).length (x.sock + 1) by
        rw [inBuffer_length, List.map_const']; simp]
      generalize inBuffer x.eth.ctoIn _ = l
      induction l with
      | nil => rfl
      | cons a l ih => simp only [List.length_cons, List.replicate_succ, List.zip_cons_cons, ih, List.map_cons]
    rw [List.map_cons, Link.tcpLoop, if_neg (by simp [hcon]), e5, hz, toSender_append]
    have hall := dispatchAll_sender (cfg := cfg) (w := w) (inBuffer x.eth.ctoIn (c.packets.map Prod.snd)) (x := { x with sock := x.sock + 1 }) ht
    cases hd : Link.dispatchAll cfg w { x with sock := x.sock + 1 } (inBuffer x.eth.ctoIn (c.packets.map Prod.snd)) with
    | error f =>
      rw [hd] at hall
      simp only at hall
      cases ho : toSender cfg w x.n x.s ((inBuffer x.eth.ctoIn (c.packets.map Prod.snd)).map fun p => (x.sock + 1, p)) with
      | error g => rw [ho] at hall; cases hall; rfl
      | ok r => rw [ho] at hall; cases hall
    | ok y =>
      rw [hd] at hall
      simp only at hall
      obtain ⟨-, k2, k3⟩ := dispatchAll_keeps _ hd
      cases ho : toSender cfg w x.n x.s ((inBuffer x.eth.ctoIn (c.packets.map Prod.snd)).map fun p => (x.sock + 1, p)) with
      | error g => rw [ho] at hall; cases hall
      | ok r =>
        rw [ho] at hall
        simp only [Except.map, Except.ok.injEq, Prod.mk.injEq] at hall
        simp only [ok_bind]
        have := ih fuel { y with eth := e, connected := false } rest rfl e1 e2
          (by simp only [e3, e4, hbl]; exact hle) (by simp only [e4, hbl]; exact h16)
          (by intro k hk; simp only [e4, hbl]; exact hcs k (List.mem_cons_of_mem _ hk)) (by simp at hf; omega)
        rw [this]
        simp only [hall.1, hall.2, k2, k3, e4, List.length_map]
        cases toSender cfg w (x.n + (inBuffer x.eth.ctoIn (c.packets.map Prod.snd)).length) r.1 _ with
        | error f => rfl
        | ok q => simp [bind, Except.bind, Except.map, pure, Except.pure]

/-- C84: TCP clients that send non-empty packets and split no header (see C49) are served one after the other until they
close the connection; whatever happens in between, everything sent goes to the client whose packet is executed. -/
theorem C84_clients_partial {cfg : Cfg} (hok : cfg.maxCto ≤ 255) (hl : cfg.lenSize + cfg.ctrSize ≤ 4) (w : World) (mem : Mem)
    {junk : List UInt8} (hj : junk.length = 8) (cs : List Client)
    (hcs : ∀ c ∈ cs, c.Ok (cfg.maxCto + cfg.lenSize + cfg.ctrSize)) :
    ((Link.init cfg mem true junk).serve cfg w (cs.map fun c => c.segs.map .data)).map (fun y => (y.s, y.out)) =
      toSender cfg w 0 (St.init cfg mem) ((senders 0 cs).zip
        (inBuffer (List.replicate (cfg.maxCto + cfg.lenSize + cfg.ctrSize) 0) (cs.flatMap fun c => c.packets.map Prod.snd))) := by
  have hlen : ((Link.init cfg mem true junk).eth.ctoIn).length = cfg.maxCto + cfg.lenSize + cfg.ctrSize := by simp [Link.init, Eth.init]
  have hsum : ∀ l : List Arrivals, l.length ≤ (l.map fun c => c.size + 2).sum := by
    intro l
    induction l with
    | nil => simp
    | cons a l ih => simp; omega
  unfold Link.serve
  have hle : ((Link.init cfg mem true junk).eth.ctoIn).length ≤ ((Link.init cfg mem true junk).eth.rx).length := by
    rw [hlen]; simp only [Link.init, Eth.init, List.length_replicate, commBufLen]; omega
  rw [tcpLoop_clients cs _ _ _ rfl rfl hj hle (by rw [hlen]; omega) (by rw [hlen]; exact hcs)
    (by have := hsum (cs.map fun c => c.segs.map .data); simp at this ⊢; omega)]
  show Except.map (fun r => (r.1, [] ++ r.2)) (toSender cfg w 0 (St.init cfg mem) _) = _
  generalize hg : toSender cfg w 0 (St.init cfg mem) _ = x
  rw [show toSender cfg w 0 (St.init cfg mem) ((senders 0 cs).zip
        (inBuffer (List.replicate (cfg.maxCto + cfg.lenSize + cfg.ctrSize) 0) (cs.flatMap fun c => c.packets.map Prod.snd))) = x from hg]
  cases x <;> rfl

theorem header_alone {tcp : Bool} {junk : List UInt8} (hj : junk.length = 8) (k : UInt16) {p : List UInt8} (hp : p.length < 65536)
    (more : Arrivals) :
    ∃ ctr, readHeader tcp junk (.data ((framed k p).take 4) :: more) = .ok (.done (p.length, ctr) more) := by
  match junk, hj with
  | [j0, j1, j2, j3, j4, j5, j6, j7], _ =>
    refine ⟨headerWord (storeAt [j0, j1, j2, j3, j4, j5, j6, j7] 0 ((framed k p).take 4)) 2, ?_⟩
    have e : headerWord (storeAt [j0, j1, j2, j3, j4, j5, j6, j7] 0 ((framed k p).take 4)) 0 = p.length := by
      simp [headerWord, storeAt, framed]
      omega
    have e4 : ((framed k p).take 4).length = 4 := by simp [framed]
    simp only [readHeader, readHeaderLoop, e4]
    have h8 : (storeAt [j0, j1, j2, j3, j4, j5, j6, j7] 0 ((framed k p).take 4)).length = 8 :=
      storeAt_length (by rw [e4]; simp)
    simp only [Nat.min_self, List.take_take]
    rw [if_neg (by omega), if_neg (by simp), if_pos trivial, if_neg (by omega), e]
    simp [leftover, e4]

/-- An empty packet ends the receiver without releasing the connection. -/
theorem rxTcp_empty {cfg : Cfg} {w : World} {x : Link} (hj : x.eth.junk.length = 8) (fuel : Nat) (k : UInt16) (more : Arrivals) :
    x.rxTcp cfg w (fuel + 1) (.data (framed k []) :: more) = .ok (x, more) := by
  obtain ⟨ctr, hh⟩ := header_alone (tcp := true) hj k (p := []) (by simp) more
  have e : (framed k []).take 4 = framed k [] := by simp [framed]
  rw [e] at hh
  rw [Link.rxTcp, hh]
  simp [readData]

/-- The rest of the claim is false: a client that is not connected (before CONNECT, after DISCONNECT) and sends an empty packet is never
served again, although it did not close the connection: nothing depends on what it sends later. -/
theorem C84_fails_abandoned {cfg : Cfg} (w : World) {x : Link} (hj : x.eth.junk.length = 8) (hcon : x.connected = false) (fuel : Nat)
    (cur : Arrivals) (k : UInt16) (more : Arrivals) (next : List Arrivals) :
    x.tcpLoop cfg w (fuel + 2) cur ((.data (framed k []) :: more) :: next) =
      { x with sock := x.sock + 1 }.clear.tcpLoop cfg w (fuel + 1) [] next := by
  rw [Link.tcpLoop, if_neg (by simp [hcon])]
  have := rxTcp_empty (cfg := cfg) (w := w) (x := { x with sock := x.sock + 1 }.clear) hj
  rw [this]
  simp only
  have hc : ({ x with sock := x.sock + 1 }.clear).connected = false := hcon
  cases next with
  | nil => rw [Link.tcpLoop, Link.tcpLoop, if_neg (by simp [hc]), if_neg (by simp [hc])]
  | cons c cs => rw [Link.tcpLoop, Link.tcpLoop, if_neg (by simp [hc]), if_neg (by simp [hc])]

/-- An empty packet from a connected client is ignored. -/
theorem C84_empty_ignored {cfg : Cfg} (w : World) {x : Link} (hj : x.eth.junk.length = 8) (hcon : x.connected = true) (fuel : Nat)
    (k : UInt16) (more : Arrivals) (next : List Arrivals) :
    x.tcpLoop cfg w (fuel + 1) (.data (framed k []) :: more) next = x.clear.tcpLoop cfg w fuel more next := by
  have := rxTcp_empty (cfg := cfg) (w := w) (x := x.clear) hj
  cases next with
  | nil => rw [Link.tcpLoop, if_pos hcon, this]
  | cons c cs => rw [Link.tcpLoop, if_pos hcon, this]

/-- Who counts as connected there: a client whose CONNECT was executed, until its DISCONNECT is.  (Between the packets the application does
not disconnect.) -/
theorem C84_contact {cfg : Cfg} {w : World} {x y : Link} {p : Pdu} (h : x.dispatch cfg w p = .ok y)
    (hq : ∀ o ∈ w.apps x.n, o.2 ≠ .apiDisconnect) {t : St} (ht : run cfg x.s (w.apps x.n) = .ok t) (hb : ¬ (t.connected = true ∧ t.busy = true)) :
    (p.buf.head? = some 0xFF → y.connected = true) ∧
    (p.buf.head? = some 0xFE → t.connected = true → t.pgm ≠ .active → y.connected = false) ∧
    (p.buf.head? ≠ some 0xFF → p.buf.head? ≠ some 0xFE → p.buf.head? ≠ some 0xF7 → y.connected = x.connected) := by
  have hany : (w.apps x.n).any (fun o => o.2 == .apiDisconnect) = false := by
    rw [List.any_eq_false]
    intro o ho
    simpa using hq o ho
  unfold Link.dispatch at h
  rw [ht] at h
  simp only [ok_bind, hany, Bool.false_eq_true, if_false] at h
  cases hs : step cfg (w.env x.n) t (.cmd p) with
  | error f =>
    rw [show ((x.took t).connection none).s = t from rfl, show ((x.took t).connection none).n = x.n from rfl, hs] at h
    cases h
  | ok u =>
    rw [show ((x.took t).connection none).s = t from rfl, show ((x.took t).connection none).n = x.n from rfl, hs] at h
    simp only [ok_bind, pure, Except.pure, Except.ok.injEq] at h
    have hc : y.connected = (((x.took t).connection none).connection (connectionCall cfg (w.env x.n) t p)).connected := by
      rw [← h]; rfl
    have hb' : (t.connected && t.busy) = false := by
      cases h1 : t.connected <;> cases h2 : t.busy <;> simp_all
    rw [hc]
    refine ⟨fun h1 => ?_, fun h1 h2 h3 => ?_, fun h1 h2 h3 => ?_⟩
    · simp [connectionCall, hb', h1, Link.connection]
    · have h4 : t.busy = false := by rw [h2] at hb'; simpa using hb'
      simp [connectionCall, h4, h1, h2, h3, Link.connection]
    · have e : connectionCall cfg (w.env x.n) t p = none := by
        unfold connectionCall
        simp [hb', h1, h2, h3]
      rw [e]
      rfl

/-- `World` without anything happening between the packets. -/
def Ex.quiet : World := ⟨fun _ => Ex.env, fun _ => []⟩

/-- The frames sent to the clients. -/
def Ex.sockets (w : World) (cs : List Arrivals) : Option (List (Dest × List UInt8)) :=
  ((Link.init Ex.sim Ex.mem true (List.replicate 8 0)).serve Ex.sim w cs).toOption.map fun y => y.out.map fun f => (f.1, f.2.bytes)

/-- An empty packet, then CONNECT: no answer.  The next client is served. -/
theorem C84_fails : Ex.sockets Ex.quiet [[.data [0, 0, 0, 0], .data [2, 0, 1, 0, 0xFF, 0]], [.data [1, 0, 0, 0, 0xFD]]] = some [] ∧
    Ex.sockets Ex.quiet [[.data [0, 0, 0, 0], .data [2, 0, 1, 0, 0xFF, 0]], [.data [2, 0, 0, 0, 0xFF, 0]]] =
      some [(.socket 2, [8, 0, 0, 0, 0xFF, 0x15, 0x80, 64, 64, 0, 1, 1])] := by
  refine ⟨?_, ?_⟩ <;> decide +kernel

/-- After CONNECT the empty packet does not matter. -/
example : Ex.sockets Ex.quiet [[.data [2, 0, 1, 0, 0xFF, 0], .data [0, 0, 0, 0], .data [1, 0, 2, 0, 0xFC]]] =
    some [(.socket 1, [8, 0, 0, 0, 0xFF, 0x15, 0x80, 64, 64, 0, 1, 1]), (.socket 1, [2, 0, 1, 0, 0xFE, 0])] := by decide +kernel

/-- Requests of numbered clients. -/
theorem tracks_sender {cfg : Cfg} (hp : Plain cfg) {k : About} {envs : List Env} (hd : Describes k cfg envs) {w : World}
    (hw : ∀ n, w.apps n = []) : ∀ (xs : List (Nat × Req)) (n : Nat) {s : St} {r : Remote} (buf : List UInt8), Tracks cfg s r →
    AllLegal cfg k r (xs.map fun x => .request x.2) → (∀ i < xs.length, w.env (n + i) ∈ envs) →
    ∃ s' fs, toSender cfg w n s ((xs.map Prod.fst).zip (inBuffer buf (xs.map (·.2.bytes)))) =
        .ok (s', List.zipWith (fun c f => (.socket c, f)) (xs.map Prod.fst) fs) ∧
      s'.tx = s.tx ++ fs ∧ CarryAll cfg fs (r.answers k (xs.map fun x => .request x.2)) ∧
      s'.mem = (r.final k (xs.map fun x => .request x.2)).mem
  | [], n, s, r, buf, ht, _, _ => ⟨s, [], rfl, by simp, trivial, ht.mem⟩
  | (c, q) :: xs, n, s, r, buf, ht, hl, he => by
    obtain ⟨s1, h1, h2, f, hf, hc⟩ := happening_step hp hd (a := ⟨w.env n, q.bytes.length, buf.drop q.bytes.length⟩)
      (by have := he 0 (by simp); simpa using this) ht (h := .request q) hl.1
    obtain ⟨s', fs, h3, h4, h5, h6⟩ := tracks_sender hp hd hw xs (n + 1) (q.bytes ++ buf.drop q.bytes.length) h2 hl.2
      (by intro i hi; have := he (i + 1) (by simp; omega); rwa [show n + (i + 1) = n + 1 + i by omega] at this)
    refine ⟨s', f :: fs, ?_, by rw [h4, hf]; simp, ⟨hc, h5⟩, h6⟩
    simp only [List.map_cons, inBuffer, List.zip_cons_cons, toSender, hw, run, ok_bind]
    simp only [Happening.op] at h1
    rw [h1]
    simp only [ok_bind, h3]
    simp [framesOf, hf, pure, Except.pure]

theorem toSender_run {cfg : Cfg} {w : World} : ∀ (l : List (Nat × Pdu)) (n : Nat) {s v : St} {out : List (Dest × Frame)},
    toSender cfg w n s l = .ok (v, out) → ∃ h, run cfg s h = .ok v
  | [], _, _, _, _, h => by cases h; exact ⟨[], rfl⟩
  | (c, p) :: l, n, s, v, out, h => by
    rw [toSender] at h
    cases hr : run cfg s (w.apps n) with
    | error f => rw [hr] at h; cases h
    | ok t =>
      rw [hr] at h
      simp only [ok_bind] at h
      cases hs : step cfg (w.env n) t (.cmd p) with
      | error f => rw [hs] at h; cases h
      | ok u =>
        rw [hs] at h
        simp only [ok_bind] at h
        cases hq : toSender cfg w (n + 1) u l with
        | error f => rw [hq] at h; cases h
        | ok q =>
          rw [hq] at h
          cases h
          obtain ⟨h', hh⟩ := toSender_run l (n + 1) hq
          exact ⟨w.apps n ++ (w.env n, .cmd p) :: h', by rw [run_append, hr]; simp only [ok_bind, run, hs, hh]⟩

theorem filter_tags {α : Type} (g : α → List UInt8) (c : Nat) : ∀ (ts : List Nat) (fs : List Frame) (as : List α), fs.map Frame.bytes = as.map g →
    ((List.zipWith (fun c f => ((.socket c, f) : Dest × Frame)) ts fs).filter (fun x => x.1 = .socket c)).map (·.2.bytes) =
      ((ts.zip as).filter (fun x => x.1 = c)).map fun x => g x.2
  | [], _, _, _ => by simp
  | _ :: _, [], [], _ => by simp
  | _ :: _, [], _ :: _, h => by simp at h
  | _ :: _, _ :: _, [], h => by simp at h
  | t :: ts, f :: fs, a :: as, h => by
    simp only [List.map_cons, List.cons.injEq] at h
    have ih := filter_tags g c ts fs as h.2
    simp only [List.zipWith_cons_cons, List.zip_cons_cons, List.filter_cons, Dest.socket.injEq]
    by_cases ht : t = c
    · simp [ht, h.1, ih]
    · simp [ht, ih]

/-- The clients of tools. -/
def Spec.askers (ts : List Tool) : List Nat := senders 0 (ts.map Tool.client)

/-- C84 for sessions as in C80: each client gets, byte for byte, the answers of the remote memory to its own
requests and nothing else.  (The counters in the headers count the answers to all clients.) -/
theorem C84_own_answers {cfg : Cfg} (hp : Plain cfg) (hl : cfg.lenSize = 2) (hn : cfg.ctrSize = 2) (hm : cfg.maxDlc = false) {k : About}
    {ts : List Tool} {w : World} (hw : ∀ n, w.apps n = []) {envs : List Env} (hd : Describes k cfg envs)
    (he : ∀ n < (askers ts).length, w.env n ∈ envs) {mem : Mem} {mode : UInt8} {qs : List Req}
    (hfirst : (ts.flatMap fun t => t.requests.map (·.2)) = .connect mode :: qs)
    (hleg : AllLegal cfg k ⟨mem, 0, 0, true⟩ (qs.map .request)) (hs : ∀ t ∈ ts, t.Sends) {junk : List UInt8} (hj : junk.length = 8) :
    ∃ y, (Link.init cfg mem true junk).serve cfg w (ts.map fun t => t.segs.map .data) = .ok y ∧
      (∀ c, ((y.out.filter (fun x => x.1 = .socket c)).map (·.2.bytes)).flatten =
        stream (((askers ts).zip (numbered (Remote.answers k ⟨mem, 0, 0, true⟩ (.request (.connect mode) :: qs.map .request)))).filter
          (fun x => x.1 = c) |>.map Prod.snd)) ∧
      y.s.mem = (Remote.final k ⟨mem, 0, 0, true⟩ (qs.map .request)).mem := by
  have h8 := hp.ok.cto_lo
  have h9 := hp.ok.cto_hi
  have hlens : ∀ t ∈ ts, ∀ x ∈ t.requests, x.2.bytes ≠ [] ∧ x.2.bytes.length ≤ cfg.maxCto := by
    intro t ht x hx
    have hx : x.2 ∈ ts.flatMap fun t => t.requests.map (·.2) := List.mem_flatMap.mpr ⟨t, ht, List.mem_map.mpr ⟨x, hx, rfl⟩⟩
    rw [hfirst] at hx
    rcases List.mem_cons.mp hx with h | h
    · rw [h]; exact legal_length hp (r := ⟨mem, 0, 0, true⟩) (q := .connect mode) trivial
    · exact allLegal_length hp qs hleg _ h
  have hone := C84_clients_partial (cfg := cfg) h9 (by omega) w mem hj (ts.map Tool.client)
    (by
      intro c hc
      obtain ⟨t, ht, rfl⟩ := List.mem_map.mp hc
      refine ⟨?_, (hs t ht).1, (hs t ht).2⟩
      intro cp hcp
      obtain ⟨x, hx, rfl⟩ := List.mem_map.mp hcp
      have := hlens t ht x hx
      exact ⟨this.1, Nat.le_trans this.2 (by omega)⟩)
  have e2 : ((ts.map Tool.client).flatMap fun c => c.packets.map Prod.snd) = ((Req.connect mode :: qs).map Req.bytes) := by
    rw [← hfirst]
    simp only [List.flatMap_map, List.map_flatMap, Tool.client, List.map_map]
    rfl
  have hlen : (askers ts).length = (Req.connect mode :: qs).length := by
    have h1 : ∀ (cs : List Client) (i : Nat), ((cs.zipIdx i).flatMap fun c => c.1.packets.map fun _ => c.2).length =
        (cs.flatMap fun c => c.packets.map Prod.snd).length := by
      intro cs
      induction cs with
      | nil => intro i; rfl
      | cons c cs ih => intro i; simp only [List.zipIdx_cons, List.flatMap_cons, List.length_append, List.length_map, ih]
    have h2 := h1 (ts.map Tool.client) 1
    rw [e2, List.length_map] at h2
    exact h2
  rw [e2] at hone
  rw [show senders 0 (ts.map Tool.client) = askers ts from rfl] at hone
  match hc : askers ts, hlen with
  | c :: cs, hlen =>
    have hlen : cs.length = qs.length := by simpa using hlen
    rw [hc] at hone he
    obtain ⟨s1, h1, ⟨f, hf, hcar⟩, h3⟩ := remote_connect hp hd (env := w.env 0) (he 0 (by simp)) mem mode (Req.connect mode).bytes.length
      ((List.replicate (cfg.maxCto + cfg.lenSize + cfg.ctrSize) (0 : UInt8)).drop (Req.connect mode).bytes.length)
    have z1 : (cs.zip qs).map Prod.fst = cs := by rw [List.map_fst_zip]; omega
    have z2 : (cs.zip qs).map Prod.snd = qs := by rw [List.map_snd_zip]; omega
    have z3 : (cs.zip qs).map (fun x => x.2.bytes) = qs.map Req.bytes := by
      conv => rhs; rw [← z2]
      rw [List.map_map]; rfl
    have z4 : (cs.zip qs).map (fun x => Happening.request x.2) = qs.map .request := by
      conv => rhs; rw [← z2]
      rw [List.map_map]; rfl
    obtain ⟨s', fs, g1, g2, g3, g4⟩ := tracks_sender hp hd hw (cs.zip qs) 1
      ((Req.connect mode).bytes ++ (List.replicate (cfg.maxCto + cfg.lenSize + cfg.ctrSize) (0 : UInt8)).drop (Req.connect mode).bytes.length)
      h3 (by rw [z4]; exact hleg) (by
        intro i hi
        rw [List.length_zip] at hi
        exact he (1 + i) (by simp; omega))
    rw [z1, z3] at g1
    rw [z4] at g3 g4
    have htot : toSender cfg w 0 (St.init cfg mem) ((c :: cs).zip
        (inBuffer (List.replicate (cfg.maxCto + cfg.lenSize + cfg.ctrSize) 0) ((Req.connect mode :: qs).map Req.bytes))) =
          .ok (s', List.zipWith (fun c f => (.socket c, f)) (c :: cs) (f :: fs)) := by
      simp only [List.map_cons, inBuffer, List.zip_cons_cons, toSender, hw, run, ok_bind, h1, Nat.zero_add, g1]
      simp [framesOf, hf, pure, Except.pure]
    have htx : s'.tx = f :: fs := by rw [g2, hf]; rfl
    have hcarry : CarryAll cfg s'.tx (Remote.answers k ⟨mem, 0, 0, true⟩ (.request (.connect mode) :: qs.map .request)) := by
      have hnext : Remote.next k ⟨mem, 0, 0, true⟩ (.connect mode) = ⟨mem, 0, 0, true⟩ := by simp [Remote.next]
      rw [htx]
      show CarryAll cfg (f :: fs) (_ :: Remote.answers k (Remote.next k ⟨mem, 0, 0, true⟩ (.connect mode)) _)
      rw [hnext]
      exact ⟨hcar, g3⟩
    obtain ⟨h, hrun⟩ := toSender_run _ _ htot
    have hbytes := wire_frames hp.ok hl hn hm hrun hcarry
    rw [htx] at hbytes
    rw [htot] at hone
    have hmap : (ts.map Tool.client).map (fun c => c.segs.map Arrival.data) = ts.map fun t => t.segs.map .data := by
      rw [List.map_map]; rfl
    rw [hmap] at hone
    cases hx : (Link.init cfg mem true junk).serve cfg w (ts.map fun t => t.segs.map .data) with
    | error f => rw [hx] at hone; cases hone
    | ok y =>
      rw [hx] at hone
      simp only [Except.map, Except.ok.injEq, Prod.mk.injEq] at hone
      refine ⟨y, rfl, ?_, by rw [hone.1]; exact g4⟩
      intro d
      rw [hone.2, filter_tags _ d _ _ _ hbytes]
      simp [stream, List.map_map, Function.comp_def]

/-- Two tools as in C80: who gets what. -/
example : Ex.sockets Ex.quiet (Ex.tools.map fun t => t.segs.map .data) =
    some [(.socket 1, [8, 0, 0, 0, 0xFF, 0x15, 0x80, 64, 64, 0, 1, 1]), (.socket 1, [1, 0, 1, 0, 0xFF]),
      (.socket 1, [5, 0, 2, 0, 0xFF, 0x34, 0x35, 0x36, 0x37]), (.socket 2, [1, 0, 3, 0, 0xFF]),
      (.socket 2, [3, 0, 4, 0, 0xFF, 9, 0x39])] := by decide +kernel

example : askers Ex.tools = [1, 1, 1, 2, 2] := by decide

end Xcp
