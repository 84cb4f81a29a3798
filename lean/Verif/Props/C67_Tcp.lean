import Verif.Props.C49_Ethernet
import Verif.Model.Tcp
import Verif.Proofs.Answer
/-
C67: an XCP session ends with its TCP connection.

False: the slave does not notice that the client changed.  It does exactly what it would do if one
client had sent all the packets (`C67_one_client`), so the next client inherits session,
unlocked resources and running acquisition (`C67_fails`, `C67_fails_unlocked`).
-/
set_option autoImplicit false
namespace Xcp
open Spec

/-- A client: its packets, and how TCP cuts them into pieces. -/
structure Spec.Client where
  env : Env
  packets : List (UInt16 × List UInt8)
  segs : List (List UInt8)

/-- The client sends non-empty packets of at most the buffer's size, and no header is split (see C49). -/
def Spec.Client.Ok (n : Nat) (c : Client) : Prop :=
  (∀ cp ∈ c.packets, cp.2 ≠ [] ∧ cp.2.length ≤ n) ∧ Segments c.segs (stream c.packets) ∧ HeadersIntact c.packets c.segs

theorem readDataLoop_length {tcp : Bool} : ∀ (as : Arrivals) (buf : List UInt8) (rem off : Nat) {rx : List UInt8} {rest : Arrivals},
    readDataLoop tcp as buf rem off = .ok (.done rx rest) → rx.length = buf.length
  | [], _, _, _, _, _, h => by simp [readDataLoop] at h
  | .err :: as, buf, rem, off, rx, rest, h => by
    rw [readDataLoop] at h
    split at h
    · cases h; rfl
    · exact readDataLoop_length as _ _ _ h
  | .data bs :: as, buf, rem, off, rx, rest, h => by
    rw [readDataLoop] at h
    simp only at h
    split at h
    · cases h
    · split at h
      · cases h
      · next hb =>
        have hl : (storeAt buf off (bs.take (min rem bs.length))).length = buf.length :=
          storeAt_length (by rw [List.length_take]; omega)
        split at h
        · cases h; exact hl
        · rw [readDataLoop_length as _ _ _ h, hl]

/-- The receiver keeps its kind and the sizes of its buffers; the command buffer holds the last packet. -/
theorem rxLoop_keeps : ∀ (fuel : Nat) (e : Eth) (as : Arrivals) {ps : List Pdu} {en : RxEnd} {e' : Eth} {rest : Arrivals},
    e.rxLoop fuel as = .ok (ps, en, e', rest) →
    e'.tcp = e.tcp ∧ e'.junk = e.junk ∧ e'.rx.length = e.rx.length ∧ e'.ctoIn = ((ps.map Pdu.buf).getLast?).getD e.ctoIn
  | 0, _, _, _, _, _, _, h => by cases h
  | fuel + 1, e, as, ps, en, e', rest, h => by
    rw [Eth.rxLoop] at h
    split at h
    · cases h
    · cases h; exact ⟨rfl, rfl, rfl, rfl⟩
    · next dlc ctr rest1 hh =>
      split at h
      · cases h
      · cases h; exact ⟨rfl, rfl, rfl, rfl⟩
      · next rx rest2 hd =>
        have hl : rx.length = e.rx.length := by
          unfold readData at hd
          split at hd
          · cases hd
          · exact readDataLoop_length _ _ _ _ hd
        split at h
        · cases h
        · simp only at h
          split at h
          · cases h
          · next ps' r heq =>
            obtain ⟨en1, e1, r1⟩ := r
            cases h
            obtain ⟨h1, h2, h3, h4⟩ := rxLoop_keeps fuel _ _ heq
            refine ⟨h1, h2, h3.trans hl, ?_⟩
            rw [h4, List.map_cons, List.getLast?_cons]
            cases (ps'.map Pdu.buf).getLast? <;> rfl

/-- The buffer after some packets. -/
def bufAfter (buf : List UInt8) (ps : List (List UInt8)) : List UInt8 := (((inBuffer buf ps).map Pdu.buf).getLast?).getD buf

theorem inBuffer_append (a b : List (List UInt8)) : ∀ buf, inBuffer buf (a ++ b) = inBuffer buf a ++ inBuffer (bufAfter buf a) b := by
  induction a with
  | nil => intro buf; rfl
  | cons p a ih =>
    intro buf
    simp only [List.cons_append, inBuffer]
    rw [ih]
    congr 3
    unfold bufAfter
    rw [inBuffer, List.map_cons, List.getLast?_cons]
    simp

theorem bufAfter_length (a : List (List UInt8)) : ∀ buf : List UInt8, (∀ p ∈ a, p.length ≤ buf.length) → (bufAfter buf a).length = buf.length := by
  induction a with
  | nil => intro buf _; rfl
  | cons p a ih =>
    intro buf h
    have hp := h p List.mem_cons_self
    have hl : (p ++ buf.drop p.length).length = buf.length := by simp; omega
    have e : bufAfter buf (p :: a) = bufAfter (p ++ buf.drop p.length) a := by
      unfold bufAfter
      rw [inBuffer, List.map_cons, List.getLast?_cons]
      simp
    rw [e, ih _ (by intro q hq; rw [hl]; exact h q (List.mem_cons_of_mem _ hq)), hl]

theorem client_step {cfg : Cfg} {x : TcpSrv} {c : Client} (ht : x.eth.tcp = true) (hj : x.eth.junk.length = 8)
    (hle : x.eth.ctoIn.length ≤ x.eth.rx.length) (h16 : x.eth.ctoIn.length < 65536) (hc : c.Ok x.eth.ctoIn.length) :
    ∃ eth, eth.tcp = true ∧ eth.junk.length = 8 ∧ eth.rx.length = x.eth.rx.length ∧
      eth.ctoIn = bufAfter x.eth.ctoIn (c.packets.map Prod.snd) ∧
      tcpClient cfg x (c.env, c.segs.map .data) =
        (run cfg x.s ((inBuffer x.eth.ctoIn (c.packets.map Prod.snd)).map fun p => (c.env, .cmd p)) >>= fun s =>
          .ok (⟨s, eth⟩, .released)) := by
  obtain ⟨h1, h2, h3⟩ := hc
  obtain ⟨r, hr⟩ := rxLoop_stream c.packets { x.eth with rx := List.replicate x.eth.rx.length 0 }
    (Arrivals.size (c.segs.map .data) + 1) c.segs ht hj
    (by
      intro cp hcp
      obtain ⟨a, b⟩ := h1 cp hcp
      refine ⟨a, by omega, ?_, b⟩
      simp only [List.length_replicate]; omega)
    h2 h3 (by
      rw [map_data_size, h2.2]
      have := stream_length_ge c.packets
      omega)
  obtain ⟨e', rest⟩ := r
  obtain ⟨k1, k2, k3, k4⟩ := rxLoop_keeps _ _ _ hr
  refine ⟨e', k1.trans ht, by rw [k2]; exact hj, by rw [k3]; simp, k4, ?_⟩
  unfold tcpClient Eth.rxHandler
  simp only [hr]
  rfl

/-- C67, what the code does instead: TCP clients are served one after the other, and the slave does exactly what
it does when it receives all their packets in this order.  It does not see where one client
ends and the next begins. -/
theorem C67_one_client {cfg : Cfg} (cs : List Client) : ∀ (x : TcpSrv), x.eth.tcp = true → x.eth.junk.length = 8 →
    x.eth.ctoIn.length ≤ x.eth.rx.length → x.eth.ctoIn.length < 65536 → (∀ c ∈ cs, c.Ok x.eth.ctoIn.length) →
    (tcpServe cfg x (cs.map fun c => (c.env, c.segs.map .data))).map TcpSrv.s =
      run cfg x.s (List.zipWith (fun env p => (env, .cmd p)) (cs.flatMap fun c => c.packets.map fun _ => c.env)
        (inBuffer x.eth.ctoIn (cs.flatMap fun c => c.packets.map Prod.snd))) := by
  induction cs with
  | nil => intro x _ _ _ _ _; rfl
  | cons c cs ih =>
    intro x ht hj hle h16 hcs
    have hc := hcs c List.mem_cons_self
    obtain ⟨eth, e1, e2, e3, e4, e5⟩ := client_step (cfg := cfg) ht hj hle h16 hc
    have hbl : (bufAfter x.eth.ctoIn (c.packets.map Prod.snd)).length = x.eth.ctoIn.length := by
      apply bufAfter_length
      intro p hp
      obtain ⟨cp, hcp, rfl⟩ := List.mem_map.mp hp
      exact (hc.1 cp hcp).2
    have hz : ∀ (env : Env) (ps : List Pdu) (ds : List (UInt16 × List UInt8)), ps.length = ds.length →
        List.zipWith (fun env p => ((env, .cmd p) : Env × Op)) (ds.map fun _ => env) ps = ps.map fun p => (env, .cmd p) := by
      intro env ps
      induction ps with
      | nil => intro ds h; simp
      | cons p ps ih =>
        intro ds h
        cases ds with
        | nil => simp at h
        | cons d ds => simp at h ⊢; exact ih ds h
    have hlen : ∀ (ds : List (List UInt8)) (buf : List UInt8), (inBuffer buf ds).length = ds.length := by
      intro ds
      induction ds with
      | nil => intro buf; rfl
      | cons d ds ih => intro buf; simp [inBuffer, ih]
    simp only [List.map_cons, tcpServe, List.flatMap_cons]
    rw [inBuffer_append, List.zipWith_append (by simp [hlen]), run_append, e5, hz _ _ _ (by simp [hlen])]
    cases hs : run cfg x.s ((inBuffer x.eth.ctoIn (c.packets.map Prod.snd)).map fun p => (c.env, .cmd p)) with
    | error f => rfl
    | ok s' =>
      simp only [ok_bind]
      have := ih ⟨s', eth⟩ e1 e2 (by simp only [e3, e4, hbl]; exact hle) (by simp only [e4, hbl]; exact h16)
        (by intro k hk; simp only [e4, hbl]; exact hcs k (List.mem_cons_of_mem _ hk))
      rw [if_pos trivial, this, e4]

/-- The frames sent when two clients come one after the other. -/
def Ex.clients (cfg : Cfg) (cs : List (List UInt8)) : Option (List (List UInt8)) :=
  (tcpServe cfg (TcpSrv.init cfg Ex.mem (List.replicate 8 0)) (cs.map fun c => (Ex.env, [.data c]))).toOption.map
    fun x => x.s.tx.map Frame.bytes

/-- C67 is false: the second client sends SHORT_UPLOAD without CONNECT, and gets the memory contents. -/
theorem C67_fails :
    Ex.clients Ex.sim [[2, 0, 0, 0, 0xFF, 0], [8, 0, 0, 0, 0xF4, 4, 0, 0, 0, 0, 0, 0]] =
      (Ex.clients Ex.sim [[2, 0, 0, 0, 0xFF, 0] ++ [8, 0, 0, 0, 0xF4, 4, 0, 0, 0, 0, 0, 0]]) ∧
    (Ex.clients Ex.sim [[2, 0, 0, 0, 0xFF, 0], [8, 0, 0, 0, 0xF4, 4, 0, 0, 0, 0, 0, 0]]).map List.length = some 2 ∧
    Ex.clients Ex.sim [[8, 0, 0, 0, 0xF4, 4, 0, 0, 0, 0, 0, 0]] = some [] := by
  refine ⟨?_, ?_, ?_⟩ <;> decide +kernel

/-- The second client uses what the first one unlocked (DAQ): FREE_DAQ is accepted without a key. -/
theorem C67_fails_unlocked :
    (Ex.clients Ex.sec [[2, 0, 0, 0, 0xFF, 0, 3, 0, 0, 0, 0xF8, 0, 4, 6, 0, 0, 0, 0xF7, 4, 1, 2, 3, 4], [1, 0, 0, 0, 0xD6]]).map
      (fun l => l.getLast?) = some (some [1, 0, 3, 0, 0xFF]) ∧
    (Ex.clients Ex.sec [[2, 0, 0, 0, 0xFF, 0], [1, 0, 0, 0, 0xD6]]).map (fun l => l.getLast?) = some (some [2, 0, 1, 0, 0xFE, 0x25]) := by
  refine ⟨?_, ?_⟩ <;> decide +kernel

end Xcp
