import Verif.Proofs.Sxi
import Verif.Model.Example
/-
C47: Serial framing recovers exactly the packets sent.

Proved for packets that fit the buffer.  False for byte streams in general: no length is checked
against the buffer, and every packet that does not fit makes the receiver write behind its
buffer.
-/
set_option autoImplicit false
namespace Xcp
open Spec

/-- C47 in full for a receiver with a buffer of `buflen` bytes: packets are recovered, and no byte
stream leads to an access outside of the buffer. -/
def Spec.SerialRight (buflen : Nat) : Prop :=
  (∀ (ps : List (UInt16 × List UInt8)) (ts : List (UInt32 × UInt8)), (∀ cp ∈ ps, cp.2.length + 4 ≤ buflen) →
    ts.map Prod.snd = stream ps →
    ∃ r qs, (Rcv.init buflen).feedAll ts = .ok (r, qs) ∧ qs.map delivered = ps.map Prod.snd) ∧
  ∀ ts, (Rcv.init buflen).feedAll ts ≠ .error .bufOob

theorem feed_stream {buflen : Nat} (ps : List (UInt16 × List UInt8)) (hps : ∀ cp ∈ ps, cp.2.length + 4 ≤ buflen ∧ cp.2.length ≤ 65532) :
    ∀ (r : Rcv) (ts : List (UInt32 × UInt8)), Between buflen r → ts.map Prod.snd = stream ps →
    ∃ r' qs, r.feedAll ts = .ok (r', qs) ∧ Between buflen r' ∧ qs.map delivered = ps.map Prod.snd ∧
      qs.map Pdu.len = ps.map fun cp => cp.2.length := by
  induction ps with
  | nil =>
    intro r ts hb ht
    have : ts = [] := by simpa [stream] using ht
    subst this
    exact ⟨r, [], rfl, hb, rfl, rfl⟩
  | cons cp ps ih =>
    intro r ts hb ht
    have hs : stream (cp :: ps) = framed cp.1 cp.2 ++ stream ps := by simp [stream]
    rw [hs] at ht
    obtain ⟨ta, tb, rfl, hta, htb⟩ := map_snd_split ht
    have h0 := hps cp (List.mem_cons_self ..)
    obtain ⟨r1, q, h1, hb1, hl, hr, -⟩ := feed_frame hb h0.2 h0.1 hta
    obtain ⟨r2, qs, h2, hb2, hrs, hls⟩ := ih (fun x hx => hps x (List.mem_cons_of_mem _ hx)) r1 tb hb1 htb
    refine ⟨r2, q :: qs, ?_, hb2, by simp [hr, hrs], by simp [hl, hls]⟩
    rw [feedAll_append h1, h2]
    rfl

theorem init_between (buflen : Nat) : Between buflen (Rcv.init buflen) := ⟨by simp [Rcv.init], rfl, rfl⟩

/-- C47, first half: every stream of framed packets that fit the buffer (and are not longer than
65532 bytes) is dispatched exactly, whenever the bytes arrive. -/
theorem C47_packets_partial {buflen : Nat} (ps : List (UInt16 × List UInt8)) (ts : List (UInt32 × UInt8))
    (hps : ∀ cp ∈ ps, cp.2.length + 4 ≤ buflen ∧ cp.2.length ≤ 65532) (ht : ts.map Prod.snd = stream ps) :
    ∃ r qs, (Rcv.init buflen).feedAll ts = .ok (r, qs) ∧ qs.map delivered = ps.map Prod.snd ∧
      qs.map Pdu.len = ps.map fun cp => cp.2.length := by
  obtain ⟨r, qs, h1, -, h2, h3⟩ := feed_stream ps hps (Rcv.init buflen) ts (init_between buflen) ht
  exact ⟨r, qs, h1, h2, h3⟩

/-- C47, second half, is false for every buffer size up to 65535: a packet that does not fit makes the
receiver write outside of its buffer, also after any number of good packets. -/
theorem C47_fails_overrun {buflen : Nat} (h4 : 4 ≤ buflen) (ps : List (UInt16 × List UInt8))
    (hps : ∀ cp ∈ ps, cp.2.length + 4 ≤ buflen ∧ cp.2.length ≤ 65532) (c : UInt16) (p : List UInt8)
    (hp : p.length ≤ 65532) (hlong : buflen < p.length + 4) (ts : List (UInt32 × UInt8))
    (ht : ts.map Prod.snd = stream ps ++ framed c p) : (Rcv.init buflen).feedAll ts = .error .bufOob := by
  obtain ⟨ta, tb, rfl, hta, htb⟩ := map_snd_split ht
  obtain ⟨r1, qs, h1, hb, -, -⟩ := feed_stream ps hps (Rcv.init buflen) ta (init_between buflen) hta
  rw [feedAll_append h1]
  have hlt : buflen < (framed c p).length := by rw [framed_length]; omega
  have hsplit : framed c p = (framed c p).take buflen ++ (framed c p)[buflen] :: (framed c p).drop (buflen + 1) := by
    rw [← List.drop_eq_getElem_cons hlt, List.take_append_drop]
  rw [hsplit] at htb
  obtain ⟨tc, td, rfl, htc, htd⟩ := map_snd_split htb
  obtain ⟨r2, h2, hm⟩ := feed_prefix hb hp (by omega) hlong (by omega) htc
  rw [feedAll_append h2]
  cases td with
  | nil => simp at htd; omega
  | cons x td =>
    have hf : r2.feed x.1 x.2 = .error .bufOob := by
      unfold Rcv.feed
      rw [if_pos (by rw [hm.len, hm.index]; omega)]
    have : r2.feedAll (x :: td) = .error .bufOob := by
      simp only [Rcv.feedAll, hf]
      rfl
    rw [this]
    rfl

theorem C47_fails {buflen : Nat} (h4 : 4 ≤ buflen) (hb : buflen ≤ 65535) : ¬ SerialRight buflen := by
  rintro ⟨-, h⟩
  refine h ((framed 0 (List.replicate (buflen - 3) 0)).map fun o => (0, o)) ?_
  refine C47_fails_overrun h4 [] (by intro x hx; cases hx) 0 (List.replicate (buflen - 3) 0) (by simp; omega) (by simp; omega) _ ?_
  simp [stream, Function.comp_def]

/-- The two longest lengths wrap around: after the length bytes FF FF, the next byte completes a
"packet" of 65535 bytes. -/
theorem C47_fails_wrap : ((Rcv.init 68).feedAll [(0, 0xFF), (0, 0xFF), (0, 1)]).toOption.map (fun x => x.2.map Pdu.len) =
    some [65535] := by decide +kernel

/-- Driven by `XcpTl_MainFunction`, the wrong time-out (C48) drops packets: with the first byte at 1 ms and
the rest at 3 ms, CONNECT is not delivered, but an empty packet is. -/
theorem C47_fails_timeout :
    ((Rcv.init 68).mainAll ((1, 1, some 2) :: (3, 3, none) :: [0, 0, 0, 0xFF, 0].map fun o => (3, 3, some o))).toOption.map
      (fun x => x.2.map delivered) = some [[]] := by decide +kernel

/-- Two packets: CONNECT and GET_STATUS. -/
example : ((Rcv.init 68).feedAll ([2, 0, 0, 0, 0xFF, 0, 1, 0, 1, 0, 0xFD].map fun o => (0, o))).toOption.map
    (fun x => x.2.map delivered) = some [[0xFF, 0], [0xFD]] := by decide +kernel
example : stream [(0, [0xFF, 0]), (1, [0xFD])] = [2, 0, 0, 0, 0xFF, 0, 1, 0, 1, 0, 0xFD] := by decide

/-- The receiver keeps the counter of the packet it is receiving: the fourth byte of the header completes it (the third
is in the buffer). -/
theorem C47_counter {buflen n : Nat} {f : List UInt8} {r : Rcv} (hr : Mid buflen n 3 f r) (hb : 4 ≤ buflen) (h0 : n ≠ 0) (h1 : n < 65535)
    (now : UInt32) {c0 : UInt8} (hc : f[2]? = some c0) (c1 : UInt8) :
    ∃ r', r.feed now c1 = .ok (r', none) ∧ r'.ctr = c0.toNat + 256 * c1.toNat := by
  obtain ⟨hl, hi, hg, hs⟩ := hr
  rcases hs with ⟨h, -⟩ | ⟨-, hs, hd, hrem⟩
  · omega
  have e1 : ((n + 4 - 3) + 65535) % 65536 = n := by omega
  have hc2 : r.buf[2]? = some c0 := by
    have := congrArg (·[2]?) hg
    simpa [List.getElem?_take, hc] using this
  unfold Rcv.feed
  rw [if_neg (by omega)]
  simp only [hs, hi, if_true, hrem, e1, h0, if_false]
  refine ⟨_, rfl, ?_⟩
  have g3 : (r.buf.set 3 c1)[3]? = some c1 := List.getElem?_set_self (by omega)
  have g2 : (r.buf.set 3 c1)[2]? = some c0 := by rw [List.getElem?_set_ne (by omega), hc2]
  simp [sxiWord, g2, g3]

theorem feed_ctr (n : Nat) (r : Rcv) (now : UInt32) (o : UInt8) :
    ({ r with ctr := n }.feed now o).map (fun x : Rcv × Option Pdu => ({ x.1 with ctr := 0 }, x.2)) =
      (r.feed now o).map (fun x : Rcv × Option Pdu => ({ x.1 with ctr := 0 }, x.2)) := by
  obtain ⟨buf, st, i, rem, dlc, ctr, tm⟩ := r
  unfold Rcv.feed
  simp only
  split
  · rfl
  · cases st with
    | idle => rfl
    | untilLength => by_cases h : i = 1 <;> simp [h, Except.map]
    | remaining =>
      by_cases h : i = 3 <;> simp only [h, if_true, if_false] <;> by_cases h2 : (rem + 65535) % 65536 = 0 <;>
        simp [h2, Except.map, Rcv.resetSM]

/-- The counter makes no difference to what is delivered. -/
theorem C47_counter_unused (n : Nat) : ∀ (ts : List (UInt32 × UInt8)) (r : Rcv),
    ({ r with ctr := n }.feedAll ts).map Prod.snd = (r.feedAll ts).map Prod.snd := by
  intro ts
  induction ts generalizing n with
  | nil => intro r; rfl
  | cons t ts ih =>
    intro r
    have h := feed_ctr n r t.1 t.2
    simp only [Rcv.feedAll]
    cases ha : ({ r with ctr := n } : Rcv).feed t.1 t.2 with
    | error f =>
      rw [ha] at h
      cases hb : r.feed t.1 t.2 with
      | error g => rw [hb] at h; simp only [Except.map, Except.error.injEq] at h; subst h; rfl
      | ok y => rw [hb] at h; cases h
    | ok x =>
      rw [ha] at h
      cases hb : r.feed t.1 t.2 with
      | error g => rw [hb] at h; cases h
      | ok y =>
        rw [hb] at h
        simp only [Except.map, Except.ok.injEq, Prod.mk.injEq] at h
        obtain ⟨h1, h2⟩ := h
        have hx : x.1 = { y.1 with ctr := x.1.ctr } := by
          have := congrArg (fun z : Rcv => { z with ctr := x.1.ctr }) h1
          exact this
        have hi := ih x.1.ctr y.1
        rw [← hx] at hi
        simp only [bind, Except.bind, h2]
        cases hc : x.1.feedAll ts with
        | error f =>
          rw [hc] at hi
          cases hd : y.1.feedAll ts with
          | error g => rw [hd] at hi; simp only [Except.map, Except.error.injEq] at hi; subst hi; rfl
          | ok z => rw [hd] at hi; cases hi
        | ok w =>
          rw [hc] at hi
          cases hd : y.1.feedAll ts with
          | error g => rw [hd] at hi; cases hi
          | ok z =>
            rw [hd] at hi
            simp only [Except.map, Except.ok.injEq] at hi
            simp only [hi]
            rfl

/-- CONNECT with the counter 0x1234: it is kept. -/
example : ((Rcv.init 68).feedAll ([2, 0, 0x34, 0x12].map fun o => (0, o))).toOption.map (fun x => x.1.ctr) = some 0x1234 := by decide +kernel

end Xcp
