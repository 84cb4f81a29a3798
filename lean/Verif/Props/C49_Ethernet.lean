import Verif.Proofs.Eth
import Verif.Spec.Transport
import Verif.Model.Example
/-
C49: Ethernet framing is independent of TCP segmentation.

Proved for segmentations that split no header.  False in general: a split header is read from
the wrong place, a length above the buffer size is not checked before storing, an
error of `recv` is taken for 255 received bytes.  With UDP no packet is ever received.
-/
set_option autoImplicit false
namespace Xcp
open Spec

/-- C49 in full, for a receiver of a configuration: every segmentation of a stream of packets gives exactly these
packets, and nothing is written outside of the buffers. -/
def Spec.EthernetRight (cfg : Cfg) : Prop :=
  (∀ junk ps segs, junk.length = 8 → (∀ cp ∈ ps, cp.2 ≠ [] ∧ cp.2.length ≤ cfg.maxCto) → Segments segs (stream ps) →
    ∃ qs r, (Eth.init cfg true junk).rxHandler (segs.map .data) = .ok (qs, r) ∧ qs.map delivered = ps.map Prod.snd) ∧
  ∀ junk as, junk.length = 8 → (Eth.init cfg true junk).rxHandler as ≠ .error .bufOob

theorem stream_cons (cp : UInt16 × List UInt8) (ps : List (UInt16 × List UInt8)) : stream (cp :: ps) = framed cp.1 cp.2 ++ stream ps := by
  simp [stream]

theorem Spec.HeadersIntact.first {cp : UInt16 × List UInt8} {ps : List (UInt16 × List UInt8)} {s : List UInt8} {ss : List (List UInt8)}
    (h : HeadersIntact (cp :: ps) (s :: ss)) (hs : s ≠ []) : 4 ≤ s.length := by
  have := h [s] ss [] cp ps rfl rfl
  have hl : s.length ≠ 0 := fun h => hs (List.length_eq_zero_iff.mp h)
  simp [stream] at this
  omega

/-- The remaining pieces, after the first packet, split no header. -/
theorem Spec.HeadersIntact.rest {cp : UInt16 × List UInt8} {ps : List (UInt16 × List UInt8)} {ss : List (List UInt8)}
    (h : HeadersIntact (cp :: ps) ss) (hn : cp.2.length + 4 ≤ ss.flatten.length) :
    HeadersIntact ps (cutOff (cp.2.length + 4) ss) := by
  intro pre suf a c b hsp hps hcut
  by_cases hpre : pre = []
  · subst hpre
    simp at hcut
  · obtain ⟨pre0, h1, h2⟩ := cutOff_prefix ss _ pre suf hsp hpre hn
    refine h pre0 suf (cp :: a) c b h1 (by rw [hps]; rfl) ?_
    rw [stream_cons, List.length_append, framed_length', h2]
    omega

theorem cutOff_cutOff (ss : List (List UInt8)) : ∀ m n, (∀ s ∈ ss, s ≠ []) → cutOff n (cutOff m ss) = cutOff (m + n) ss := by
  induction ss with
  | nil => intros; simp [cutOff]
  | cons s ss ih =>
    intro m n hne
    have hs : s.length ≠ 0 := fun h => hne s (List.mem_cons_self ..) (List.length_eq_zero_iff.mp h)
    by_cases hm : m = 0
    · subst hm
      rw [cutOff_zero, Nat.zero_add]
    · by_cases h1 : m < s.length
      · rw [show cutOff m (s :: ss) = s.drop m :: ss by rw [cutOff, if_neg hm, if_pos h1]]
        by_cases hn : n = 0
        · subst hn
          rw [cutOff_zero, Nat.add_zero, cutOff, if_neg hm, if_pos h1]
        · simp only [cutOff, List.length_drop, List.drop_drop]
          rw [if_neg hn, if_neg (by omega : m + n ≠ 0)]
          by_cases h2 : m + n < s.length
          · rw [if_pos (by omega), if_pos h2]
          · rw [if_neg (by omega), if_neg h2]
            congr 1
            omega
      · rw [show cutOff m (s :: ss) = cutOff (m - s.length) ss by rw [cutOff, if_neg hm, if_neg h1],
          ih _ _ (fun s hs => hne s (List.mem_cons_of_mem _ hs))]
        rw [show cutOff (m + n) (s :: ss) = cutOff (m + n - s.length) ss by rw [cutOff, if_neg (by omega), if_neg (by omega)]]
        congr 1
        omega

/-- One packet at the front of the pieces. -/
theorem rxLoop_packet {e : Eth} (htcp : e.tcp = true) (hj : e.junk.length = 8) {fuel : Nat} {cp : UInt16 × List UInt8}
    {ps : List (UInt16 × List UInt8)} {segs : List (List UInt8)} (hs : Segments segs (stream (cp :: ps)))
    (hi : HeadersIntact (cp :: ps) segs) (h0 : cp.2 ≠ []) (h16 : cp.2.length < 65536) :
    (cp.2.length ≤ e.rx.length → cp.2.length ≤ e.ctoIn.length → ∃ rx, rx.length = e.rx.length ∧
      e.rxLoop (fuel + 1) (segs.map .data) =
        match Eth.rxLoop { e with rx := rx, ctoIn := cp.2 ++ e.ctoIn.drop cp.2.length } fuel
          ((cutOff (cp.2.length + 4) segs).map .data) with
        | .error f => .error f
        | .ok (qs, r) => .ok (⟨cp.2.length, cp.2 ++ e.ctoIn.drop cp.2.length⟩ :: qs, r)) ∧
    (e.rx.length < cp.2.length → e.rxLoop (fuel + 1) (segs.map .data) = .error .bufOob) ∧
    (cp.2.length ≤ e.rx.length → e.ctoIn.length < cp.2.length → e.rxLoop (fuel + 1) (segs.map .data) = .error .assertFail) := by
  obtain ⟨hne, hfl⟩ := hs
  have hlen0 : cp.2.length ≠ 0 := fun h => h0 (List.length_eq_zero_iff.mp h)
  have htot : cp.2.length + 4 ≤ segs.flatten.length := by
    rw [hfl, stream_cons, List.length_append, framed_length']; omega
  cases segs with
  | nil => simp at htot
  | cons s ss =>
    have h4 := hi.first (hne s (List.mem_cons_self ..))
    rw [stream_cons] at hfl
    obtain ⟨ctr, hh⟩ := readHeader_ok hj h16 hfl h4
    have hne' := cutOff_ne (s :: ss) hne 4
    have hfl' : (cutOff 4 (s :: ss)).flatten = cp.2 ++ stream ps := by
      rw [cutOff_flatten, hfl]
      simp [framed]
    have htake : (cutOff 4 (s :: ss)).flatten.take cp.2.length = cp.2 := by
      rw [hfl', List.take_left]
    have hle : cp.2.length ≤ (cutOff 4 (s :: ss)).flatten.length := by rw [hfl', List.length_append]; omega
    have hcut : cutOff cp.2.length (cutOff 4 (s :: ss)) = cutOff (cp.2.length + 4) (s :: ss) := by
      rw [cutOff_cutOff _ _ _ hne]
      congr 1
      omega
    refine ⟨?_, ?_, ?_⟩
    · intro hrx hcto
      have hd := readDataLoop_ok _ hne' e.rx cp.2.length 0 (by omega) hle (by omega)
      rw [htake, hcut] at hd
      refine ⟨storeAt e.rx 0 cp.2, storeAt_length (by omega), ?_⟩
      rw [Eth.rxLoop, htcp, hh]
      simp only [readData]
      rw [if_neg hlen0, hd]
      simp only
      rw [if_neg (by omega)]
      have e1 : storeAt e.ctoIn 0 ((storeAt e.rx 0 cp.2).take cp.2.length) = cp.2 ++ e.ctoIn.drop cp.2.length := by
        simp [storeAt]
      rw [e1]
      generalize Eth.rxLoop _ fuel _ = x
      cases x <;> rfl
    · intro hrx
      have hd := readDataLoop_oob _ hne' e.rx cp.2.length 0 (by omega) hle (by omega)
      rw [Eth.rxLoop, htcp, hh]
      simp only [readData]
      rw [if_neg hlen0, hd]
    · intro hrx hcto
      have hd := readDataLoop_ok _ hne' e.rx cp.2.length 0 (by omega) hle (by omega)
      rw [Eth.rxLoop, htcp, hh]
      simp only [readData]
      rw [if_neg hlen0, hd]
      simp only
      rw [if_pos hcto]

theorem rest_segments {cp : UInt16 × List UInt8} {ps : List (UInt16 × List UInt8)} {segs : List (List UInt8)}
    (hs : Segments segs (stream (cp :: ps))) : Segments (cutOff (cp.2.length + 4) segs) (stream ps) := by
  refine ⟨cutOff_ne _ hs.1 _, ?_⟩
  rw [cutOff_flatten, hs.2, stream_cons, List.drop_left' (framed_length' _ _)]

/-- All packets of a stream, then whatever comes after. -/
theorem rxLoop_stream (ps : List (UInt16 × List UInt8)) : ∀ (e : Eth) (fuel : Nat) (segs : List (List UInt8)), e.tcp = true →
    e.junk.length = 8 → (∀ cp ∈ ps, cp.2 ≠ [] ∧ cp.2.length < 65536 ∧ cp.2.length ≤ e.rx.length ∧ cp.2.length ≤ e.ctoIn.length) →
    Segments segs (stream ps) → HeadersIntact ps segs → ps.length < fuel →
    ∃ r, e.rxLoop fuel (segs.map .data) = .ok (inBuffer e.ctoIn (ps.map Prod.snd), .released, r) := by
  induction ps with
  | nil =>
    intro e fuel segs htcp hj _ hs _ hf
    have : segs = [] := by
      cases segs with
      | nil => rfl
      | cons s ss =>
        have := hs.2
        simp [stream] at this
        exact absurd this.1 (hs.1 s (List.mem_cons_self ..))
    subst this
    obtain ⟨n, rfl⟩ : ∃ n, fuel = n + 1 := ⟨fuel - 1, by simp at hf; omega⟩
    exact ⟨_, rfl⟩
  | cons cp ps ih =>
    intro e fuel segs htcp hj hp hs hi hf
    simp only [List.length_cons] at hf
    obtain ⟨n, rfl⟩ : ∃ n, fuel = n + 1 := ⟨fuel - 1, by omega⟩
    obtain ⟨h0, h16, hrx, hcto⟩ := hp cp (List.mem_cons_self ..)
    obtain ⟨rx, hrl, hstep⟩ := (rxLoop_packet (fuel := n) htcp hj hs hi h0 h16).1 hrx hcto
    have htot : cp.2.length + 4 ≤ segs.flatten.length := by
      rw [hs.2, stream_cons, List.length_append, framed_length']; omega
    have hclen : (cp.2 ++ e.ctoIn.drop cp.2.length).length = e.ctoIn.length := by
      simp only [List.length_append, List.length_drop]; omega
    obtain ⟨r, hr⟩ := ih { e with rx := rx, ctoIn := cp.2 ++ e.ctoIn.drop cp.2.length } n _ htcp hj
      (by
        intro x hx
        obtain ⟨a, b, c, d⟩ := hp x (List.mem_cons_of_mem _ hx)
        exact ⟨a, b, by simp only [hrl]; exact c, by simp only [hclen]; exact d⟩)
      (rest_segments hs) (hi.rest htot) (by omega)
    rw [hstep, hr]
    exact ⟨r, rfl⟩

theorem map_data_size (segs : List (List UInt8)) : Arrivals.size (segs.map .data) = segs.flatten.length + segs.length := by
  induction segs with
  | nil => rfl
  | cons s ss ih =>
    have : Arrivals.size ((s :: ss).map .data) = s.length + 1 + Arrivals.size (ss.map .data) := by simp [Arrivals.size]
    rw [this, ih, List.flatten_cons, List.length_append, List.length_cons]
    omega

theorem stream_length_ge (ps : List (UInt16 × List UInt8)) : ps.length ≤ (stream ps).length := by
  induction ps with
  | nil => simp
  | cons cp ps ih => rw [stream_cons, List.length_append, framed_length', List.length_cons]; omega

theorem delivered_inBuffer (ps : List (List UInt8)) : ∀ buf, (inBuffer buf ps).map delivered = ps := by
  induction ps with
  | nil => intro buf; rfl
  | cons p ps ih => intro buf; simp [inBuffer, delivered, ih]

/-- C49, first half, for segmentations that split no header: the slave gets exactly the packets sent, in
the same buffers, whatever the segmentation. -/
theorem C49_packets_partial {cfg : Cfg} (hok : cfg.maxCto ≤ 255) (hl : cfg.lenSize + cfg.ctrSize ≤ 4) {junk : List UInt8}
    (hj : junk.length = 8) (ps : List (UInt16 × List UInt8)) (segs : List (List UInt8))
    (hps : ∀ cp ∈ ps, cp.2 ≠ [] ∧ cp.2.length ≤ cfg.maxCto + cfg.lenSize + cfg.ctrSize) (hs : Segments segs (stream ps))
    (hi : HeadersIntact ps segs) :
    ∃ r, (Eth.init cfg true junk).rxHandler (segs.map .data) =
      .ok (inBuffer (List.replicate (cfg.maxCto + cfg.lenSize + cfg.ctrSize) 0) (ps.map Prod.snd), .released, r) := by
  unfold Eth.rxHandler
  have := rxLoop_stream ps { Eth.init cfg true junk with rx := List.replicate (Eth.init cfg true junk).rx.length 0 }
    (Arrivals.size (segs.map .data) + 1) segs rfl hj
    (by
      intro cp hcp
      obtain ⟨h0, h1⟩ := hps cp hcp
      refine ⟨h0, by omega, ?_, ?_⟩
      · simp only [Eth.init, List.length_replicate, commBufLen]; omega
      · simp only [Eth.init, List.length_replicate]; omega)
    hs hi (by
      rw [map_data_size, hs.2]
      have := stream_length_ge ps
      omega)
  exact this

/-- C49, first half, what is delivered. -/
theorem C49_delivered_partial {cfg : Cfg} (hok : cfg.maxCto ≤ 255) (hl : cfg.lenSize + cfg.ctrSize ≤ 4) {junk : List UInt8}
    (hj : junk.length = 8) (ps : List (UInt16 × List UInt8)) (segs : List (List UInt8))
    (hps : ∀ cp ∈ ps, cp.2 ≠ [] ∧ cp.2.length ≤ cfg.maxCto) (hs : Segments segs (stream ps)) (hi : HeadersIntact ps segs) :
    ∃ qs r, (Eth.init cfg true junk).rxHandler (segs.map .data) = .ok (qs, r) ∧ qs.map delivered = ps.map Prod.snd := by
  obtain ⟨r, hr⟩ := C49_packets_partial hok hl hj ps segs (fun cp hcp => ⟨(hps cp hcp).1, by have := (hps cp hcp).2; omega⟩) hs hi
  exact ⟨_, _, hr, delivered_inBuffer _ _⟩

/-- C49, second half, is false: a packet longer than the buffer is stored outside of it,
with every segmentation that splits no header. -/
theorem C49_fails_oversized {cfg : Cfg} {junk : List UInt8}
    (hj : junk.length = 8) (c : UInt16) (p : List UInt8) (hp : commBufLen cfg < p.length) (h16 : p.length < 65536)
    (segs : List (List UInt8)) (hs : Segments segs (framed c p)) (hi : HeadersIntact [(c, p)] segs) :
    (Eth.init cfg true junk).rxHandler (segs.map .data) = .error .bufOob := by
  unfold Eth.rxHandler
  refine (rxLoop_packet (cp := (c, p)) (ps := []) rfl hj (by rw [stream_cons]; simpa [stream] using hs) hi ?_ h16).2.1 ?_
  · intro h
    simp only at h
    rw [h] at hp
    simp at hp
  · simp only [Eth.init, List.length_replicate]
    exact hp

/-- Lengths between the two buffer sizes fail the assertion. -/
theorem C49_fails_assert {cfg : Cfg} {junk : List UInt8} (hj : junk.length = 8) (c : UInt16) (p : List UInt8)
    (hp : p.length ≤ commBufLen cfg) (hc : cfg.maxCto + cfg.lenSize + cfg.ctrSize < p.length) (h16 : p.length < 65536)
    (segs : List (List UInt8)) (hs : Segments segs (framed c p)) (hi : HeadersIntact [(c, p)] segs) :
    (Eth.init cfg true junk).rxHandler (segs.map .data) = .error .assertFail := by
  unfold Eth.rxHandler
  refine (rxLoop_packet (cp := (c, p)) (ps := []) rfl hj (by rw [stream_cons]; simpa [stream] using hs) hi ?_ h16).2.2 ?_ ?_
  · intro h
    simp only at h
    rw [h] at hc
    simp at hc
  · simp only [Eth.init, List.length_replicate]
    exact hp
  · simp only [Eth.init, List.length_replicate]
    exact hc

/-- A header split after two bytes: the receiver takes the counter for the length. -/
theorem C49_split_exact {junk : List UInt8} (hj : junk.length = 8) (c : UInt16) (p : List UInt8) (rest : Arrivals) :
    ∃ x, readHeader true junk (.data ((framed c p).take 2) :: .data ((framed c p).drop 2) :: rest) =
      .ok (.done (c.toNat, x) (leftover true ((framed c p).drop 2) 2 rest)) := by
  match junk, hj with
  | [j0, j1, j2, j3, j4, j5, j6, j7], _ =>
    have := c.toNat_lt
    simp [readHeader, readHeaderLoop, framed, storeAt, headerWord]
    omega

/-- A header split anywhere: the receiver takes length and counter from the bytes after the split, and from bytes behind
the header which it never received. -/
theorem C49_split_anywhere {junk : List UInt8} (hj : junk.length = 8) (c : UInt16) (p : List UInt8) (rest : Arrivals) {k : Nat}
    (h0 : 0 < k) (h4 : k < 4) :
    readHeader true junk (.data ((framed c p).take k) :: .data ((framed c p).drop k) :: rest) =
      .ok (.done (leVal ((((framed c p).take 4 ++ junk.drop 4).drop k).take 2), leVal ((((framed c p).take 4 ++ junk.drop 4).drop (k + 2)).take 2))
        (leftover true ((framed c p).drop k) (4 - k) rest)) := by
  match junk, hj with
  | [j0, j1, j2, j3, j4, j5, j6, j7], _ =>
    have hk : k = 1 ∨ k = 2 ∨ k = 3 := by omega
    rcases hk with rfl | rfl | rfl
    all_goals simp [readHeader, readHeaderLoop, framed, storeAt, headerWord, leVal]

/-- CONNECT, with the header split after two bytes, is lost: the slave gets nothing. -/
theorem C49_fails_split : (do
    let (ps, r) ← (Eth.init Ex.sim true (List.replicate 8 0)).rxHandler [.data [2, 0], .data [0, 0, 0xFF, 0]]
    pure (ps, r.1) : Except Fault (List Pdu × RxEnd)).toOption = some ([], .emptyData) := by decide +kernel

/-- The same bytes in one piece: CONNECT is delivered. -/
example : (do
    let (ps, r) ← (Eth.init Ex.sim true (List.replicate 8 0)).rxHandler [.data [2, 0, 0, 0, 0xFF, 0]]
    pure (ps.map delivered, r.1) : Except Fault (List (List UInt8) × RxEnd)).toOption = some ([[0xFF, 0]], .released) := by
  decide +kernel

/-- Two packets in three pieces, the second piece has the end of the first packet and all of the second header. -/
example : (do
    let (ps, r) ← (Eth.init Ex.sim true (List.replicate 8 0)).rxHandler
      [.data [2, 0, 0, 0, 0xFF], .data [0, 8, 0, 1, 0, 0xF5, 4], .data [0, 0, 1, 2, 3, 4]]
    pure (ps.map delivered, r.1) : Except Fault (List (List UInt8) × RxEnd)).toOption =
      some ([[0xFF, 0], [0xF5, 4, 0, 0, 1, 2, 3, 4]], .released) := by
  decide +kernel

/-- C49 is false for the configuration of the simulator. -/
theorem C49_fails : ¬ EthernetRight Ex.sim := by
  intro h
  obtain ⟨qs, r, h1, h2⟩ := h.1 (List.replicate 8 0) [(0, [0xFF, 0])] [[2, 0], [0, 0, 0xFF, 0]] rfl (by decide) ⟨by decide, by decide⟩
  have h3 := C49_fails_split
  rw [show ([[2, 0], [0, 0, 0xFF, 0]] : List (List UInt8)).map Arrival.data = [.data [2, 0], .data [0, 0, 0xFF, 0]] from rfl] at h1
  rw [h1] at h3
  simp only [bind, Except.bind, pure, Except.pure, Except.toOption, Option.some.injEq, Prod.mk.injEq] at h3
  rw [h3.1] at h2
  simp at h2

/-- A failed `recv` is taken for 255 bytes; the next data are stored outside of the header buffer. -/
theorem C49_fails_error {cfg : Cfg} {tcp : Bool} {junk : List UInt8} (hj : junk.length = 8) (bs : List UInt8) (hb : bs ≠ []) (rest : Arrivals) :
    (Eth.init cfg tcp junk).rxHandler (.err :: .data bs :: rest) = .error .bufOob := by
  have hl : bs.length ≠ 0 := fun h => hb (List.length_eq_zero_iff.mp h)
  have : readHeader tcp junk (.err :: .data bs :: rest) = .error .bufOob := by
    simp only [readHeader, readHeaderLoop, hj]
    rw [if_neg (by omega), if_neg (by omega), if_pos (by omega)]
  unfold Eth.rxHandler
  rw [Eth.rxLoop]
  simp only [Eth.init, this]

/-- If `recv` fails when one byte of a header has arrived, that byte is forgotten: whatever comes next counts as the beginning of a packet. -/
theorem C49_fails_forgets {tcp : Bool} {junk : List UInt8} (hj : junk.length = 8) (x : UInt8) (rest : Arrivals) :
    readHeader tcp junk (.data [x] :: .err :: rest) = readHeader tcp (x :: junk.drop 1) rest := by
  match junk, hj with
  | j :: junk, hj =>
    simp only [readHeader]
    rw [readHeaderLoop]
    simp only [List.length_singleton, hj]
    rw [if_neg (by omega), if_neg (by omega), if_neg (by omega), readHeaderLoop, if_neg (by omega)]
    simp [storeAt]

theorem header_errors {tcp : Bool} {buf : List UInt8} (hj : buf.length = 8) (rest : Arrivals) : ∀ j ≤ 251,
    readHeaderLoop tcp (List.replicate (j + 1) .err ++ rest) buf (255 - j) ((5 + j) % 256) = .error .bufOob
  | 0, _ => by
    rw [List.replicate_succ, List.cons_append, readHeaderLoop, if_pos (by omega), if_pos (by omega)]
  | j + 1, h => by
    rw [List.replicate_succ, List.cons_append, readHeaderLoop, if_neg (by omega)]
    have := header_errors (tcp := tcp) hj rest j (by omega)
    rw [show (255 - (j + 1) + 1) % 256 = 255 - j by omega, show ((5 + (j + 1)) % 256 + 255) % 256 = (5 + j) % 256 by omega]
    exact this

/-- A connection on which `recv` always fails (it was reset, say) is never given up: the loop goes round until, at the 252nd failure, the
number of missing bytes is 0, and the header is read outside of its buffer. -/
theorem C49_fails_errors {tcp : Bool} {junk : List UInt8} (hj : junk.length = 8) (rest : Arrivals) :
    readHeader tcp junk (List.replicate 252 .err ++ rest) = .error .bufOob := header_errors hj rest 251 (by omega)

/-- With fewer failures nothing is reported either. -/
theorem C49_errors_ignored {tcp : Bool} {junk : List UInt8} {n : Nat} (hn : n < 252) :
    readHeader tcp junk (List.replicate n .err) = .ok (.closed []) := by
  have : ∀ n rem off, rem + n < 256 → readHeaderLoop tcp (List.replicate n .err) junk rem off = .ok (.closed []) := by
    intro n
    induction n with
    | zero => intro rem off _; rfl
    | succ n ih =>
      intro rem off h
      rw [List.replicate_succ, readHeaderLoop, if_neg (by omega)]
      exact ih _ _ (by omega)
  exact this n 4 0 (by omega)

theorem data_errors {tcp : Bool} {buf : List UInt8} (rest : Arrivals) : ∀ (j rem off : Nat), rem + j + 1 = 65536 →
    readDataLoop tcp (List.replicate (j + 1) .err ++ rest) buf rem off = .ok (.done buf rest)
  | 0, rem, off, h => by
    rw [List.replicate_succ, List.cons_append, readDataLoop, if_pos (by omega)]
    rfl
  | j + 1, rem, off, h => by
    rw [List.replicate_succ, List.cons_append, readDataLoop, if_neg (by omega)]
    exact data_errors rest j _ _ (by omega)

/-- The same in the middle of a packet: when `recv` has failed often enough, the old contents of the buffer are taken for the packet. -/
theorem C49_fails_data_errors {tcp : Bool} {buf : List UInt8} {len off : Nat} (hl : len < 65536) (rest : Arrivals) :
    readDataLoop tcp (List.replicate (65536 - len) .err ++ rest) buf len off = .ok (.done buf rest) := by
  have := data_errors (tcp := tcp) (buf := buf) rest (65535 - len) len off (by omega)
  rwa [show 65535 - len + 1 = 65536 - len by omega] at this

/-- UDP: reading the header discards the rest of the datagram, so one packet gives nothing at all. -/
theorem C49_fails_udp {cfg : Cfg} {junk : List UInt8} (hj : junk.length = 8) (c : UInt16) (p : List UInt8) :
    ∃ e r, (Eth.init cfg false junk).rxHandler [.data (framed c p)] = .ok ([], e, r) := by
  match junk, hj with
  | [j0, j1, j2, j3, j4, j5, j6, j7], _ =>
    have hlen := framed_length' c p
    unfold Eth.rxHandler
    rw [Eth.rxLoop]
    have hh : ∃ x, readHeader false [j0, j1, j2, j3, j4, j5, j6, j7] [.data (framed c p)] = .ok (.done x []) := by
      simp only [readHeader, readHeaderLoop, Nat.min_eq_left (by omega : 4 ≤ (framed c p).length)]
      have h8 : (storeAt [j0, j1, j2, j3, j4, j5, j6, j7] 0 ((framed c p).take 4)).length = 8 :=
        storeAt_length (by rw [List.length_take]; simp; omega)
      rw [if_neg (by omega), if_neg (by simp), if_pos trivial, if_neg (by omega)]
      exact ⟨_, rfl⟩
    obtain ⟨x, hx⟩ := hh
    simp only [Eth.init, hx]
    unfold readData
    split
    · next h =>
      split at h
      · cases h
      · simp [readDataLoop] at h
    · exact ⟨_, _, rfl⟩
    · next h =>
      split at h
      · cases h
      · simp [readDataLoop] at h

/-- UDP: the header of the second datagram is taken for the payload of the first. -/
theorem C49_fails_udp_two : (do
    let (ps, _) ← (Eth.init Ex.sim false (List.replicate 8 0)).rxHandler [.data [2, 0, 0, 0, 0xFF, 0], .data [2, 0, 1, 0, 0xFD, 0]]
    pure (ps.map delivered) : Except Fault (List (List UInt8))).toOption = some [[2, 0]] := by decide +kernel

end Xcp
