import Verif.Props.C79_Remote
import Verif.Props.C67_Tcp
/-
C80: a tool that is connected by TCP gets the answers of the remote memory, byte for byte.
-/
set_option autoImplicit false
namespace Xcp
open Spec

/-- A tool: its requests with their counters, and how TCP cuts them into pieces. -/
structure Spec.Tool where
  env : Env
  requests : List (UInt16 × Req)
  segs : List (List UInt8)

def Spec.Tool.client (t : Tool) : Client := ⟨t.env, t.requests.map fun x => (x.1, x.2.bytes), t.segs⟩

/-- The pieces make up the requests, and no header is split (see C49). -/
def Spec.Tool.Sends (t : Tool) : Prop :=
  Segments t.segs (stream (t.requests.map fun x => (x.1, x.2.bytes))) ∧ HeadersIntact (t.requests.map fun x => (x.1, x.2.bytes)) t.segs

/-- Packets with their counters: 0, 1, 2, … -/
def Spec.numbered (ps : List (List UInt8)) : List (UInt16 × List UInt8) := ps.zipIdx.map fun x => (UInt16.ofNat x.2, x.1)

theorem legal_length {cfg : Cfg} (hp : Plain cfg) {r : Remote} {q : Req} (h : Legal cfg r q) : q.bytes ≠ [] ∧ q.bytes.length ≤ cfg.maxCto := by
  have h8 := hp.ok.cto_lo
  cases q
  case download data => simp only [Legal] at h; simp [Req.bytes]; omega
  case downloadMax data => simp only [Legal] at h; simp [Req.bytes]; omega
  case shortDownload ext addr data => simp only [Legal] at h; simp [Req.bytes, enc_four]; omega
  case modifyBits sh ma mx => simp [Req.bytes, enc]; omega
  all_goals simp [Req.bytes, enc_four]; try omega

theorem allLegal_length {cfg : Cfg} (hp : Plain cfg) {k : About} : ∀ (qs : List Req) {r : Remote}, AllLegal cfg k r (qs.map .request) →
    ∀ q ∈ qs, q.bytes ≠ [] ∧ q.bytes.length ≤ cfg.maxCto
  | [], _, _, _, h => by cases h
  | q :: qs, r, hl, x, hx => by
    simp only [List.map_cons, AllLegal] at hl
    rcases List.mem_cons.mp hx with rfl | hx
    · exact legal_length hp (hl.1 _ rfl)
    · exact allLegal_length hp qs hl.2 x hx

/-- Requests in the receive buffer, as happenings. -/
theorem in_ops : ∀ (xs : List (Env × Req)) (buf : List UInt8), ∃ hs : List (Around × Happening),
    ops hs = List.zipWith (fun env p => (env, .cmd p)) (xs.map Prod.fst) (inBuffer buf (xs.map (·.2.bytes))) ∧
    hs.map (·.2) = xs.map (fun x => .request x.2) ∧ hs.map (·.1.env) = xs.map Prod.fst
  | [], _ => ⟨[], rfl, rfl, rfl⟩
  | x :: xs, buf => by
    obtain ⟨hs, h1, h2, h3⟩ := in_ops xs (x.2.bytes ++ buf.drop x.2.bytes.length)
    refine ⟨(⟨x.1, x.2.bytes.length, buf.drop x.2.bytes.length⟩, .request x.2) :: hs, ?_, ?_, ?_⟩
    · have e : ∀ (y : Around × Happening) ys, ops (y :: ys) = (y.1.env, y.2.op y.1.len y.1.behind) :: ops ys := fun _ _ => rfl
      rw [e, h1]
      rfl
    · simp [h2]
    · simp [h3]

theorem leVal_two {l : List UInt8} (h : l.length = 2) {n : Nat} (hv : leVal l = n % 65536) : l = [UInt8.ofNat n, UInt8.ofNat (n / 256)] := by
  match l, h with
  | [a, b], _ =>
    simp only [leVal] at hv
    have ha := a.toNat_lt
    have hb := b.toNat_lt
    simp only [List.cons.injEq, and_true]
    refine ⟨UInt8.toNat_inj.mp ?_, UInt8.toNat_inj.mp ?_⟩ <;> simp <;> omega

/-- The bytes of the frames. -/
theorem wire_payloads {cfg : Cfg} (hc : cfg.Ok) (hl : cfg.lenSize = 2) (hn : cfg.ctrSize = 2) {mem : Mem}
    {h : List (Env × Op)} {s : St} (hr : run cfg (St.init cfg mem) h = .ok s) :
    s.tx.map Frame.bytes = (numbered (s.tx.map (payload cfg))).map fun cp => framed cp.1 cp.2 := by
  apply List.ext_getElem?
  intro i
  simp only [numbered, List.map_map, List.getElem?_map, List.getElem?_zipIdx]
  by_cases hi : i < s.tx.length
  · have hf : s.tx[i]? = some s.tx[i] := List.getElem?_eq_getElem hi
    rw [hf]
    simp only [Option.map_some, Function.comp_apply, Nat.zero_add]
    congr 1
    obtain ⟨l, c, p, g1, g2, g3, g4, g5, -⟩ := (run_tx hc hr).frames i _ hf
    rw [hl] at g2 g4
    rw [hn] at g3 g5
    have e1 := leVal_two g2 g4
    have e2 := leVal_two g3 g5
    have hpay : payload cfg s.tx[i] = p := by
      simp only [payload, g1, hl, hn, e1, e2]
      rfl
    rw [hpay, g1, e1, e2]
    have m1 : UInt8.ofNat (i % 65536) = UInt8.ofNat i := UInt8.toNat_inj.mp (by simp)
    have m2 : UInt8.ofNat (i % 65536 / 256) = UInt8.ofNat (i / 256) := UInt8.toNat_inj.mp (by simp; try omega)
    simp [framed, m1, m2]
  · rw [List.getElem?_eq_none (by omega)]
    rfl

theorem carryAll_payloads {cfg : Cfg} (hm : cfg.maxDlc = false) : ∀ {fs : List Frame} {as : List (List UInt8)}, CarryAll cfg fs as → fs.map (payload cfg) = as
  | [], [], _ => rfl
  | [], _ :: _, h => h.elim
  | _ :: _, [], h => h.elim
  | f :: fs, a :: as, ⟨⟨_, h1, h2⟩, h⟩ => by
    simp only [hm, Bool.false_eq_true, if_false] at h2
    rw [List.map_cons, carryAll_payloads hm h]
    congr 1
    rw [← h1, ← h2, List.take_length]

theorem wire_frames {cfg : Cfg} (hc : cfg.Ok) (hl : cfg.lenSize = 2) (hn : cfg.ctrSize = 2) (hm : cfg.maxDlc = false) {mem : Mem}
    {h : List (Env × Op)} {s : St} (hr : run cfg (St.init cfg mem) h = .ok s) {as : List (List UInt8)} (ha : CarryAll cfg s.tx as) :
    s.tx.map Frame.bytes = (numbered as).map fun cp => framed cp.1 cp.2 := by
  rw [wire_payloads hc hl hn hr, carryAll_payloads hm ha]

theorem wire_bytes {cfg : Cfg} (hc : cfg.Ok) (hl : cfg.lenSize = 2) (hn : cfg.ctrSize = 2) (hm : cfg.maxDlc = false) {mem : Mem}
    {h : List (Env × Op)} {s : St} (hr : run cfg (St.init cfg mem) h = .ok s) {as : List (List UInt8)} (ha : CarryAll cfg s.tx as) :
    (s.tx.map Frame.bytes).flatten = stream (numbered as) := by
  rw [wire_frames hc hl hn hm hr ha]
  rfl

/-- C80. -/
theorem C80_tcp {cfg : Cfg} (hp : Plain cfg) (hl : cfg.lenSize = 2) (hn : cfg.ctrSize = 2) (hm : cfg.maxDlc = false) {k : About}
    {ts : List Tool} (hd : Describes k cfg (ts.map (·.env))) {mem : Mem} {mode : UInt8} {qs : List Req}
    (hfirst : (ts.flatMap fun t => t.requests.map (·.2)) = .connect mode :: qs)
    (hleg : AllLegal cfg k ⟨mem, 0, 0, true⟩ (qs.map .request)) (hs : ∀ t ∈ ts, t.Sends) {junk : List UInt8} (hj : junk.length = 8) :
    ∃ x, tcpServe cfg (TcpSrv.init cfg mem junk) (ts.map fun t => (t.env, t.segs.map .data)) = .ok x ∧
      (x.s.tx.map Frame.bytes).flatten = stream (numbered (Remote.answers k ⟨mem, 0, 0, true⟩ (.request (.connect mode) :: qs.map .request))) ∧
      x.s.mem = (Remote.final k ⟨mem, 0, 0, true⟩ (qs.map .request)).mem := by
  have h8 := hp.ok.cto_lo
  have h9 := hp.ok.cto_hi
  have hlens : ∀ t ∈ ts, ∀ x ∈ t.requests, x.2.bytes ≠ [] ∧ x.2.bytes.length ≤ cfg.maxCto := by
    intro t ht x hx
    have hx : x.2 ∈ ts.flatMap fun t => t.requests.map (·.2) := List.mem_flatMap.mpr ⟨t, ht, List.mem_map.mpr ⟨x, hx, rfl⟩⟩
    rw [hfirst] at hx
    rcases List.mem_cons.mp hx with h | h
    · rw [h]; exact legal_length hp (r := ⟨mem, 0, 0, true⟩) (q := .connect mode) trivial
    · exact allLegal_length hp qs hleg _ h
  have hone := C67_one_client (cfg := cfg) (ts.map Tool.client) (TcpSrv.init cfg mem junk) rfl hj
    (by simp [TcpSrv.init, Eth.init, commBufLen]; omega) (by simp [TcpSrv.init, Eth.init, hl, hn]; omega)
    (by
      intro c hc
      obtain ⟨t, ht, rfl⟩ := List.mem_map.mp hc
      refine ⟨?_, (hs t ht).1, (hs t ht).2⟩
      intro cp hcp
      obtain ⟨x, hx, rfl⟩ := List.mem_map.mp hcp
      have := hlens t ht x hx
      refine ⟨this.1, ?_⟩
      simp only [TcpSrv.init, Eth.init, List.length_replicate]
      omega)
  let xs : List (Env × Req) := ts.flatMap fun t => t.requests.map fun x => (t.env, x.2)
  have e1 : ((ts.map Tool.client).flatMap fun c => c.packets.map fun _ => c.env) = xs.map Prod.fst := by
    simp only [xs, List.flatMap_map, List.map_flatMap, Tool.client, List.map_map]
    rfl
  have e2 : ((ts.map Tool.client).flatMap fun c => c.packets.map Prod.snd) = xs.map (·.2.bytes) := by
    simp only [xs, List.flatMap_map, List.map_flatMap, Tool.client, List.map_map]
    rfl
  have e3 : xs.map (·.2) = .connect mode :: qs := by
    rw [← hfirst]
    simp only [xs, List.map_flatMap, List.map_map]
    rfl
  rw [e1, e2] at hone
  obtain ⟨hs', g1, g2, g3⟩ := in_ops xs (TcpSrv.init cfg mem junk).eth.ctoIn
  rw [← g1] at hone
  have hq : hs'.map (·.2) = .request (.connect mode) :: qs.map .request := by
    have := congrArg (List.map Happening.request) e3
    rw [List.map_map] at this
    exact g2.trans this
  match hs', hq with
  | (a, h) :: hs', hq =>
    simp only [List.map_cons, List.cons.injEq] at hq
    obtain ⟨rfl, hq⟩ := hq
    have hd' : Describes k cfg (a.env :: hs'.map (·.1.env)) := { hd with
      hook := by
        intro hm env he
        have he : env ∈ xs.map Prod.fst := by rw [← g3]; exact he
        apply hd.hook hm env
        obtain ⟨y, hy, rfl⟩ := List.mem_map.mp he
        obtain ⟨t, ht, hy⟩ := List.mem_flatMap.mp hy
        obtain ⟨z, hz, rfl⟩ := List.mem_map.mp hy
        exact List.mem_map.mpr ⟨t, ht, rfl⟩ }
    obtain ⟨s, k1, k2, k3⟩ := C79_remote_memory hp hd' (mode := mode) (mem := mem) (by rw [hq]; exact hleg)
    rw [hq] at k2 k3
    have hone' : (tcpServe cfg (TcpSrv.init cfg mem junk) (ts.map fun t => (t.env, t.segs.map .data))).map TcpSrv.s = .ok s := by
      rw [List.map_map] at hone
      exact hone.trans k1
    cases hx : tcpServe cfg (TcpSrv.init cfg mem junk) (ts.map fun t => (t.env, t.segs.map .data)) with
    | error f => rw [hx] at hone'; cases hone'
    | ok x =>
      rw [hx] at hone'
      cases hone'
      exact ⟨x, rfl, wire_bytes hp.ok hl hn hm k1 k2, k3⟩

theorem headersIntact_of {ps : List (UInt16 × List UInt8)} {segs : List (List UInt8)}
    (h : ∀ i < segs.length + 1, ∀ j < ps.length,
      ¬ ((stream (ps.take j)).length < (segs.take i).flatten.length ∧ (segs.take i).flatten.length < (stream (ps.take j)).length + 4)) :
    HeadersIntact ps segs := by
  intro pre suf a c b hs hp
  have := h pre.length (by rw [hs]; simp; omega) a.length (by rw [hp]; simp)
  rw [hs, hp] at this
  simpa using this

/-- A tool that reads four bytes, and one that writes one and reads two; the first request comes in three pieces. -/
def Ex.tools : List Tool :=
  [⟨Ex.env, [(0, .connect 0), (1, .setMta 0 0x1234), (2, .upload 4)],
      [[2, 0, 0, 0, 0xFF], [0, 8, 0, 1, 0, 0xF6, 0], [0, 0, 0x34, 0x12, 0, 0, 2, 0, 2, 0, 0xF5, 4]]⟩,
   ⟨Ex.env, [(0, .download [9]), (1, .shortUpload 2 0 0x1238)], [[3, 0, 0, 0, 0xF0, 1, 9, 8, 0, 1, 0, 0xF4, 2, 0, 0, 0x38, 0x12, 0, 0]]⟩]

example : ∀ t ∈ Ex.tools, t.Sends := by
  intro t ht
  simp only [Ex.tools, List.mem_cons, List.not_mem_nil, or_false] at ht
  rcases ht with rfl | rfl
  all_goals exact ⟨⟨by decide, by decide⟩, headersIntact_of (by decide)⟩

/-- What the tools get. -/
example : ((tcpServe Ex.sim (TcpSrv.init Ex.sim Ex.mem (List.replicate 8 0)) (Ex.tools.map fun t => (t.env, t.segs.map .data))).toOption.map
      fun x => (x.s.tx.map Frame.bytes).flatten) =
    some [8, 0, 0, 0, 0xFF, 0x15, 0x80, 64, 64, 0, 1, 1, 1, 0, 1, 0, 0xFF, 5, 0, 2, 0, 0xFF, 0x34, 0x35, 0x36, 0x37, 1, 0, 3, 0, 0xFF,
      3, 0, 4, 0, 0xFF, 9, 0x39] := by decide +kernel

example : (Ex.tools.flatMap fun t => t.requests.map (·.2)) =
    .connect 0 :: [.setMta 0 0x1234, .upload 4, .download [9], .shortUpload 2 0 0x1238] := rfl

end Xcp
