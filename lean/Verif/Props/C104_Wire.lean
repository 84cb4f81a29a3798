import Verif.Props.C94_Transparent
import Verif.Props.C96_Guarded
import Verif.Props.C101_BlocksLive
/-
C104: whole sessions over the wire.  What C96 says about sessions with seed and key and C101 about block transfers while measuring,
a tool at the other end of a network or a serial line sees byte for byte.
-/
set_option autoImplicit false
namespace Xcp
open Spec

/-- What the tool gets: frames with consecutive numbers, one for each packet. -/
def Spec.framesFor (said : List Said) : List (List UInt8) := (numbered (said.map Said.bytes)).map fun f => framed f.1 f.2

/-- On Windows (TCP or UDP) tool `c` that does `h` hears `said`, and the memory is `after`. -/
def Spec.HearsWindows (cfg : Cfg) (mem : Mem) (ops : List (Env × Op)) (said : List Said) (after : Mem) : Prop :=
  ∀ (tcp : Bool) (c : Nat) (env : Env) (ctr : UInt16) (p : List UInt8) (h : List (Env × Deed)),
    (∀ d ∈ (env, Deed.packet ctr p) :: h, KeyOnly d.1 ∧ d.2.Fair cfg) →
    ((env, Deed.packet ctr p) :: h).map (fun d => (d.1, d.2.op)) = ops →
    ∃ x, (Iocp.init cfg mem tcp).run cfg (opening tcp env c ++ ((env, Deed.packet ctr p) :: h).map fun d => (d.1, d.2.event c)) = .ok x ∧
      x.out.map (fun f => (f.1, f.2.bytes)) = (framesFor said).map (fun f => (c, f)) ∧ x.s.mem = after

/-- On Linux with TCP, for a tool that splits no header. -/
def Spec.HearsTcp (cfg : Cfg) (mem : Mem) (ops : List (Env × Op)) (said : List Said) (after : Mem) : Prop :=
  ∀ (w : World) (ps : List (UInt16 × List UInt8)) (segs : List (List UInt8)) (junk : List UInt8),
    (∀ n, KeyOnly (w.env n)) → (∀ p ∈ ps, Whole cfg p.2) → (woven w 0 ps).map (fun d => (d.1, d.2.op)) = ops →
    Segments segs (stream ps) → HeadersIntact ps segs → junk.length = 8 →
    ∃ x, (Link.init cfg mem true junk).serve cfg w [segs.map .data] = .ok x ∧
      x.out.map (fun f => (f.1, f.2.bytes)) = (framesFor said).map (fun f => (.socket 1, f)) ∧ x.s.mem = after

/-- On Linux with UDP, for a tool that sends header and data in two datagrams and CONNECT first. -/
def Spec.HearsUdp (cfg : Cfg) (mem : Mem) (ops : List (Env × Op)) (said : List Said) (after : Mem) : Prop :=
  ∀ (w : World) (ctr : UInt16) (mode : UInt8) (ps : List (UInt16 × List UInt8)) (junk : List UInt8) (port : UInt16)
    (ip : UInt8 × UInt8 × UInt8 × UInt8),
    (∀ n, KeyOnly (w.env n)) → w.apps 0 = [] → (∀ p ∈ (ctr, [0xFF, mode]) :: ps, Whole cfg p.2) →
    (woven w 0 ((ctr, [0xFF, mode]) :: ps)).map (fun d => (d.1, d.2.op)) = ops → junk.length = 8 →
    ∃ x, (Link.init cfg mem false junk).hear cfg w
        (((ctr, [0xFF, mode]) :: ps).flatMap fun p => Split.dgrams ⟨v4 port ip, v4 port ip, p.1, p.2⟩) = .ok x ∧
      x.out.map (fun f => (f.1, f.2.bytes)) = (framesFor said).map (fun f => (.addr (storage (v4 port ip)), f)) ∧ x.s.mem = after

/-- On the serial line: the octets of the packets arrive at any times. -/
def Spec.HearsSerial (cfg : Cfg) (mem : Mem) (ops : List (Env × Op)) (said : List Said) (after : Mem) : Prop :=
  ∀ (h : List (Env × Deed)) (ts : List (UInt32 × UInt8)), (∀ d ∈ h, KeyOnly d.1 ∧ d.2.Fair cfg) →
    h.map (fun d => (d.1, d.2.op)) = ops → ts.map Prod.snd = stream (packets h) →
    ∃ r qs s, (Rcv.init (commBufLen cfg)).feedAll ts = .ok (r, qs) ∧ run cfg (St.init cfg mem) (carried h qs) = .ok s ∧
      (s.tx.map Frame.bytes).flatten = (framesFor said).flatten ∧ s.mem = after

/-- On every transport. -/
def Spec.Hears (cfg : Cfg) (mem : Mem) (ops : List (Env × Op)) (said : List Said) (after : Mem) : Prop :=
  HearsWindows cfg mem ops said after ∧ HearsTcp cfg mem ops said after ∧ HearsUdp cfg mem ops said after ∧ HearsSerial cfg mem ops said after

theorem wire_said {cfg : Cfg} (hc : cfg.Ok) (hl : cfg.lenSize = 2) (hn : cfg.ctrSize = 2) (hm : cfg.maxDlc = false) {mem : Mem}
    {ops : List (Env × Op)} {s : St} (hr : run cfg (St.init cfg mem) ops = .ok s) {said : List Said} (hs : Says cfg s.tx said) :
    s.tx.map Frame.bytes = framesFor said := by
  rw [wire_payloads hc hl hn hr, says_payloads hm hs, framesFor]

theorem out_said {α : Type} {s : St} {said : List Said} (h : s.tx.map Frame.bytes = framesFor said) (a : α) :
    (s.tx.map fun f => (a, f)).map (fun f => (f.1, f.2.bytes)) = (framesFor said).map fun f => (a, f) := by
  rw [← h]
  simp [List.map_map, Function.comp_def]

/-- Whatever the slave says in a history, the tool hears on every transport. -/
theorem C104_hears {cfg : Cfg} (hc : cfg.Ok) (hl : cfg.lenSize = 2) (hn : cfg.ctrSize = 2) (hm : cfg.maxDlc = false) {mem : Mem}
    {ops : List (Env × Op)} {s : St} (hr : run cfg (St.init cfg mem) ops = .ok s) {said : List Said} (hs : Says cfg s.tx said) :
    Hears cfg mem ops said s.mem := by
  have hw := wire_said hc hl hn hm hr hs
  refine ⟨?_, ?_, ?_, ?_⟩
  · intro tcp c env ctr p h hf hh
    have := C94_windows_partial hc hl hn tcp c mem hf
    rw [hh, hr] at this
    simp only [Except.map] at this
    split at this
    · cases this
    · next x hx =>
      simp only [Except.ok.injEq, Prod.mk.injEq] at this
      exact ⟨x, hx, by rw [this.2]; exact out_said hw c, by rw [this.1]⟩
  · intro w ps segs junk hk hps hh hseg hi hj
    have := C94_tcp_partial hc (by omega) hk mem hj hps hseg hi
    rw [hh, hr] at this
    simp only [Except.map] at this
    split at this
    · cases this
    · next x hx =>
      simp only [Except.ok.injEq, Prod.mk.injEq] at this
      exact ⟨x, hx, by rw [this.2]; exact out_said hw _, by rw [this.1]⟩
  · intro w ctr mode ps junk port ip hk h0 hps hh hj
    have := C94_udp_partial hc (by omega) hk h0 mem hj port ip hps
    rw [hh, hr] at this
    simp only [Except.map] at this
    split at this
    · cases this
    · next x hx =>
      simp only [Except.ok.injEq, Prod.mk.injEq] at this
      exact ⟨x, hx, by rw [this.2]; exact out_said hw _, by rw [this.1]⟩
  · intro h ts hf hh ht
    obtain ⟨r, qs, g1, -, g2⟩ := C94_serial_partial hc hl hn hf ht
    exact ⟨r, qs, s, g1, by rw [g2, hh, hr], by rw [hw], rfl⟩

/-- C104 for block transfers while measuring (C101). -/
theorem C104_blocks_partial {cfg : Cfg} (hp : Plain cfg) (hbs : cfg.maxBs < 256) (ho : OffersDaq cfg) (hl : cfg.lenSize = 2) (hn : cfg.ctrSize = 2)
    (hm : cfg.maxDlc = false) {k : About} {a : Around} {mode : UInt8}
    {hs : List (Around × BHappening)} {xs : List BTurn} (hd : Describes k cfg (a.env :: hs.map (·.1.env) ++ xs.flatMap BTurn.envs)) {mem : Mem}
    (hleg : AllBLegal cfg k ⟨⟨mem, 0, 0, true⟩, 0, 0⟩ (hs.map (·.2)))
    (hf : AllBFine cfg k (Blocks.final k ⟨⟨mem, 0, 0, true⟩, 0, 0⟩ (hs.map (·.2))) xs) (hcnt : blockTotal xs ≤ 4) :
    Hears cfg mem (bops ((a, .request (.plain (.connect mode))) :: hs) ++ xs.flatMap BTurn.ops)
      ((Blocks.saysAll k ⟨⟨mem, 0, 0, true⟩, 0, 0⟩ (.request (.plain (.connect mode)) :: hs.map (·.2))).map .answer ++
        blockRounds k (stampSize cfg) (Blocks.final k ⟨⟨mem, 0, 0, true⟩, 0, 0⟩ (hs.map (·.2))) (xs.map BTurn.round))
      ((xs.map BTurn.round).foldl (fun b x => x.final k b) (Blocks.final k ⟨⟨mem, 0, 0, true⟩, 0, 0⟩ (hs.map (·.2)))).remote.mem := by
  obtain ⟨s, g1, g2, g3⟩ := C101_blocks_live_partial hp hbs ho (mode := mode) hd hleg hf hcnt
  rw [← g3]
  exact C104_hears hp.ok hl hn hm g1 g2

/-- C104 for sessions with seed and key (C96). -/
theorem C104_guarded_partial {cfg : Cfg} (hp : Faithful cfg) (hrp : cfg.resourceProtection = true) (ho : OffersDaq cfg) (hl : cfg.lenSize = 2)
    (hn : cfg.ctrSize = 2) (hm : cfg.maxDlc = false) {k : About} {xs : List Act} (hd : Describes k cfg (xs.flatMap Act.envs)) {mem : Mem}
    (ha : AllAdmitted cfg k ⟨⟨mem, 0, 0, true⟩, false, protectedSet cfg, 0⟩ 0 xs) :
    Hears cfg mem (xs.flatMap Act.ops)
      (Guarded.saysAll k (stampSize cfg) (protectedSet cfg) ⟨⟨mem, 0, 0, true⟩, false, protectedSet cfg, 0⟩ (xs.map Act.deal))
      (Guarded.final k (protectedSet cfg) ⟨⟨mem, 0, 0, true⟩, false, protectedSet cfg, 0⟩ (xs.map Act.deal)).remote.mem := by
  obtain ⟨s, g1, g2, g3, -⟩ := C96_guarded_partial hp hrp ho hd ha
  rw [← g3]
  exact C104_hears hp.ok hl hn hm g1 g2

/-! ### Examples and what does not hold -/

/-- A slave with both block modes on the network, and a block that is read while another one waits. -/
def Ex.netBlocks : Cfg := { Ex.blocks with lenSize := 2, ctrSize := 2, maxDlc := false }

def Ex.netBlocksAbout : About := { Ex.blocksAbout with offers := Ex.netBlocks.supports }

def Ex.netHappenings : List (Around × BHappening) :=
  [(⟨Ex.env, 8, []⟩, .request (.plain (.setMta 0 0x1240))), (⟨Ex.env, 2, []⟩, .request (.plain (.upload 16))), (⟨Ex.env, 0, []⟩, .main),
   (⟨Ex.env, 0, []⟩, .write 0x124F 0xAA), (⟨Ex.env, 1, []⟩, .request (.plain .getStatus)), (⟨Ex.env, 0, []⟩, .main),
   (⟨Ex.env, 8, []⟩, .request (.plain (.setMta 0 0x1300))), (⟨Ex.env, 8, []⟩, .request (.first 8 [1, 2, 3, 4, 5, 6])),
   (⟨Ex.env, 4, []⟩, .request (.next 2 [7, 8]))]

def Ex.netDeeds : List (Env × Deed) :=
  (bops ((⟨Ex.env, 2, []⟩, .request (.plain (.connect 0))) :: Ex.netHappenings)).map fun o => (o.1, match o.2 with
    | .cmd p => .packet 0 p.buf
    | op => .app op)

/-- That is what the tool and the application do. -/
example : Ex.netDeeds.map (fun d => (d.1.seed 1 |>.length, d.2.op)) =
      (bops ((⟨Ex.env, 2, []⟩, .request (.plain (.connect 0))) :: Ex.netHappenings)).map fun d => (d.1.seed 1 |>.length, d.2) := by rfl

/-- What is to be heard. -/
example : framesFor ((Blocks.saysAll Ex.netBlocksAbout ⟨⟨Ex.mem, 0, 0, true⟩, 0, 0⟩ (.request (.plain (.connect 0)) :: Ex.netHappenings.map (·.2))).map .answer) =
    [[8, 0, 0, 0, 0xFF, 0x15, 0xC0, 8, 8, 0, 1, 1], [1, 0, 1, 0, 0xFF], [8, 0, 2, 0, 0xFF, 0x40, 0x41, 0x42, 0x43, 0x44, 0x45, 0x46],
     [8, 0, 3, 0, 0xFF, 0x47, 0x48, 0x49, 0x4A, 0x4B, 0x4C, 0x4D], [2, 0, 4, 0, 0xFE, 0x10], [3, 0, 5, 0, 0xFF, 0x4E, 0xAA], [1, 0, 6, 0, 0xFF],
     [1, 0, 7, 0, 0xFF]] := by decide +kernel

/-- It is heard on Windows by tool 3, with TCP. -/
example : ((Iocp.init Ex.netBlocks Ex.mem true).run Ex.netBlocks (opening true Ex.env 3 ++ Ex.netDeeds.map fun d => (d.1, d.2.event 3))).toOption.map
      (fun x => x.out.map fun f => (f.1, f.2.bytes)) =
    some ((framesFor ((Blocks.saysAll Ex.netBlocksAbout ⟨⟨Ex.mem, 0, 0, true⟩, 0, 0⟩ (.request (.plain (.connect 0)) ::
      Ex.netHappenings.map (·.2))).map .answer)).map fun f => (3, f)) := by decide +kernel

/-- A tool that unlocks measurement. -/
def Ex.netActs : List Act :=
  [.one ⟨Ex.env, 2, []⟩ (.plain (.request (.connect 0))), .one ⟨Ex.env, 8, List.replicate 7 0⟩ (.tries .freeDaq []),
   .one ⟨Ex.env, 3, []⟩ (.getSeed 4 [1, 2, 3, 4]), .one ⟨Ex.env, 6, []⟩ (.unlock [1, 2, 3, 4] true),
   .one ⟨Ex.env, 1, []⟩ (.plain (.request .getStatus)), .one ⟨Ex.env, 1, []⟩ .disconnect]

def Ex.netPackets : List (UInt16 × List UInt8) :=
  [(0, [0xFF, 0]), (1, [0xD6, 0, 0, 0, 0, 0, 0, 0]), (2, [0xF8, 0, 4]), (3, [0xF7, 4, 1, 2, 3, 4]), (4, [0xFD]), (5, [0xFE])]

example : (woven Ex.quiet 0 Ex.netPackets).map (fun d => (d.1, d.2.op)) = Ex.netActs.flatMap Act.ops := by rfl

/-- It is heard on Linux with UDP. -/
example : ((Link.init Ex.sec Ex.mem false (List.replicate 8 0)).hear Ex.sec Ex.quiet (Ex.netPackets.flatMap fun p =>
      Split.dgrams ⟨v4 40000 (10, 0, 0, 1), v4 40000 (10, 0, 0, 1), p.1, p.2⟩)).toOption.map (fun y => y.out.map fun f => f.2.bytes) =
    some (framesFor (Guarded.saysAll Ex.secAbout 4 0x1D ⟨⟨Ex.mem, 0, 0, true⟩, false, 0x1D, 0⟩ (Ex.netActs.map Act.deal))) := by decide +kernel

/-- On Linux with UDP, for a tool that sends each packet in one datagram, as XCP on Ethernet demands. -/
def Spec.HearsDatagrams (cfg : Cfg) (mem : Mem) (ops : List (Env × Op)) (said : List Said) (after : Mem) : Prop :=
  ∀ (w : World) (ps : List (UInt16 × List UInt8)) (junk : List UInt8) (port : UInt16) (ip : UInt8 × UInt8 × UInt8 × UInt8),
    (∀ n, KeyOnly (w.env n)) → (∀ p ∈ ps, Whole cfg p.2) → (woven w 0 ps).map (fun d => (d.1, d.2.op)) = ops → junk.length = 8 →
    ∃ x, (Link.init cfg mem false junk).hear cfg w (ps.map fun p => ⟨v4 port ip, framed p.1 p.2⟩) = .ok x ∧
      x.out.map (fun f => (f.1, f.2.bytes)) = (framesFor said).map (fun f => (.addr (storage (v4 port ip)), f)) ∧ x.s.mem = after

/-- That is not so: whatever CONNECT says, a tool that asks so hears nothing. -/
theorem C104_fails_datagrams {said : List Said} (h : said ≠ []) (after : Mem) :
    ¬ HearsDatagrams Ex.sec Ex.mem [(Ex.env, .cmd (alone [0xFF, 0]))] said after := by
  intro hh
  obtain ⟨x, hx, ho, -⟩ := hh Ex.quiet [(0, [0xFF, 0])] (List.replicate 8 0) 40000 (10, 0, 0, 1) (fun _ => env_keyOnly)
    (by
      intro p hp
      rw [List.mem_singleton.mp hp]
      exact ⟨complete_of (c := .connect) rfl (by decide) (by decide), by decide⟩) rfl rfl
  have : ((Link.init Ex.sec Ex.mem false (List.replicate 8 0)).hear Ex.sec Ex.quiet ([(0, [0xFF, 0])].map fun p : UInt16 × List UInt8 =>
      (⟨v4 40000 (10, 0, 0, 1), framed p.1 p.2⟩ : Dgram))).toOption.map (fun y => y.out.length) = some 0 := by decide +kernel
  rw [hx] at this
  have hl := congrArg List.length ho
  simp only [Except.toOption, Option.map_some, Option.some.injEq] at this
  rw [List.length_map, this, framesFor] at hl
  cases said with
  | nil => exact h rfl
  | cons a l => simp [numbered] at hl

end Xcp
