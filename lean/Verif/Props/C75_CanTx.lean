import Verif.Model.CanTx
import Verif.Props.C02_Size
import Verif.Props.C63_Can
/-
C75: on CAN every packet the slave sends becomes exactly one message with the outbound identifier.
-/
set_option autoImplicit false
namespace Xcp
open Spec

/-- The lengths of CAN FD messages. -/
def Spec.FdLength (n : Nat) : Prop := n ≤ 8 ∨ n = 12 ∨ n = 16 ∨ n = 20 ∨ n = 24 ∨ n = 32 ∨ n = 48 ∨ n = 64

/-- The message carries the packet: a data message with the identifier and exactly its bytes. -/
def Spec.CanCarries (outb : UInt32) (p : List UInt8) (m : CanMsg) : Prop := Addressed outb m ∧ m.data = p

/-- With CAN FD the packet may be followed by zeros, up to the next length a message can have. -/
def Spec.CanCarriesFd (outb : UInt32) (p : List UInt8) (m : CanMsg) : Prop :=
  Addressed outb m ∧ (∃ z, m.data = p ++ List.replicate z 0) ∧ FdLength m.data.length ∧
    ∀ n, FdLength n → p.length ≤ n → m.data.length ≤ n

/-- One message per packet, in the same order. -/
def Spec.OneEach (c : List UInt8 → CanMsg → Prop) (ps : List (List UInt8)) (ms : List CanMsg) : Prop :=
  ms.length = ps.length ∧ ∀ (i : Nat) (p : List UInt8) (m : CanMsg), ps[i]? = some p → ms[i]? = some m → c p m

theorem Spec.OneEach.cons {c : List UInt8 → CanMsg → Prop} {p : List UInt8} {m : CanMsg} {ps : List (List UInt8)} {ms : List CanMsg} (h : c p m)
    (hs : OneEach c ps ms) : OneEach c (p :: ps) (m :: ms) := by
  refine ⟨by simp [hs.1], ?_⟩
  intro i p' m' hp hm
  cases i with
  | zero => simp at hp hm; subst hp; subst hm; exact h
  | succ i => exact hs.2 i p' m' (by simpa using hp) (by simpa using hm)

/-- The configurations of inc/xcp.h:107-142 for classical CAN and for CAN FD. -/
structure Spec.CanCfg (cfg : Cfg) (max : Nat) : Prop where
  noLen : cfg.lenSize = 0
  noCtr : cfg.ctrSize = 0
  cto   : cfg.maxCto ≤ max
  dto   : cfg.maxDto ≤ max

theorem Spec.CanCfg.sizes {cfg : Cfg} {max : Nat} (hk : CanCfg cfg max) (hc : cfg.Ok) {mem : Mem} {h : List (Env × Op)} {s : St}
    (hr : run cfg (St.init cfg mem) h = .ok s) : ∀ f ∈ s.tx, f.bytes.length ≤ max := by
  intro f hf
  have hs := C02_frame_size hc hr hf
  have := hk.noLen; have := hk.noCtr; have := hk.cto; have := hk.dto
  cases hkd : f.kind with
  | cto => have := hs.1 hkd; omega
  | dto => have := hs.2 hkd; omega

theorem busMsg_addressed {outb : UInt32} (hi : IdOk outb) (d : List UInt8) : Addressed outb (busMsg outb d) := by
  have hext : (outb &&& 0x80000000 == 0x80000000) = decide (2 ^ 31 ≤ outb.toNat) := canIsExt_eq outb
  refine ⟨?_, ?_, ?_⟩
  · show (outb &&& 0x40000000 == 0x40000000) = false
    rw [beq_eq_false_iff_ne]
    intro h
    rw [← UInt32.toNat_inj, UInt32.toNat_and, show (0x40000000 : UInt32).toNat = 2 ^ 30 from rfl] at h
    have h30 := congrArg (Nat.testBit · 30) h
    have : outb.toNat.testBit 30 = true := by
      simp only [Nat.testBit_and, Nat.testBit_two_pow_self, Bool.and_true] at h30
      exact h30
    rw [Nat.testBit_eq_decide_div_mod_eq] at this
    simp at this
    unfold IdOk at hi
    omega
  · show (outb &&& (if (outb &&& 0x80000000 == 0x80000000) = true then 0x1FFFFFFF else 0x7FF)).toNat = _
    rw [hext]
    unfold IdOk at hi
    split
    · next h =>
      rw [UInt32.toNat_and, show (0x1FFFFFFF : UInt32).toNat = 2 ^ 29 - 1 from rfl, Nat.and_two_pow_sub_one_eq_mod]
      simp at h; omega
    · next h =>
      rw [UInt32.toNat_and, show (0x7FF : UInt32).toNat = 2 ^ 11 - 1 from rfl, Nat.and_two_pow_sub_one_eq_mod]
      simp at h; omega
  · show (outb &&& 0x80000000 == 0x80000000) = true ↔ _
    rw [hext, decide_eq_true_iff]

theorem socketSendAll_oneEach {fd : Bool} {outb : UInt32} {c : List UInt8 → CanMsg → Prop} : ∀ {fs : List Frame},
    (∀ f ∈ fs, ∃ m, socketSend fd outb f.bytes = .ok m ∧ c f.bytes m) →
    ∃ ms, socketSendAll fd outb fs = .ok ms ∧ OneEach c (fs.map (·.bytes)) ms
  | [], _ => ⟨[], rfl, rfl, fun i p m h => by simp at h⟩
  | f :: fs, h => by
    obtain ⟨m, h1, h2⟩ := h f List.mem_cons_self
    obtain ⟨ms, h3, h4⟩ := socketSendAll_oneEach (fun g hg => h g (List.mem_cons_of_mem _ hg))
    refine ⟨m :: ms, ?_, OneEach.cons h2 h4⟩
    unfold socketSendAll
    rw [h1, ok_bind, h3]
    rfl

theorem store_take (k : Nat) (p : List UInt8) (n : Nat) (h1 : p.length ≤ n) (h2 : n ≤ k) :
    (storeAt (List.replicate k 0) 0 p).take n = p ++ List.replicate (n - p.length) 0 := by
  unfold storeAt
  simp only [List.take_zero, List.nil_append, Nat.zero_add, List.drop_replicate]
  rw [List.take_append, List.take_of_length_le h1, List.take_replicate, Nat.min_eq_left (by omega)]

theorem fdBusLen_least {n : Nat} (h : n ≤ 64) : n ≤ fdBusLen n ∧ fdBusLen n ≤ 64 ∧ FdLength (fdBusLen n) ∧
    ∀ k, FdLength k → n ≤ k → fdBusLen n ≤ k := by
  have hv : (n ≤ 8 ∧ fdBusLen n = n) ∨ (8 < n ∧ n ≤ 12 ∧ fdBusLen n = 12) ∨ (12 < n ∧ n ≤ 16 ∧ fdBusLen n = 16) ∨
      (16 < n ∧ n ≤ 20 ∧ fdBusLen n = 20) ∨ (20 < n ∧ n ≤ 24 ∧ fdBusLen n = 24) ∨ (24 < n ∧ n ≤ 32 ∧ fdBusLen n = 32) ∨
      (32 < n ∧ n ≤ 48 ∧ fdBusLen n = 48) ∨ (48 < n ∧ fdBusLen n = 64) := by
    have : ∀ k : Fin 65, (k.val ≤ 8 ∧ fdBusLen k.val = k.val) ∨ (8 < k.val ∧ k.val ≤ 12 ∧ fdBusLen k.val = 12) ∨
        (12 < k.val ∧ k.val ≤ 16 ∧ fdBusLen k.val = 16) ∨ (16 < k.val ∧ k.val ≤ 20 ∧ fdBusLen k.val = 20) ∨
        (20 < k.val ∧ k.val ≤ 24 ∧ fdBusLen k.val = 24) ∨ (24 < k.val ∧ k.val ≤ 32 ∧ fdBusLen k.val = 32) ∨
        (32 < k.val ∧ k.val ≤ 48 ∧ fdBusLen k.val = 48) ∨ (48 < k.val ∧ fdBusLen k.val = 64) := by decide
    exact this ⟨n, by omega⟩
  generalize fdBusLen n = v at hv ⊢
  unfold FdLength
  exact ⟨by omega, by omega, by omega, fun k h1 h2 => by omega⟩

/-- C75 in full, for SocketCAN: whatever happened since the start, the packets sent are one message each. -/
def Spec.SocketCarries (cfg : Cfg) (fd : Bool) (outb : UInt32) : Prop :=
  ∀ (mem : Mem) (h : List (Env × Op)) (s : St), run cfg (St.init cfg mem) h = .ok s →
    ∃ ms, socketSendAll fd outb s.tx = .ok ms ∧ OneEach (if fd then CanCarriesFd outb else CanCarries outb) (s.tx.map (·.bytes)) ms

/-- C75, SocketCAN, classical CAN (packets of at most 8 bytes). -/
theorem C75_socket_classic_partial {cfg : Cfg} (hc : cfg.Ok) (hk : CanCfg cfg 8) {outb : UInt32} (hi : IdOk outb) :
    SocketCarries cfg false outb := by
  intro mem h s hr
  apply socketSendAll_oneEach
  intro f hf
  have hl := hk.sizes hc hr f hf
  refine ⟨busMsg outb f.bytes, ?_, busMsg_addressed hi _, rfl⟩
  unfold socketSend
  rw [if_neg (by decide), if_neg (by omega), store_take 8 f.bytes _ (Nat.le_refl _) hl]
  simp

/-- C75, SocketCAN with option `-f` (CAN FD), packets of at most 64 bytes: padded with zeros. -/
theorem C75_socket_fd {cfg : Cfg} (hc : cfg.Ok) (hk : CanCfg cfg 64) {outb : UInt32} (hi : IdOk outb) :
    SocketCarries cfg true outb := by
  intro mem h s hr
  apply socketSendAll_oneEach
  intro f hf
  have hl := hk.sizes hc hr f hf
  obtain ⟨h1, h2, h3, h4⟩ := fdBusLen_least hl
  refine ⟨busMsg outb ((storeAt (List.replicate 64 0) 0 f.bytes).take (fdBusLen f.bytes.length)), ?_, busMsg_addressed hi _, ?_⟩
  · unfold socketSend
    rw [if_pos rfl, if_neg (by omega)]
  · show (∃ z, (storeAt (List.replicate 64 0) 0 f.bytes).take _ = _) ∧ FdLength (List.length ((storeAt (List.replicate 64 0) 0 f.bytes).take _)) ∧
      ∀ n, _ → _ → List.length ((storeAt (List.replicate 64 0) 0 f.bytes).take _) ≤ n
    rw [store_take 64 f.bytes _ h1 h2]
    have hlen : (f.bytes ++ List.replicate (fdBusLen f.bytes.length - f.bytes.length) 0).length = fdBusLen f.bytes.length := by
      simp; omega
    rw [hlen]
    exact ⟨⟨_, rfl⟩, h3, h4⟩

/-- A build for CAN FD that is started without the option `-f` writes the first packet of more than 8 bytes
beyond the message on its stack. -/
theorem C75_socket_fails_without_fd {outb : UInt32} {buf : List UInt8} (h : 8 < buf.length) :
    socketSend false outb buf = .error .bufOob := by
  unfold socketSend
  rw [if_neg (by decide), if_pos h]

/-- A slave built for CAN FD with 64 byte packets. -/
def Ex.canfd : Cfg := { Ex.can with maxCto := 64, maxDto := 64 }

theorem Ex.canfd_ok : Ex.canfd.Ok := by constructor <;> decide

theorem C75_socket_fails_witness :
    Ex.obs Ex.canfd [Ex.c [0xFF, 0], Ex.c [0xF4, 9, 0, 0, 0, 0x10, 0, 0]]
      (fun s => (s.tx.any fun f => decide (8 < f.bytes.length))) = some true := by decide +kernel

/-- The claim is false of that build, started without the option. -/
theorem C75_socket_fails : ¬ SocketCarries Ex.canfd false 0x101 := by
  intro hall
  have hw := C75_socket_fails_witness
  unfold Ex.obs at hw
  split at hw
  · next s hr =>
    obtain ⟨ms, h1, -⟩ := hall _ _ s hr
    have hw' := Option.some.inj hw
    simp only [List.any_eq_true, decide_eq_true_iff] at hw'
    obtain ⟨f, hf, hl⟩ := hw'
    have : ∀ {fs : List Frame}, f ∈ fs → ∀ ms, socketSendAll false 0x101 fs ≠ .ok ms := by
      intro fs
      induction fs with
      | nil => intro h; cases h
      | cons g gs ih =>
        intro hm ms he
        unfold socketSendAll at he
        rcases List.mem_cons.mp hm with rfl | hm
        · rw [C75_socket_fails_without_fd hl] at he; cases he
        · cases hg : socketSend false 0x101 g.bytes with
          | error e => rw [hg] at he; cases he
          | ok m =>
            rw [hg, ok_bind] at he
            cases hgs : socketSendAll false 0x101 gs with
            | error e => rw [hgs] at he; cases he
            | ok ms' => exact ih hm ms' hgs
    exact this hf ms h1
  · cases hw

theorem kvSendAll_free {outb : UInt32} (ws : List (Nat × List UInt8)) (t : KvTx) (ho : t.owner = none) (hd : t.depth = 0)
    (hl : ∀ w ∈ ws, w.2.length ≤ 8) :
    ∃ ms, kvSendAll outb t ws = some { owner := none, depth := 0, bus := t.bus ++ ms } ∧ OneEach (CanCarries outb) (ws.map (·.2)) ms := by
  induction ws generalizing t with
  | nil =>
    refine ⟨[], ?_, rfl, fun i p m h => by simp at h⟩
    unfold kvSendAll
    cases t
    simp at ho hd
    simp [ho, hd]
  | cons w ws ih =>
    let m : CanMsg := { id := (canStrip outb).toNat, ext := canIsExt outb, rtr := false, data := w.2 }
    obtain ⟨ms, h1, h2⟩ := ih ⟨none, 0, t.bus ++ [m]⟩ rfl rfl (fun v hv => hl v (List.mem_cons_of_mem _ hv))
    refine ⟨m :: ms, ?_, OneEach.cons ⟨⟨rfl, canStrip_eq outb, ?_⟩, rfl⟩ h2⟩
    · have hs : kvSend outb t w.1 w.2 = some ⟨none, 0, t.bus ++ [m]⟩ := by
        have := hl w List.mem_cons_self
        have hn : ¬ 8 < w.2.length := by omega
        simp [kvSend, KvTx.enter, KvTx.leave, ho, hd, hn, m]
      show (kvSend outb t w.1 w.2 >>= fun t => kvSendAll outb t ws) = _
      rw [hs]
      show kvSendAll outb _ ws = _
      rw [h1]
      simp
    · show canIsExt outb = true ↔ _
      rw [canIsExt_eq, decide_eq_true_iff]

/-- C75, Kvaser, packets of at most 8 bytes: whatever threads send them, one message each, and the critical
section is free afterwards. -/
theorem C75_kvaser_partial {cfg : Cfg} (hc : cfg.Ok) (hk : CanCfg cfg 8) {outb : UInt32} {mem : Mem} {h : List (Env × Op)} {s : St}
    (hr : run cfg (St.init cfg mem) h = .ok s) (ws : List (Nat × List UInt8)) (hw : ws.map (·.2) = s.tx.map (·.bytes)) :
    ∃ t, kvSendAll outb ⟨none, 0, []⟩ ws = some t ∧ t.owner = none ∧ t.depth = 0 ∧
      OneEach (CanCarries outb) (s.tx.map (·.bytes)) t.bus := by
  have hl : ∀ w ∈ ws, w.2.length ≤ 8 := by
    intro w hwm
    have : w.2 ∈ ws.map (·.2) := List.mem_map_of_mem hwm
    rw [hw] at this
    obtain ⟨f, hf, he⟩ := List.mem_map.mp this
    rw [← he]
    exact hk.sizes hc hr f hf
  obtain ⟨ms, h1, h2⟩ := kvSendAll_free (outb := outb) ws ⟨none, 0, []⟩ rfl rfl hl
  rw [hw] at h2
  exact ⟨_, h1, rfl, rfl, by simpa using h2⟩

theorem kvSendAll_held {outb : UInt32} {i : Nat} (ps : List (List UInt8)) :
    ∀ t : KvTx, t.owner = some i → 0 < t.depth →
    ∃ t', kvSendAll outb t (ps.map fun p => (i, p)) = some t' ∧ t'.owner = some i ∧ 0 < t'.depth := by
  induction ps with
  | nil => intro t ho hd; exact ⟨t, rfl, ho, hd⟩
  | cons p ps ih =>
    intro t ho hd
    have hs : ∃ t1, kvSend outb t i p = some t1 ∧ t1.owner = some i ∧ 0 < t1.depth := by
      by_cases hp : 8 < p.length
      · refine ⟨{ t with owner := some i, depth := t.depth + 1 }, ?_, rfl, Nat.succ_pos _⟩
        simp [kvSend, KvTx.enter, ho, hp]
      · have hn : ¬ t.depth + 1 ≤ 1 := by omega
        refine ⟨KvTx.leave { owner := some i, depth := t.depth + 1, bus := t.bus ++
          [{ id := (canStrip outb).toNat, ext := canIsExt outb, rtr := false, data := p }] }, ?_, ?_, ?_⟩
        · simp [kvSend, KvTx.enter, ho, hp]
        · show (if t.depth + 1 ≤ 1 then none else some i) = some i
          rw [if_neg hn]
        · show 0 < t.depth + 1 - 1
          omega
    obtain ⟨t1, h1, h2, h3⟩ := hs
    obtain ⟨t2, h4, h5⟩ := ih t1 h2 h3
    refine ⟨t2, ?_, h5⟩
    show (kvSend outb t i p >>= fun t => kvSendAll outb t _) = _
    rw [h1]
    exact h4

/-- With a longer packet nothing is sent, and the critical section stays occupied: every other thread that sends
waits for ever, whatever the thread that sent the packet sends afterwards. -/
theorem C75_kvaser_fails {outb : UInt32} (i j : Nat) (hij : j ≠ i) {buf : List UInt8} (h : 8 < buf.length) (bus : List CanMsg) :
    ∃ t, kvSend outb ⟨none, 0, bus⟩ i buf = some t ∧ t.bus = bus ∧
      ∀ ps : List (List UInt8), ∃ t', kvSendAll outb t (ps.map fun p => (i, p)) = some t' ∧ ∀ p, kvSend outb t' j p = none := by
  refine ⟨⟨some i, 1, bus⟩, ?_, rfl, fun ps => ?_⟩
  · simp [kvSend, KvTx.enter, h]
  · obtain ⟨t', h1, h2, -⟩ := kvSendAll_held (outb := outb) ps ⟨some i, 1, bus⟩ rfl Nat.one_pos
    refine ⟨t', h1, fun p => ?_⟩
    simp [kvSend, KvTx.enter, h2, Ne.symm hij]

/-- C75, Arduino, packets of at most 8 bytes. -/
theorem C75_arduino_partial {cfg : Cfg} (hc : cfg.Ok) (hk : CanCfg cfg 8) {outb : UInt32} {mem : Mem} {h : List (Env × Op)} {s : St}
    (hr : run cfg (St.init cfg mem) h = .ok s) :
    ∃ ms, (s.tx.filterMap fun f => inoSend outb f.bytes) = ms ∧ OneEach (CanCarries outb) (s.tx.map (·.bytes)) ms := by
  refine ⟨_, rfl, ?_⟩
  have hl := hk.sizes hc hr
  generalize s.tx = fs at hl
  induction fs with
  | nil => exact ⟨rfl, fun i p m h => by simp at h⟩
  | cons f fs ih =>
    have h8 := hl f List.mem_cons_self
    let m : CanMsg := { id := (canStrip outb).toNat, ext := canIsExt outb, rtr := false, data := f.bytes }
    have hs : inoSend outb f.bytes = some m := by
      unfold inoSend
      by_cases he : canIsExt outb = true
      · rw [if_pos he, if_neg (by omega)]; simp [m, he]
      · rw [if_neg he, List.take_of_length_le h8]
        simp at he
        simp [m, he]
    rw [List.filterMap_cons_some (f := fun f : Frame => inoSend outb f.bytes) hs]
    refine OneEach.cons ⟨⟨rfl, canStrip_eq outb, ?_⟩, rfl⟩ (ih (fun g hg => hl g (List.mem_cons_of_mem _ hg)))
    show canIsExt outb = true ↔ _
    rw [canIsExt_eq, decide_eq_true_iff]

/-- Longer packets: with a standard identifier the rest is cut off, with an extended one nothing is sent. -/
theorem C75_arduino_fails {outb : UInt32} {buf : List UInt8} (h : 8 < buf.length) :
    (outb.toNat < 2 ^ 11 → ∃ m, inoSend outb buf = some m ∧ CanCarries outb (buf.take 8) m) ∧
    (2 ^ 31 ≤ outb.toNat → inoSend outb buf = none) := by
  constructor
  · intro hs
    have he : canIsExt outb = false := by rw [canIsExt_eq]; simp; omega
    refine ⟨{ id := (canStrip outb).toNat, ext := false, rtr := false, data := buf.take 8 }, ?_, ⟨rfl, canStrip_eq outb, ?_⟩, rfl⟩
    · unfold inoSend; rw [he]; rfl
    · show false = true ↔ _
      simp; omega
  · intro hs
    have he : canIsExt outb = true := by rw [canIsExt_eq]; simpa using hs
    unfold inoSend
    rw [if_pos he, if_pos h]

theorem setDlcLoop_eq (n : Nat) : setDlcLoop n 14 0 =
    (match ([12, 16, 20, 24, 32, 48, 64] : List Nat).find? (n ≤ ·) with | some d => .ok d | none => .error .tableOob) := by
  by_cases h12 : n ≤ 12
  · simp [setDlcLoop, h12]
  by_cases h16 : n ≤ 16
  · simp [setDlcLoop, h12, h16]
  by_cases h20 : n ≤ 20
  · simp [setDlcLoop, h12, h16, h20]
  by_cases h24 : n ≤ 24
  · simp [setDlcLoop, h12, h16, h20, h24]
  by_cases h32 : n ≤ 32
  · simp [setDlcLoop, h12, h16, h20, h24, h32]
  by_cases h48 : n ≤ 48
  · simp [setDlcLoop, h12, h16, h20, h24, h32, h48]
  by_cases h64 : n ≤ 64
  · simp [setDlcLoop, h12, h16, h20, h24, h32, h48, h64]
  · simp [setDlcLoop, h12, h16, h20, h24, h32, h48, h64]

/-- `XcpTl_SetDLC` computes the smallest length of a CAN FD message for up to 64 bytes, and reads outside its
table for more (Kvaser; the function is not used). -/
theorem C75_set_dlc (n : Nat) :
    (n ≤ 64 → ∃ d, setDlc n = .ok d ∧ FdLength d ∧ n ≤ d ∧ ∀ k, FdLength k → n ≤ k → d ≤ k) ∧
    (64 < n → setDlc n = .error .tableOob) := by
  have hd : 8 < n → setDlc n = setDlcLoop n 14 0 := fun h => by unfold setDlc; rw [if_neg (by omega)]
  constructor
  · intro h
    obtain ⟨h1, h2, h3, h4⟩ := fdBusLen_least h
    refine ⟨fdBusLen n, ?_, h3, h1, h4⟩
    by_cases h8 : n ≤ 8
    · unfold setDlc fdBusLen; rw [if_pos h8, if_pos h8]
    · rw [hd (by omega), setDlcLoop_eq]
      unfold fdBusLen
      rw [if_neg h8]
      cases hf : ([12, 16, 20, 24, 32, 48, 64] : List Nat).find? (n ≤ ·) with
      | some d => rfl
      | none =>
        rw [List.find?_eq_none] at hf
        have := hf 64 (by simp)
        simp at this
        omega
  · intro h
    rw [hd (by omega), setDlcLoop_eq]
    have : ([12, 16, 20, 24, 32, 48, 64] : List Nat).find? (n ≤ ·) = none := by
      rw [List.find?_eq_none]
      intro x hx
      simp at hx ⊢
      omega
    rw [this]

/-- The messages of a session: CONNECT and a short upload, standard identifier 0x101. -/
example : Ex.obs Ex.can [Ex.c [0xFF, 0], Ex.c [0xF4, 2, 0, 0, 0, 0x10, 0, 0]]
    (fun s => (socketSendAll false 0x101 s.tx).toOption.map fun ms => ms.map fun m => (m.id, m.ext, m.data.length)) =
    some (some [(0x101, false, 8), (0x101, false, 3)]) := by decide +kernel

/-- With CAN FD, extended identifier: an answer of 10 bytes is sent with 12. -/
example : Ex.obs Ex.canfd [Ex.c [0xFF, 0], Ex.c [0xF4, 9, 0, 0, 0, 0x10, 0, 0]]
    (fun s => (socketSendAll true 0x80000101 s.tx).toOption.map fun ms => ms.map fun m => (m.id, m.ext, m.data.length)) =
    some (some [(0x101, true, 8), (0x101, true, 12)]) := by decide +kernel

/-- Kvaser: thread 1 sends 9 bytes, then thread 2 waits. -/
example : kvSendAll 0x101 ⟨none, 0, []⟩ [(1, [0xFF]), (2, [1, 2]), (1, List.replicate 9 7), (2, [1])] = none := by decide

end Xcp
