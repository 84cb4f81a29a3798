import Verif.Proofs.Fine
import Verif.Proofs.Busy
import Verif.Props.C28_Pool
import Verif.Proofs.Table
/-
C60: No packet makes the slave access memory outside its own buffers.  This is false: several
commands use numbers from the packet as array indices without checking them.  Proved is a complete
list of what can go wrong: a command packet for which none of the conditions of `Hazard` holds is
processed without a fault in every reachable state.
-/
set_option autoImplicit false
namespace Xcp
open Spec

/-- A 32-bit parameter at `off` whose high half overflows `int` in `Xcp_GetDWord`. -/
def Spec.BigParam (cfg : Cfg) (p : Pdu) (off : Nat) : Prop :=
  cfg.wrapv = false ∧ ∃ v, Param cfg.motorola p off 4 v ∧ 2 ^ 31 ≤ v

/-- The byte at offset `off` is `b`. -/
def Spec.ByteAt (p : Pdu) (off : Nat) (b : UInt8) : Prop := p.buf[off]? = some b

/-- The address a memory access to `m` goes to. -/
def Spec.target (cfg : Cfg) (env : Env) (m : Mta) : UInt32 := if cfg.mapper then env.mapAddr m else m.addr

/-- The ODT lies outside the pool. -/
def Spec.BadOdt (cfg : Cfg) (d : Daq) (list odt : Nat) : Prop :=
  cfg.maxEnt ≤ list ∨ cfg.maxEnt ≤ odtIndex d list odt

/-- The entry lies outside the pool. -/
def Spec.BadEntry (cfg : Cfg) (d : Daq) (list odt entry : Nat) : Prop :=
  BadOdt cfg d list odt ∨ cfg.maxEnt ≤ entryIndex d list odt entry

/-- What can go wrong with each command.  All commands not named are harmless. -/
def Spec.Hazard (cfg : Cfg) (env : Env) (s : St) (p : Pdu) : Cmd → Prop
  | .setMta | .buildChecksum | .programClear => BigParam cfg p 4
  -- an empty seed
  | .getSeed => cfg.asserts = true ∧ ∃ r, ByteAt p 2 r ∧ (env.seed r).length % 256 = 0
  -- nothing to read
  | .upload => cfg.asserts = true ∧ ByteAt p 1 0
  | .shortUpload => BigParam cfg p 4 ∨ cfg.asserts = true ∧ ByteAt p 1 0
  -- nothing to write, or a null pointer
  | .download | .downloadNext => cfg.asserts = true ∧ (ByteAt p 1 0 ∨ target cfg env s.mta = 0)
  | .downloadMax => cfg.asserts = true ∧ target cfg env s.mta = 0
  | .shortDownload => BigParam cfg p 4 ∨ cfg.asserts = true ∧ (ByteAt p 1 0 ∨
      ∃ e v, ByteAt p 3 e ∧ Param cfg.motorola p 4 4 v ∧ target cfg env ⟨e, UInt32.ofNat v⟩ = 0)
  -- shifts the language leaves undefined
  | .modifyBits => ∃ S, ByteAt p 1 S ∧ (32 ≤ S.toNat ∨ cfg.wrapv = false ∧
      ∃ ma mx, Param cfg.motorola p 2 2 ma ∧ Param cfg.motorola p 4 2 mx ∧
        (2 ^ 31 ≤ (65535 - ma) * 2 ^ S.toNat ∨ 2 ^ 31 ≤ mx * 2 ^ S.toNat))
  -- indices outside the pool or the event table
  | .setDaqPtr => ∃ l o, Param cfg.motorola p 2 2 l ∧ ByteAt p 4 o ∧ BadOdt cfg s.daq (l % 256) o.toNat
  | .writeDaq => BigParam cfg p 4 ∨ BadEntry cfg s.daq s.daq.ptr.list s.daq.ptr.odt s.daq.ptr.entry
  | .writeDaqMultiple => ∃ n, ByteAt p 1 n ∧ ∃ i, i < n.toNat ∧
      (BigParam cfg p (i * 8 + 4) ∨
        BadEntry cfg s.daq s.daq.ptr.list s.daq.ptr.odt (s.daq.ptr.entry + i) ∨
        -- an entry overlaps the list or ODT element it is found through
        entryIndex s.daq s.daq.ptr.list s.daq.ptr.odt (s.daq.ptr.entry + i) = s.daq.ptr.list ∨
        entryIndex s.daq s.daq.ptr.list s.daq.ptr.odt (s.daq.ptr.entry + i) =
          odtIndex s.daq s.daq.ptr.list s.daq.ptr.odt)
  | .setDaqListMode => ∃ ev, Param cfg.motorola p 4 2 ev ∧ cfg.numEvents ≤ ev
  | .getDaqListInfo => ∃ l, Param cfg.motorola p 2 2 l ∧ cfg.maxEnt ≤ l % 256
  | .allocOdt => ∃ l, Param cfg.motorola p 2 2 l ∧ cfg.maxEnt ≤ l % 256
  | .allocOdtEntry => ∃ l o, Param cfg.motorola p 2 2 l ∧ ByteAt p 4 o ∧ BadOdt cfg s.daq (l % 256) o.toNat
  | _ => False

/-! ### Parameters -/

theorem dword_fine {cfg : Cfg} {p : Pdu} {i : Nat} (h : i + 3 < p.buf.length) (hb : ¬ BigParam cfg p i) :
    ∃ v, Param cfg.motorola p i 4 v ∧ p.dword cfg.motorola cfg.wrapv i = .ok (UInt32.ofNat v) := by
  obtain ⟨v, hv⟩ := param_four (m := cfg.motorola) h
  refine ⟨v, hv, hv.dword ?_⟩
  cases hw : cfg.wrapv
  · exact .inr (Nat.lt_of_not_le fun h => hb ⟨hw, v, hv, h⟩)
  · exact .inl rfl

theorem Fine.dword {cfg : Cfg} {p : Pdu} {i : Nat} (h : i + 3 < p.buf.length) (hb : ¬ BigParam cfg p i) :
    Fine (p.dword cfg.motorola cfg.wrapv i) := by
  obtain ⟨v, _, hv⟩ := dword_fine h hb
  exact ⟨_, hv⟩

theorem mapped_eq_target (cfg : Cfg) (env : Env) (m : Mta) : mapped cfg env m = target cfg env m := rfl

/-! ### DAQ -/

theorem getOdt_eq {cfg : Cfg} {d : Daq} {list odt : Nat} (h : ¬ BadOdt cfg d list odt) :
    getOdt cfg d list odt = .ok (d.entities (odtIndex d list odt)) := by
  unfold BadOdt at h
  unfold getOdt Daq.ent
  rw [if_pos (by omega)]
  show (if _ then _ else _) = _
  rw [show ((d.entities list).first % 256 + odt) % 256 = odtIndex d list odt by unfold odtIndex; omega, if_pos (by omega)]

theorem writeDaqEntry_eq {cfg : Cfg} {d : Daq} {size : UInt8} {addr : UInt32}
    (h : ¬ BadEntry cfg d d.ptr.list d.ptr.odt d.ptr.entry) :
    writeDaqEntry cfg d size addr = .ok { d.setEnt (entryIndex d d.ptr.list d.ptr.odt d.ptr.entry)
      ({ d.entities (entryIndex d d.ptr.list d.ptr.odt d.ptr.entry) with len := size.toNat }.setAddr addr) with
        ptr := { d.ptr with entry := (d.ptr.entry + 1) % 256 } } := by
  unfold BadEntry at h
  unfold writeDaqEntry getOdtEntryIdx
  rw [getOdt_eq (fun hb => h (.inl hb))]
  show (Daq.ent cfg d (entryIndex _ _ _ _) >>= _) = _
  unfold Daq.ent
  rw [if_pos (by omega)]
  rfl

theorem entryIndex_mod (d : Daq) (l o e i : Nat) : entryIndex d l o ((e + i) % 256) = entryIndex d l o (e + i) := by
  unfold entryIndex
  omega

/-! ### Handlers -/

/-- The receive buffer holds a packet of maximal size. -/
def Spec.Buffered (cfg : Cfg) (p : Pdu) : Prop := cfg.maxCto ≤ p.buf.length

theorem Fine.bind_byte {α : Type} {p : Pdu} {i : Nat} {f : UInt8 → Except Fault α} (h : i < p.buf.length)
    (hf : ∀ b, p.byte i = .ok b → Fine (f b)) : Fine (p.byte i >>= f) := Fine.bind (Fine.byte h) hf
theorem Fine.bind_word {α : Type} {m : Bool} {p : Pdu} {i : Nat} {f : Nat → Except Fault α} (h : i + 1 < p.buf.length)
    (hf : ∀ b, p.word m i = .ok b → Fine (f b)) : Fine (p.word m i >>= f) := Fine.bind (Fine.word h) hf

macro "fine_step" : tactic => `(tactic| first
  | with_reducible exact Fine.ok
  | with_reducible exact Fine.pure
  | with_reducible apply Fine.assertPgmIdle
  | with_reducible apply Fine.assertPgmActive
  | with_reducible apply Fine.assertDaqStopped
  | with_reducible apply Fine.assertUnlocked
  | with_reducible apply Fine.checkMem
  | (with_reducible apply Fine.ite) <;> intro _
  | (with_reducible apply Fine.bind_byte (by omega)); intro _ _
  | (with_reducible apply Fine.bind_word (by omega)); intro _ _)

section handlers
variable {cfg : Cfg} (hc : cfg.Ok) (env : Env) {s : St} {p : Pdu} (hp : Buffered cfg p)
include hc hp

theorem fine_setMta (h : ¬ Hazard cfg env s p .setMta) : Fine (setMtaRes cfg s p) := by
  have h8 := hc.cto_lo
  unfold Buffered at hp
  unfold setMtaRes
  fine_step
  exact Fine.bind (Fine.dword (by omega) h) fun _ _ => Fine.pure

theorem fine_buildChecksum (h : ¬ Hazard cfg env s p .buildChecksum) : Fine (buildChecksumRes cfg env s p) := by
  have h8 := hc.cto_lo
  unfold Buffered at hp
  unfold buildChecksumRes
  refine Fine.bind (Fine.dword (by omega) h) fun _ _ => ?_
  repeat' fine_step
  unfold startChecksum
  repeat' fine_step

theorem fine_programClear (h : ¬ Hazard cfg env s p .programClear) : Fine (programClearRes cfg s p) := by
  have h8 := hc.cto_lo
  unfold Buffered at hp
  unfold programClearRes
  fine_step
  refine Fine.bind (Fine.dword (by omega) h) fun _ _ => ?_
  repeat' fine_step

theorem fine_getSeed (h : ¬ Hazard cfg env s p .getSeed) : Fine (getSeedRes cfg env s p) := by
  have h8 := hc.cto_lo
  unfold Buffered at hp
  unfold getSeedRes
  fine_step
  refine Fine.bind (Fine.byte (by omega)) fun r hr => ?_
  fine_step
  fine_step
  · fine_step
  fine_step
  · refine Fine.copyGuard (fun hx => h ⟨hx.1, r, byte_ok hr, by have := hx.2; omega⟩) (Fine.sendBytes ?_)
    simp
    omega
  · exact Fine.sendBytes (by simp; omega)

theorem fine_upload (h : ¬ Hazard cfg env s p .upload) : Fine (uploadRes cfg env s p) := by
  have h8 := hc.cto_lo
  unfold Buffered at hp
  unfold uploadRes
  refine Fine.bind (Fine.byte (by omega)) fun n hn => ?_
  fine_step
  fine_step
  refine Fine.ite (fun _ => Fine.ok) (fun hl => Fine.upload (by omega) ?_ ?_)
  · intro hx
    have hz : n = 0 := UInt8.toNat_inj.mp hx.2
    exact h ⟨hx.1, hz ▸ byte_ok hn⟩
  · intro hb
    simp [hb] at hl
    omega

theorem fine_shortUpload (h : ¬ Hazard cfg env s p .shortUpload) : Fine (shortUploadRes cfg env s p) := by
  have h8 := hc.cto_lo
  unfold Buffered at hp
  unfold shortUploadRes
  refine Fine.bind (Fine.byte (by omega)) fun n hn => ?_
  fine_step
  fine_step
  refine Fine.ite (fun _ => Fine.ok) (fun hl => ?_)
  fine_step
  refine Fine.bind (Fine.dword (by omega) fun hx => h (.inl hx)) fun _ _ => Fine.upload (by omega) ?_ (by omega)
  intro hx
  have hz : n = 0 := UInt8.toNat_inj.mp hx.2
  exact h (.inr ⟨hx.1, hz ▸ byte_ok hn⟩)

theorem fine_downloadMax (h : ¬ Hazard cfg env s p .downloadMax) : Fine (downloadMaxRes cfg env s p) := by
  have h8 := hc.cto_lo
  unfold Buffered at hp
  unfold downloadMaxRes
  fine_step
  refine Fine.bind (Fine.downloadCopy (by unfold Cfg.dlPayload; omega) ?_) fun _ _ => Fine.pure
  intro hx
  rcases hx.2 with h0 | h0
  · exact h ⟨hx.1, h0⟩
  · omega

theorem fine_download (h : ¬ Hazard cfg env s p .download) : Fine (downloadRes cfg env s p) := by
  have h8 := hc.cto_lo
  unfold Buffered at hp
  unfold downloadRes
  refine Fine.bind (Fine.byte (by omega)) fun n hn => ?_
  have hz : ¬ (cfg.asserts = true ∧ (mapped cfg env s.mta = 0 ∨ n.toNat = 0)) := by
    rintro ⟨hx, h0 | h0⟩
    · exact h ⟨hx, .inr h0⟩
    · have hz : n = 0 := UInt8.toNat_inj.mp h0
      exact h ⟨hx, .inl (hz ▸ byte_ok hn)⟩
  have hd : cfg.dlPayload = cfg.maxCto - 2 := rfl
  fine_step
  fine_step
  refine Fine.ite (fun _ => ?_) (fun _ => ?_)
  · refine Fine.ite (fun _ => Fine.ok) fun _ => Fine.ite (fun _ => ?_) fun _ => ?_
    · exact Fine.downloadCopy (by omega) fun hx => hz ⟨hx.1, by rcases hx.2 with h0 | h0; exact .inl h0; omega⟩
    · exact Fine.bind (Fine.downloadCopy (by omega) hz) fun _ _ => Fine.pure
  · refine Fine.ite (fun _ => Fine.ok) fun _ => ?_
    exact Fine.bind (Fine.downloadCopy (by omega) hz) fun _ _ => Fine.pure

theorem fine_downloadNext (h : ¬ Hazard cfg env s p .downloadNext) : Fine (downloadNextRes cfg env s p) := by
  have h8 := hc.cto_lo
  unfold Buffered at hp
  unfold downloadNextRes
  refine Fine.bind (Fine.byte (by omega)) fun n hn => ?_
  have hd : cfg.dlPayload = cfg.maxCto - 2 := rfl
  fine_step
  fine_step
  · fine_step
  refine Fine.bind (Fine.downloadCopy (by omega) ?_) fun _ _ => Fine.ite (fun _ => Fine.pure) fun _ => Fine.pure
  rintro ⟨hx, h0 | h0⟩
  · exact h ⟨hx, .inr h0⟩
  · have hz : n = 0 := UInt8.toNat_inj.mp (by simp; omega)
    exact h ⟨hx, .inl (hz ▸ byte_ok hn)⟩

theorem fine_shortDownload (h : ¬ Hazard cfg env s p .shortDownload) : Fine (shortDownloadRes cfg env s p) := by
  have h8 := hc.cto_lo
  unfold Buffered at hp
  unfold shortDownloadRes
  refine Fine.bind (Fine.byte (by omega)) fun n hn => ?_
  refine Fine.bind (Fine.byte (by omega)) fun e he => ?_
  obtain ⟨v, hv, hw⟩ := dword_fine (i := 4) (by omega) fun hx => h (.inl hx)
  rw [hw, ok_bind]
  fine_step
  fine_step
  refine Fine.ite (fun _ => Fine.ok) fun _ => ?_
  refine Fine.bind (Fine.slice (by omega)) fun d hd => Fine.bind (Fine.copyIn ?_) fun _ _ => Fine.pure
  rw [Fine.slice_length hd]
  rintro ⟨hx, h0 | h0⟩
  · exact h (.inr ⟨hx, .inr ⟨e, v, byte_ok he, hv, h0⟩⟩)
  · have hz : n = 0 := UInt8.toNat_inj.mp h0
    exact h (.inr ⟨hx, .inl (hz ▸ byte_ok hn)⟩)

theorem fine_modifyBits (h : ¬ Hazard cfg env s p .modifyBits) : Fine (modifyBitsRes cfg env s p) := by
  have h8 := hc.cto_lo
  unfold Buffered at hp
  unfold modifyBitsRes
  refine Fine.bind (Fine.byte (by omega)) fun S hS => ?_
  refine Fine.bind (Fine.word (by omega)) fun ma hma => ?_
  refine Fine.bind (Fine.word (by omega)) fun mx hmx => ?_
  have hS := byte_ok hS
  have hma := param_of_word hma
  have hmx := param_of_word hmx
  have h32 : ¬ 32 ≤ S.toNat := fun hx => h ⟨S, hS, .inl hx⟩
  fine_step
  refine Fine.bind ?_ fun _ _ => Fine.bind ?_ fun _ _ => Fine.pure
  · unfold shlInt
    rw [if_neg h32, if_neg fun hx => h ⟨S, hS, .inr ⟨hx.1, ma, mx, hma, hmx, .inl hx.2⟩⟩]
    exact Fine.ok
  · unfold shlInt
    rw [if_neg h32, if_neg fun hx => h ⟨S, hS, .inr ⟨hx.1, ma, mx, hma, hmx, .inr hx.2⟩⟩]
    exact Fine.ok

theorem fine_setDaqPtr (h : ¬ Hazard cfg env s p .setDaqPtr) : Fine (setDaqPtrRes cfg s p) := by
  have h8 := hc.cto_lo
  unfold Buffered at hp
  unfold setDaqPtrRes
  fine_step; fine_step; fine_step
  refine Fine.bind (Fine.word (by omega)) fun l hl => ?_
  refine Fine.bind (Fine.byte (by omega)) fun o ho => ?_
  fine_step
  have hb : ¬ BadOdt cfg s.daq (l % 256) o.toNat := fun hb => h ⟨l, o, param_of_word hl, byte_ok ho, hb⟩
  refine Fine.bind ?_ fun _ _ => Fine.ite (fun _ => Fine.pure) fun _ => Fine.pure
  unfold validateOdtEntry
  refine Fine.ite (fun _ => Fine.ok) fun _ => Fine.bind (Fine.ent ?_) fun _ _ => Fine.ite (fun _ => Fine.pure) fun _ => ?_
  · unfold BadOdt at hb; omega
  · rw [getOdt_eq hb]
    exact Fine.ok

theorem fine_writeDaq (h : ¬ Hazard cfg env s p .writeDaq) : Fine (writeDaqRes cfg s p) := by
  have h8 := hc.cto_lo
  unfold Buffered at hp
  unfold writeDaqRes
  fine_step; fine_step; fine_step
  refine Fine.bind (Fine.dword (by omega) fun hx => h (.inl hx)) fun _ _ => ?_
  fine_step; fine_step; fine_step
  rw [writeDaqEntry_eq fun hx => h (.inr hx)]
  exact Fine.ok

/-- The part of the DAQ state that `Xcp_WriteDaqMultiple_Res` relies on after `i` entries. -/
structure Written (d0 d : Daq) (i : Nat) : Prop where
  list : d.ptr.list = d0.ptr.list
  odt : d.ptr.odt = d0.ptr.odt
  entry : d.ptr.entry % 256 = (d0.ptr.entry + i) % 256
  listEl : d.entities d0.ptr.list = d0.entities d0.ptr.list
  odtEl : d.entities (odtIndex d0 d0.ptr.list d0.ptr.odt) = d0.entities (odtIndex d0 d0.ptr.list d0.ptr.odt)

omit hc hp in
theorem Written.index {d0 d : Daq} {i : Nat} (h : Written d0 d i) :
    odtIndex d d.ptr.list d.ptr.odt = odtIndex d0 d0.ptr.list d0.ptr.odt ∧
    entryIndex d d.ptr.list d.ptr.odt d.ptr.entry = entryIndex d0 d0.ptr.list d0.ptr.odt (d0.ptr.entry + i) := by
  have h1 : odtIndex d d.ptr.list d.ptr.odt = odtIndex d0 d0.ptr.list d0.ptr.odt := by
    unfold odtIndex
    rw [h.list, h.odt, h.listEl]
  refine ⟨h1, ?_⟩
  unfold entryIndex
  rw [h1, h.odtEl]
  have := h.entry
  omega

theorem fine_writeDaqMultiple (h : ¬ Hazard cfg env s p .writeDaqMultiple) : Fine (writeDaqMultipleRes cfg s p) := by
  have h8 := hc.cto_lo
  have h255 := hc.cto_hi
  unfold Buffered at hp
  unfold writeDaqMultipleRes
  refine Fine.bind (Fine.byte (by omega)) fun n hn => ?_
  refine Fine.ite (fun _ => Fine.pure) fun hle => ?_
  fine_step; fine_step; fine_step
  refine Fine.bind ?_ fun _ _ => Fine.pure
  have hbody : ∀ d i, i < n.toNat → Written s.daq d i →
      ∃ d', writeDaqMultipleBody cfg p d i = .ok d' ∧ Written s.daq d' (i + 1) := by
    intro d i hi hw
    have hh : ¬ (_ ∨ _) := fun hx => h ⟨n, byte_ok hn, i, hi, hx⟩
    obtain ⟨e1, e2⟩ := hw.index
    simp only [not_or] at hh
    obtain ⟨hh1, hh2, hh3, hh4⟩ := hh
    unfold writeDaqMultipleBody
    have ho : (i * 8 + 2) % 256 = i * 8 + 2 := by omega
    rw [ho]
    obtain ⟨b1, hb1⟩ := Fine.byte (p := p) (i := i * 8 + 2) (by omega)
    obtain ⟨b2, hb2⟩ := Fine.byte (p := p) (i := i * 8 + 2 + 1) (by omega)
    obtain ⟨a, ha⟩ := Fine.dword (cfg := cfg) (p := p) (i := i * 8 + 2 + 2) (by omega) (by simpa using hh1)
    obtain ⟨b3, hb3⟩ := Fine.byte (p := p) (i := i * 8 + 2 + 6) (by omega)
    simp only [hb1, hb2, ha, hb3, ok_bind]
    rw [writeDaqEntry_eq (by
      unfold BadEntry BadOdt at hh2 ⊢
      rw [e1, e2, hw.list]
      exact hh2)]
    refine ⟨_, rfl, hw.list, hw.odt, ?_, ?_, ?_⟩
    · have := hw.entry
      show (d.ptr.entry + 1) % 256 % 256 = _
      omega
    · show (if _ = _ then _ else _) = _
      rw [e2, if_neg fun hx => hh3 hx.symm]
      exact hw.listEl
    · show (if _ = _ then _ else _) = _
      rw [e2, if_neg fun hx => hh4 hx.symm]
      exact hw.odtEl
  obtain ⟨d, hd, _⟩ := Fine.foldlM_idx _ _ hbody (b := s.daq) ⟨rfl, rfl, rfl, rfl, rfl⟩
  exact ⟨d, hd⟩

theorem fine_setDaqListMode (h : ¬ Hazard cfg env s p .setDaqListMode) : Fine (setDaqListModeRes cfg s p) := by
  have h8 := hc.cto_lo
  unfold Buffered at hp
  unfold setDaqListModeRes
  fine_step; fine_step
  refine Fine.bind (Fine.word (by omega)) fun ev hev => ?_
  repeat' fine_step
  refine Fine.bind ?_ fun _ _ => Fine.pure
  unfold addEventChannel
  refine Fine.ite (fun _ => Fine.ok) fun hx => ?_
  exact absurd ⟨ev, param_of_word hev, by omega⟩ h

theorem fine_getDaqListInfo (h : ¬ Hazard cfg env s p .getDaqListInfo) : Fine (getDaqListInfoRes cfg s p) := by
  have h8 := hc.cto_lo
  unfold Buffered at hp
  unfold getDaqListInfoRes getDaqListInfoBody
  refine Fine.bind (Fine.word (by omega)) fun l hl => ?_
  have hx : l % 256 < cfg.maxEnt := Nat.lt_of_not_le fun hx => h ⟨l, param_of_word hl, hx⟩
  repeat' fine_step
  · exact Fine.bind (Fine.ent hx) fun _ _ => Fine.pure
  · exact Fine.bind (Fine.ent hx) fun _ _ => Fine.pure

theorem fine_allocOdt (h : ¬ Hazard cfg env s p .allocOdt) : Fine (allocOdtRes cfg s p) := by
  have h8 := hc.cto_lo
  unfold Buffered at hp
  unfold allocOdtRes
  fine_step; fine_step
  refine Fine.bind (Fine.word (by omega)) fun l hl => ?_
  have hx : l % 256 < cfg.maxEnt := Nat.lt_of_not_le fun hx => h ⟨l, param_of_word hl, hx⟩
  fine_step
  refine Fine.bind ?_ fun _ _ => Fine.pure
  unfold allocOdt
  refine Fine.ite (fun _ => Fine.ok) fun _ => Fine.ite (fun _ => ?_) fun _ => Fine.ok
  exact Fine.bind (Fine.ent hx) fun _ _ => Fine.pure

theorem fine_allocOdtEntry (h : ¬ Hazard cfg env s p .allocOdtEntry) : Fine (allocOdtEntryRes cfg s p) := by
  have h8 := hc.cto_lo
  unfold Buffered at hp
  unfold allocOdtEntryRes
  fine_step; fine_step
  refine Fine.bind (Fine.word (by omega)) fun l hl => ?_
  refine Fine.bind (Fine.byte (by omega)) fun o ho => ?_
  fine_step
  have hb : ¬ BadOdt cfg s.daq (l % 256) o.toNat := fun hb => h ⟨l, o, param_of_word hl, byte_ok ho, hb⟩
  unfold BadOdt at hb
  refine Fine.bind ?_ fun _ _ => Fine.pure
  unfold allocOdtEntry
  refine Fine.ite (fun _ => Fine.ok) fun _ => Fine.ite (fun _ => ?_) fun _ => Fine.ok
  refine Fine.bind (Fine.ent (by omega)) fun e he => Fine.bind (Fine.ent ?_) fun _ _ => Fine.pure
  have he : e.first = (s.daq.entities (l % 256)).first := by
    unfold Daq.ent at he
    rw [if_pos (by omega)] at he
    cases he
    show (if _ then _ else _ : Entity).first = _
    split <;> rfl
  rw [he]
  unfold odtIndex at hb
  omega

theorem fine_startStopDaqList (hl : s.daq.listCount ≤ cfg.maxEnt) : Fine (startStopDaqListRes cfg s p) := by
  have h8 := hc.cto_lo
  unfold Buffered at hp
  unfold startStopDaqListRes startStopDaqListBody startStopDaqListEnd
  repeat' fine_step
  all_goals refine Fine.bind (Fine.getFirstPid hl) fun _ _ => Fine.pure

theorem handler_fine (hl : s.daq.listCount ≤ cfg.maxEnt) (c : Cmd) (h : ¬ Hazard cfg env s p c) :
    Fine (handler cfg env s p c) := by
  have h8 := hc.cto_lo
  have hp' := hp
  unfold Buffered at hp'
  cases c
  case setMta => exact fine_setMta hc env hp h
  case buildChecksum => exact fine_buildChecksum hc env hp h
  case programClear => exact fine_programClear hc env hp h
  case getSeed => exact fine_getSeed hc env hp h
  case upload => exact fine_upload hc env hp h
  case shortUpload => exact fine_shortUpload hc env hp h
  case downloadMax => exact fine_downloadMax hc env hp h
  case download => exact fine_download hc env hp h
  case downloadNext => exact fine_downloadNext hc env hp h
  case shortDownload => exact fine_shortDownload hc env hp h
  case modifyBits => exact fine_modifyBits hc env hp h
  case setDaqPtr => exact fine_setDaqPtr hc env hp h
  case writeDaq => exact fine_writeDaq hc env hp h
  case writeDaqMultiple => exact fine_writeDaqMultiple hc env hp h
  case setDaqListMode => exact fine_setDaqListMode hc env hp h
  case getDaqListInfo => exact fine_getDaqListInfo hc env hp h
  case allocOdt => exact fine_allocOdt hc env hp h
  case allocOdtEntry => exact fine_allocOdtEntry hc env hp h
  case startStopDaqList => exact fine_startStopDaqList hc hp hl
  all_goals unfold_handlers
  all_goals repeat' fine_step
  all_goals (try split)
  all_goals repeat' fine_step

end handlers

/-! ### Reachable states -/

/-- No more lists than pool elements in use, no more of those than the pool has. -/
theorem counts_op {cfg : Cfg} (hc : cfg.Ok) (d d' : Daq)
    (h : (d.allocState ≠ .idle ∧ d.entityCount ≤ cfg.maxEnt) ∧ d.listCount ≤ d.entityCount) (ho : DaqOp cfg d d') :
    (d'.allocState ≠ .idle ∧ d'.entityCount ≤ cfg.maxEnt) ∧ d'.listCount ≤ d'.entityCount := by
  refine ⟨pool_bound_op hc d d' h.1 ho, ?_⟩
  have hlt := hc.ent_lt
  have h1 := h.1.2
  have h2 := h.2
  have hf : ∀ d : Daq, (daqFree d).listCount ≤ (daqFree d).entityCount := by
    intro d; unfold daqFree; simp only; split <;> exact Nat.le_refl 0
  have hi : ∀ d : Daq, (daqInit d).listCount ≤ (daqInit d).entityCount := fun d => hf _
  cases ho with
  | init => exact hi d
  | req r _ a hh =>
    cases r with
    | free => cases hh; exact hf d
    | daq n =>
      have hh := congrArg (fun r => r.toOption.map fun x => x.1) hh
      simp only [applyReq, allocDaq, Except.toOption, Option.map_some, Option.some.injEq] at hh
      subst hh
      split
      · show (if _ then _ else _ : Daq).listCount ≤ (if _ then _ else _ : Daq).entityCount
        split
        · exact hi d
        · exact h2
      · split
        · show (_ % 256 : Nat) ≤ _ % 256
          omega
        · exact h2
    | odt l n =>
      replace hh : allocOdt cfg d (l % 256) n = _ := hh
      unfold allocOdt at hh
      split at hh
      · cases hh
        split
        · exact hi d
        · exact h2
      · split at hh
        · cases he : Daq.ent cfg (d.mapRange d.entityCount n fun e => { e with kind := 2 }) (l % 256) with
          | error e => simp only [he] at hh; cases hh
          | ok e =>
            simp only [he] at hh
            cases hh
            show d.listCount ≤ _ % 256
            omega
        · cases hh; exact h2
    | entry l o n =>
      replace hh : allocOdtEntry cfg d (l % 256) o n = _ := hh
      unfold allocOdtEntry at hh
      split at hh
      · cases hh
        split
        · exact hi d
        · exact h2
      · split at hh
        · cases he : Daq.ent cfg (d.mapRange d.entityCount n fun e => { e with kind := 3 }) (l % 256) with
          | error e => simp only [he] at hh; cases hh
          | ok e =>
            simp only [he, ok_bind] at hh
            cases he' : Daq.ent cfg (d.mapRange d.entityCount n fun e => { e with kind := 3 }) ((e.first + o) % 256) with
            | error e => simp only [he'] at hh; cases hh
            | ok e' =>
              simp only [he'] at hh
              cases hh
              show d.listCount ≤ _ % 256
              omega
        · cases hh; exact h2
  | ptr => exact h2
  | write _ _ _ _ hh => rw [(write_same hh).2.2.2.1, (write_same hh).2.1]; exact h2
  | event l ev _ _ hh =>
    unfold addEventChannel at hh
    split at hh
    · cases hh; exact h2
    · cases hh
  | mode => exact h2
  | running => exact h2
  | queue => exact h2

theorem run_lists {cfg : Cfg} (hc : cfg.Ok) {mem : Mem} {h : List (Env × Op)} {s : St}
    (hr : run cfg (St.init cfg mem) h = .ok s) : s.daq.listCount ≤ cfg.maxEnt := by
  have := daq_invariant (I := fun d => (d.allocState ≠ .idle ∧ d.entityCount ≤ cfg.maxEnt) ∧ d.listCount ≤ d.entityCount)
    (counts_op hc) hr
    ⟨⟨init_not_idle cfg mem, by show (daqInit _).entityCount ≤ _; rw [(empty_init _).used]; omega⟩,
      Nat.le_refl 0⟩
  omega

/-- A state the slave can reach from start-up. -/
def Spec.Reachable (cfg : Cfg) (s : St) : Prop := ∃ mem h, run cfg (St.init cfg mem) h = .ok s

/-- C60 in full: no packet leads to a fault. -/
def Spec.NeverFaults : Prop :=
  ∀ (cfg : Cfg) (s : St), cfg.Ok → Reachable cfg s → ∀ (env : Env) (p : Pdu), Buffered cfg p →
    ∃ s', step cfg env s (.cmd p) = .ok s'

/-- C60 with a complete list of exceptions: in every reachable state, every packet is processed
without a fault, if its code is one of the standard's and the command's `Hazard` does not hold.
The exceptions count only when the slave would execute the command. -/
theorem C60_no_fault_partial {cfg : Cfg} (hc : cfg.Ok) {s : St} (hs : Reachable cfg s) (env : Env) {p : Pdu}
    (hp : Buffered cfg p)
    (hcode : Ready s → ∃ c, code p = some (cmdCode c) ∧ (cfg.supports c = true → ¬ Hazard cfg env s p c)) :
    ∃ s', step cfg env s (.cmd p) = .ok s' := by
  obtain ⟨mem, h, hr⟩ := hs
  have h8 := hc.cto_lo
  have hp' := hp
  unfold Buffered at hp'
  obtain ⟨b, hb⟩ := Fine.byte (p := p) (i := 0) (by omega)
  show Fine (dispatch cfg env s p)
  unfold dispatch
  rw [hb, ok_bind]
  refine Fine.ite (fun hconn => ?_) (fun _ => Fine.ite (fun _ => Fine.ok) fun _ => Fine.pure)
  refine Fine.ite (fun _ => Fine.pure) fun hbusy => ?_
  obtain ⟨c, hcc, hh⟩ := hcode ⟨hconn, by simpa using hbusy⟩
  have hbc : b = cmdCode c := by
    have := byte_ok hb
    rw [show p.buf[0]? = some (cmdCode c) from hcc] at this
    cases this; rfl
  rw [hbc, table_code]
  refine Fine.ite (fun hsup => ?_) fun _ => Fine.ok
  have hsame := bumpReceived_same cfg s
  refine handler_fine hc env hp ?_ c ?_
  · rw [hsame.daq]; exact run_lists hc hr
  · have hx := hh hsup
    cases c <;> simpa only [Hazard, hsame.daq, hsame.mta] using hx

/-- Neither `Xcp_MainFunction` nor the sending of event and service request packets faults. -/
theorem C60_other_calls {cfg : Cfg} (hc : cfg.Ok) {s : St} (hs : Reachable cfg s) (env : Env) (code : UInt8)
    (data : List UInt8) :
    (∃ s', step cfg env s .main = .ok s') ∧ (∃ s', step cfg env s (.eventPkt code data) = .ok s') ∧
    (∃ s', step cfg env s (.servPkt code data) = .ok s') := by
  obtain ⟨mem, h, hr⟩ := hs
  have h8 := hc.cto_lo
  have hb := run_busy hr
  refine ⟨?_, ?_, ?_⟩
  · refine Fine.bind (Fine.ite (fun _ => Fine.uploadSingleBlock (by omega) ?_) fun _ => Fine.ok) fun _ _ => Fine.pure
    rintro ⟨_, h1, h2⟩
    have := (hb.rem h1).1
    omega
  · exact Fine.sendBytes (by simp; omega)
  · exact Fine.sendBytes (by simp; omega)

/-! ### Every exception is needed -/

/-- Everything switched on, nothing protected. -/
def Ex.open' : Cfg := { Ex.sec with protCal := false, protDaq := false, protPgm := false, protPag := false, protStim := false }

theorem Ex.open_ok : Ex.open'.Ok := by constructor <;> decide

/-- The fault of the last packet of a history (no fault before). -/
def Ex.lastFault (cfg : Cfg) (h : List (List UInt8)) : Option (Option Fault) :=
  match run cfg (St.init cfg Ex.mem) (h.dropLast.map Ex.c) with
  | .ok s => some (match h.getLast? with
    | some bs => (match step cfg Ex.env s (.cmd (Ex.pkt bs)) with | .ok _ => none | .error e => some e)
    | none => none)
  | .error _ => none

/-- A null address for `SET_MTA`. -/
def Ex.null : List UInt8 := [0xF6, 0, 0, 0, 0, 0, 0, 0]

/-- C60 is false for each of the commands with a hazard, and for the codes the standard does not
use.  In order: a code outside the table; SET_MTA, BUILD_CHECKSUM, SHORT_UPLOAD and PROGRAM_CLEAR with a
large number; UPLOAD and SHORT_UPLOAD of nothing; DOWNLOAD of nothing and to address 0; DOWNLOAD_MAX and
SHORT_DOWNLOAD to address 0; MODIFY_BITS by 32 and by 31 bits; WRITE_DAQ and WRITE_DAQ_MULTIPLE past the end
of the pool; SET_DAQ_LIST_MODE with event 3 of 3; GET_DAQ_LIST_INFO for list 100 of a pool of 100; ALLOC_ODT
for list 100; ALLOC_ODT_ENTRY for ODT 99; SET_DAQ_PTR to an ODT of a list that was given ODTs twice. -/
theorem C60_fails_each :
    [[[0xFF], [0xC0]],
     [[0xFF], [0xF6, 0, 0, 0, 0, 0, 0, 0x80]],
     [[0xFF], [0xF3, 0, 0, 0, 0, 0, 0, 0x80]],
     [[0xFF], [0xF4, 1, 0, 0, 0, 0, 0, 0x80]],
     [[0xFF], [0xD2], [0xD1, 0, 0, 0, 0, 0, 0, 0x80]],
     [[0xFF], [0xF5, 0]],
     [[0xFF], [0xF4, 0, 0, 0, 0, 0, 0, 0]],
     [[0xFF], [0xF6, 0, 0, 0, 0, 0x10, 0, 0], [0xF0, 0]],
     [[0xFF], Ex.null, [0xF0, 1, 7]],
     [[0xFF], Ex.null, [0xEE, 7]],
     [[0xFF], [0xED, 1, 0, 0, 0, 0, 0, 0, 7]],
     [[0xFF], [0xEC, 32, 0, 0, 0, 0]],
     [[0xFF], [0xEC, 31, 0, 0, 0, 0]],
     [[0xFF], [0xD6], [0xD5, 0, 1, 0], [0xD4, 0, 0, 0, 1], [0xD3, 0, 0, 0, 0, 98], [0xE2, 0, 0, 0, 0, 97],
       [0xE1, 0xFF, 1, 0, 0, 0x10, 0, 0], [0xE1, 0xFF, 1, 0, 0, 0x10, 0, 0]],
     [[0xFF], [0xD6], [0xD5, 0, 1, 0], [0xD4, 0, 0, 0, 1], [0xD3, 0, 0, 0, 0, 98], [0xE2, 0, 0, 0, 0, 97],
       [0xC7, 2, 0xFF, 1, 0, 0x10, 0, 0, 0, 0, 0xFF, 1, 0, 0x10, 0, 0, 0, 0]],
     [[0xFF], [0xE0, 0, 0, 0, 3, 0, 1, 0]],
     [[0xFF], [0xD8, 0, 100, 0]],
     [[0xFF], [0xD6], [0xD5, 0, 1, 0], [0xD4, 0, 100, 0, 1]],
     [[0xFF], [0xD6], [0xD5, 0, 1, 0], [0xD4, 0, 0, 0, 1], [0xD3, 0, 0, 0, 99, 1]],
     [[0xFF], [0xD6], [0xD5, 0, 1, 0], [0xD4, 0, 0, 0, 60], [0xD4, 0, 0, 0, 39], [0xE2, 0, 0, 0, 39, 0]]].map
      (Ex.lastFault Ex.open') =
    [.dispatchOob, .intOverflow, .intOverflow, .intOverflow, .intOverflow, .assertFail, .assertFail, .assertFail, .assertFail,
     .assertFail, .assertFail, .shiftOob, .intOverflow, .entityOob, .entityOob, .eventOob, .entityOob, .entityOob, .entityOob,
     .entityOob].map (fun f => some (some f)) := by decide +kernel

/-- A seed hook that returns nothing. -/
def Ex.noSeed : Env := { Ex.env with seed := fun _ => [] }

theorem C60_fails_seed :
    Ex.faultOf Ex.sec [Ex.c [0xFF]] = none ∧
    Ex.faultOf Ex.sec [Ex.c [0xFF], (Ex.noSeed, .cmd (Ex.pkt [0xF8, 0, 4]))] = some .assertFail := by
  refine ⟨?_, ?_⟩ <;> decide +kernel

/-- C60 is false, for any slave that is connected and idle: a packet with any code below 0xC7 is
dispatched through memory behind the command table. -/
theorem C60_fails_codes {cfg : Cfg} {s : St} (hr : Ready s) (env : Env) {p : Pdu} {b : UInt8}
    (hp : code p = some b) (hb : b.toNat < 0xC7) : step cfg env s (.cmd p) = .error .dispatchOob := by
  simp only [step, dispatch, byte_of_code hp, hr.conn, hr.idle, ok_bind, table_lo hb]
  rfl

/-- C60 is false for the simulator. -/
theorem C60_fails : ¬ NeverFaults := by
  intro h
  obtain ⟨s, hs⟩ : ∃ s, run Ex.sim (St.init Ex.sim Ex.mem) [Ex.c [0xFF]] = .ok s := ⟨_, rfl⟩
  obtain ⟨s', hs'⟩ := h Ex.sim s Ex.sim_ok ⟨_, _, hs⟩ Ex.env (Ex.pkt [0xC0]) (by unfold Buffered; decide)
  have h1 : Ex.obs Ex.sim [Ex.c [0xFF]] (fun s => (s.connected, s.busy)) = some (true, false) := by decide +kernel
  unfold Ex.obs at h1
  rw [hs] at h1
  simp only [Option.some.injEq, Prod.mk.injEq] at h1
  rw [C60_fails_codes (b := 0xC0) ⟨h1.1, h1.2⟩ Ex.env rfl (by decide)] at hs'
  cases hs'

/-- A whole session without a hazard: nothing faults (connect, set MTA, upload, download, free, allocate,
configure, start, stop, disconnect). -/
example : (Ex.frames Ex.open' ([[0xFF], [0xF6, 0, 0, 0, 0, 0x10, 0, 0], [0xF5, 4], [0xF0, 2, 1, 2], [0xD6], [0xD5, 0, 2, 0],
    [0xD4, 0, 0, 0, 1], [0xD4, 0, 1, 0, 1], [0xD3, 0, 0, 0, 0, 2], [0xD3, 0, 1, 0, 0, 1], [0xE2, 0, 1, 0, 0, 0],
    [0xE1, 0xFF, 4, 0, 0, 0x10, 0, 0], [0xE0, 0, 1, 0, 2, 0, 1, 0], [0xDE, 2, 1, 0], [0xDD, 1], [0xDD, 0], [0xFE]].map Ex.c)).map
      List.length = some 17 := by decide +kernel

end Xcp
