import Verif.Props.C10_Upload
import Verif.Proofs.TxHandlers
import Verif.Proofs.Ck
/-
C55: GET_ID makes the identification readable.
-/
set_option autoImplicit false
namespace Xcp
open Spec

/-- The identification (address, length) available under a type: types 0 and 1 are
configured, all others are the hook's business if there is one. -/
def Spec.identification (cfg : Cfg) (env : Env) (ty : UInt8) : Option (UInt32 × Nat) :=
  match ty.toNat with
  | 0 => some cfg.id0
  | 1 => some cfg.id1
  | _ => if cfg.getIdHook = true then env.getId ty else none

theorem getIdLookup_eq (cfg : Cfg) (env : Env) (ty : UInt8) : getIdLookup cfg env ty = identification cfg env ty := by
  unfold getIdLookup identification
  split
  · next h => subst h; rfl
  · split
    · next h => subst h; rfl
    · next h0 h1 =>
      have h0' : ty.toNat ≠ 0 := fun h => h0 (UInt8.toNat_inj.mp h)
      have h1' : ty.toNat ≠ 1 := fun h => h1 (UInt8.toNat_inj.mp h)
      match h : ty.toNat, h0', h1' with
      | n + 2, _, _ => rfl

/-- C55, available: the response carries the length and the MTA points at the
identification. -/
theorem C55_available {cfg : Cfg} (hs : ShortOk cfg) (hsup : cfg.supports .getId = true) (env : Env) {s : St}
    (hr : Ready s) {p : Pdu} {ty : UInt8} (hp : code p = some 0xFA) (ht : p.buf[1]? = some ty)
    {a : UInt32} {n : Nat} (hid : identification cfg env ty = some (a, n)) :
    ∃ s', step cfg env s (.cmd p) = .ok s' ∧ Answers cfg s s' ([0xFF, 0, 0, 0] ++ enc false 4 n) ∧
      s'.mta = ⟨0, a⟩ ∧ SameCore { s with mta := ⟨0, a⟩ } s' := by
  have hb := bumpReceived_same cfg s
  refine ⟨send8 cfg { bumpReceived cfg s with mta := ⟨0, a⟩ } ([0xFF, 0, 0, 0] ++ leBytes 4 n), ?_, ?_, rfl, ?_⟩
  · rw [hr.stepc env .getId hp hsup]
    simp only [handler, getIdRes, byte_eq ht, ok_bind, getIdLookup_eq, hid]
    rfl
  · rw [← leBytes_enc]
    exact send8_answers hs (by simp [leBytes_length]) (by simp)
  · exact ⟨hb.connected, hb.busy, hb.daq, hb.pgm, hb.resProt, hb.seedReq, rfl, hb.slaveBlk, hb.masterBlk, hb.ck, hb.mem⟩

/-- C55, not available: length 0, and the MTA does not change. -/
theorem C55_unavailable {cfg : Cfg} (hs : ShortOk cfg) (hsup : cfg.supports .getId = true) (env : Env) {s : St}
    (hr : Ready s) {p : Pdu} {ty : UInt8} (hp : code p = some 0xFA) (ht : p.buf[1]? = some ty)
    (hid : identification cfg env ty = none) :
    ∃ s', step cfg env s (.cmd p) = .ok s' ∧ Answers cfg s s' [0xFF, 0, 0, 0, 0, 0, 0, 0] ∧
      s'.mta = s.mta ∧ SameCore s s' := by
  have hb := bumpReceived_same cfg s
  refine ⟨send8 cfg (bumpReceived cfg s) ([0xFF, 0, 0, 0] ++ leBytes 4 0), ?_, ?_, ?_, ?_⟩
  · rw [hr.stepc env .getId hp hsup]
    simp only [handler, getIdRes, byte_eq ht, ok_bind, getIdLookup_eq, hid]
    rfl
  · exact send8_answers hs (by simp [leBytes_length]) (by simp)
  · exact hb.mta
  · exact hb.trans (send8_same ..)

/-- C55, the whole exchange: after GET_ID any uploads that together ask for the announced
number of bytes return the identification.  (Without slave block mode and address
mapper; the memory hook, if any, must allow the uploads.) -/
theorem C55_identification {cfg : Cfg} (hs : ShortOk cfg) (hc : cfg.Ok) (hsup : cfg.supports .getId = true)
    (hsb : cfg.slaveBlock = false) (hup : cfg.supports .upload = true) (hmap : cfg.mapper = false)
    (env : Env) {s : St} (hr : Ready s) (hpg : s.pgm ≠ .active) (ho : TxOk cfg s) {p : Pdu} {ty : UInt8}
    (hp : code p = some 0xFA) (ht : p.buf[1]? = some ty) {a : UInt32} {n : Nat}
    (hid : identification cfg env ty = some (a, n)) (ups : List (Env × Pdu × UInt8))
    (hu : ∀ u ∈ ups, ∀ m, UploadOk cfg u.1 m u.2.1 u.2.2) (hn : (ups.map fun u => u.2.2.toNat).sum = n) :
    ∃ (s' : St) (f : Frame) (fs : List Frame) (chunks : List (List UInt8)),
      run cfg s ((env, .cmd p) :: ups.map fun u => (u.1, .cmd u.2.1)) = .ok s' ∧
      s'.tx = s.tx ++ f :: fs ∧ Carries cfg f ([0xFF, 0, 0, 0] ++ enc false 4 n) ∧ CarriesAll cfg fs chunks ∧
      chunks.flatten = bytesAt s.mem a n := by
  obtain ⟨s1, h1, ⟨f, htx, hf⟩, hm, hcore⟩ := C55_available hs hsup env hr hp ht hid
  obtain ⟨s', fs, chunks, h2, htx2, hca, -, hfl, -, -⟩ := C10_upload_sequence hsb hup hmap (s := s1)
    ⟨by rw [hcore.connected]; exact hr.conn, by rw [hcore.busy]; exact hr.idle⟩ (by rw [hcore.pgm]; exact hpg)
    (step_tx hc env _ ho s1 h1).out_len ups hu
  refine ⟨s', f, fs, chunks, ?_, ?_, hf, hca, ?_⟩
  · simp only [run, h1, ok_bind]; exact h2
  · rw [htx2, htx]; simp
  · rw [hfl, hn, hm, hcore.mem]

/-- The simulator's identification 1 has 15 bytes at 0x2000; read in two uploads.  Type 4 is
not available. -/
example : Ex.frames Ex.sim [Ex.c [0xFF], Ex.c [0xFA, 1], Ex.c [0xF5, 10], Ex.c [0xF5, 5], Ex.c [0xFA, 4]] =
    some [[8, 0, 0, 0, 0xFF, 0x15, 0x80, 64, 64, 0, 1, 1], [8, 0, 1, 0, 0xFF, 0, 0, 0, 15, 0, 0, 0],
      [11, 0, 2, 0, 0xFF, 0, 1, 2, 3, 4, 5, 6, 7, 8, 9], [6, 0, 3, 0, 0xFF, 10, 11, 12, 13, 14],
      [8, 0, 4, 0, 0xFF, 0, 0, 0, 0, 0, 0, 0]] := by decide +kernel

end Xcp
