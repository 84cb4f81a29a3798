import Verif.Props.C43_Background
/-
C44: BUILD_CHECKSUM advances the MTA and honours the size limit.

The limit is honoured (`C44_limit_partial`).  The MTA is never advanced (`C44_fails_mta`):
the comment in `Xcp_BuildChecksum_Res` announces it, the code does not do it, so that two
BUILD_CHECKSUM commands in a row check the same block.
-/
set_option autoImplicit false
namespace Xcp
open Spec

/-- C44, second half: a size above the configured maximum is refused with
ERR_OUT_OF_RANGE and the maximum; nothing is computed and nothing changes. -/
theorem C44_limit_partial {cfg : Cfg} (hs : ShortOk cfg) (hsup : cfg.supports .buildChecksum = true) (env : Env)
    {s : St} (hr : Ready s) (hpg : s.pgm ≠ .active) {p : Pdu} {n : Nat} (hp : code p = some 0xF3)
    (hn : Param cfg.motorola p 4 4 n) (hw : cfg.wrapv = true ∨ n < 2 ^ 31)
    (hal : cfg.memCheck = true → env.memCheck s.mta n .read false = true)
    (hpos : 0 < cfg.maxBlock) (hgt : cfg.maxBlock < n) :
    ∃ s', step cfg env s (.cmd p) = .ok s' ∧
      Answers cfg s s' ([0xFE, 0x22, 0, 0] ++ enc false 4 cfg.maxBlock) ∧ SameCore s s' := by
  have hlt : n < 2 ^ 32 := by simpa using hn.1
  have e : (UInt32.ofNat n).toNat = n := by simpa using Nat.mod_eq_of_lt hlt
  refine ⟨send8 cfg (bumpReceived cfg s) ([0xFE, ERR_OUT_OF_RANGE, 0, 0] ++ leBytes 4 cfg.maxBlock), ?_, ?_, ?_⟩
  · rw [hr.step env hp (c := .buildChecksum) rfl hsup]
    simp only [handler, buildChecksumRes, hn.dword hw, ok_bind, e]
    rw [assertPgmIdle_pass (by simpa using hpg), checkMem_pass (by simpa using hal), if_pos ⟨hpos, hgt⟩]
  · rw [← leBytes_enc]
    exact send8_answers hs (by simp [leBytes_length]) (by simp)
  · exact (bumpReceived_same cfg s).trans (send8_same ..)

/-- C44, first half, is false for every size and configuration: BUILD_CHECKSUM never changes
the MTA, neither at once ... -/
theorem C44_fails_mta {cfg : Cfg} (hsup : cfg.supports .buildChecksum = true) (env : Env)
    {s : St} (hr : Ready s) {p : Pdu} (hp : code p = some 0xF3) :
    ∀ s', step cfg env s (.cmd p) = .ok s' → s'.mta = s.mta := by
  rw [hr.step env hp (c := .buildChecksum) rfl hsup]
  change Post _ (fun t : St => t.mta = s.mta)
  unfold_handlers
  post
  all_goals simp

/-- ... nor later, in the main function. -/
theorem C44_fails_mta_main {cfg : Cfg} (hsb : cfg.slaveBlock = false) (env : Env) (s : St) :
    ∀ s', step cfg env s .main = .ok s' → s'.mta = s.mta := by
  intro s' h
  have e : step cfg env s .main = .ok (mainChecksum cfg s) := by
    show mainFunction cfg env s = _
    simp [mainFunction, mainUpload, hsb]
  rw [e] at h
  cases h
  unfold mainChecksum checksumMain
  repeat' split
  all_goals rfl

/-- Witness: two BUILD_CHECKSUM commands of 9 bytes in a row answer the same checksum, and
an UPLOAD afterwards returns the first bytes of the block. -/
theorem C44_fails_witness :
    (Ex.frames Ex.sim [Ex.c [0xFF], Ex.c [0xF6, 0, 0, 0, 0x31, 0, 0, 0], Ex.c [0xF3, 0, 0, 0, 9, 0, 0, 0],
      Ex.c [0xF3, 0, 0, 0, 9, 0, 0, 0], Ex.c [0xF5, 2]]).map (·.drop 2) =
    some [[8, 0, 2, 0, 0xFF, 8, 0, 0, 0xB1, 0x29, 0, 0], [8, 0, 3, 0, 0xFF, 8, 0, 0, 0xB1, 0x29, 0, 0],
      [3, 0, 4, 0, 0xFF, 0x31, 0x32]] := by decide +kernel

/-- A maximum of 16 bytes. -/
example : (Ex.frames { Ex.sim with maxBlock := 16 } [Ex.c [0xFF], Ex.c [0xF3, 0, 0, 0, 17, 0, 0, 0],
      Ex.c [0xF3, 0, 0, 0, 16, 0, 0, 0]]).map (·.drop 1) =
    some [[8, 0, 1, 0, 0xFE, 0x22, 0, 0, 16, 0, 0, 0],
      [8, 0, 2, 0] ++ [0xFF, 8, 0, 0] ++ enc false 4 (crcCitt (bytesAt Ex.mem 0 16))] := by decide +kernel

end Xcp
