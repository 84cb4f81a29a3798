import Verif.Proofs.AllocTrace
import Verif.Proofs.Layout
import Verif.Model.Example
/-
C59: DAQ PIDs never collide with response PIDs.

Proved for configurations built by requests that name existing lists and ODTs (`Rep`, see C29), with at
most 252 ODTs, which is always the case for pools of at most 253 elements.  False otherwise: a larger pool
has room for ODTs with PIDs 0xFC and up (`C59_fails_pool`), and for every pool WRITE_DAQ can overwrite the
number of ODTs of a list (`C59_fails_write`).
-/
set_option autoImplicit false
namespace Xcp
open Spec

/-- The packet tells a DAQ packet: first byte below 0xFC. -/
def Spec.DaqPid (cfg : Cfg) (f : Frame) : Prop := ∃ b, (payload cfg f).head? = some b ∧ b.toNat < 0xFC

/-- C59, partial: from a reachable state with a proper configuration of at most 252 ODTs, an event sends
only DAQ packets, with PIDs below the number of ODTs.  (Packets of more than 255 bytes are cut or
empty without assertions, see C02.) -/
theorem C59_pids_partial {cfg : Cfg} (hc : cfg.Ok) (hl : cfg.asserts = true ∨ cfg.maxDto ≤ 255) {mem : Mem}
    {h : List (Env × Op)} {s : St} (hr : run cfg (St.init cfg mem) h = .ok s) {c : Conf} (hrep : Rep cfg s.daq c)
    (hodts : c.odts ≤ 0xFC) (env : Env) (ev : UInt8) {s' : St} (hs : step cfg env s (.trigger ev) = .ok s') :
    ∃ fs, s'.tx = s.tx ++ fs ∧ ∀ f ∈ fs, f.kind = .dto ∧ DaqPid cfg f ∧
      ∃ b, (payload cfg f).head? = some b ∧ b.toNat < c.odts := by
  simp only [step] at hs
  split at hs
  · obtain ⟨⟨fs, htx, hfs⟩, -⟩ := trigger_dtos (run_qe hr) s' hs
    refine ⟨fs, htx, fun f hf => ?_⟩
    obtain ⟨hk, d, ⟨pid, hpid, hle, j, hj, hhd⟩, hp, ha⟩ := hfs f hf
    have hlt : s.daq.listForEvent ev.toNat < c.length := by
      apply Nat.lt_of_not_le
      intro hge
      unfold getFirstPid at hpid
      rw [if_pos (by rw [hrep.lists]; exact hge)] at hpid
      cases hpid
    have hg := List.getElem?_eq_getElem hlt
    rw [hrep.firstPid hc hlt] at hpid
    cases hpid
    rw [hrep.listNum _ _ hg] at hj
    have h1 := firstPid_succ hg
    have h2 := firstPid_le c (s.daq.listForEvent ev.toNat + 1)
    have hb : ∃ b, (payload cfg f).head? = some b ∧ b.toNat < c.odts := by
      refine ⟨UInt8.ofNat ((c.firstPid (s.daq.listForEvent ev.toNat) + j) % 256), ?_, ?_⟩
      · rw [hp]
        cases d with
        | nil => cases hhd
        | cons x d =>
          have hne : (x :: d).length % 256 ≠ 0 := by
            rcases hl with hl | hl
            · exact ha hl
            · rw [Nat.mod_eq_of_lt (by omega)]; simp
          obtain ⟨k, hk⟩ := Nat.exists_eq_succ_of_ne_zero hne
          rw [hk, List.take_succ_cons]
          exact hhd
      · simp
        omega
    obtain ⟨b, hb1, hb2⟩ := hb
    exact ⟨hk, ⟨b, hb1, by omega⟩, b, hb1, hb2⟩
  · cases hs
    exact ⟨[], by simp, by simp⟩

/-- Pools of at most 253 elements have room for at most 252 ODTs. -/
theorem C59_small_pool {cfg : Cfg} {d : Daq} {c : Conf} (hrep : Rep cfg d c) (hp : cfg.maxEnt ≤ 253) : c.odts ≤ 0xFC := by
  have h1 := hrep.fits
  have key : ∀ c : List (List Nat), (c.map List.length).sum ≤ (c.map fun o => o.length + o.sum).sum := by
    intro c
    induction c with
    | nil => simp
    | cons o c ih => simp only [List.map_cons, List.sum_cons]; omega
  have h2 := key c
  unfold Conf.size at h1
  unfold Conf.odts
  cases c with
  | nil => simp
  | cons o c => simp only [List.length_cons] at h1; omega

/-- The PID bytes of the DAQ packets of a history. -/
def Ex.pids (cfg : Cfg) (h : List (Env × Op)) : Option (List (Option UInt8)) :=
  Ex.obs cfg h (fun s => (s.tx.filter (·.kind == .dto)).map fun f => (payload cfg f).head?)

/-- An event assigned to list 1 of two lists with two ODTs each. -/
example : Ex.pids Ex.sim [Ex.c [0xFF], Ex.c [0xD6], Ex.c [0xD5, 0, 2, 0], Ex.c [0xD4, 0, 0, 0, 2], Ex.c [0xD4, 0, 1, 0, 2],
    Ex.c [0xE0, 0, 1, 0, 0, 0, 1, 0], Ex.c [0xDE, 2, 1, 0], Ex.c [0xDD, 1], (Ex.env, .trigger 0)] = some [some 2, some 3] := by
  decide +kernel

/-- C59 is false for a pool of 255 elements: two lists, with 252 ODTs and one ODT.  The PID of the last one
is 0xFC, that of a service request. -/
theorem C59_fails_pool :
    Ex.pids { Ex.sim with maxEnt := 255 } [Ex.c [0xFF], Ex.c [0xD6], Ex.c [0xD5, 0, 2, 0], Ex.c [0xD4, 0, 0, 0, 252],
      Ex.c [0xD4, 0, 1, 0, 1], Ex.c [0xE0, 0, 1, 0, 0, 0, 1, 0], Ex.c [0xDE, 2, 1, 0], Ex.c [0xDD, 1], (Ex.env, .trigger 0)] =
    some [some 0xFC] := by decide +kernel

/-- C59 is false for smaller pools, too.  Two lists, of which only list 1 has an ODT; a WRITE_DAQ without
SET_DAQ_PTR then overwrites list 0 with its address, so that it seems to have 0xFF ODTs. -/
theorem C59_fails_write :
    Ex.pids Ex.sim [Ex.c [0xFF], Ex.c [0xD6], Ex.c [0xD5, 0, 2, 0], Ex.c [0xD4, 0, 1, 0, 1], Ex.c [0xE1, 0xFF, 1, 0, 0xFF, 0, 0, 0],
      Ex.c [0xE0, 0, 1, 0, 0, 0, 1, 0], Ex.c [0xDE, 2, 1, 0], Ex.c [0xDD, 1], (Ex.env, .trigger 0)] = some [some 0xFF] := by
  decide +kernel

end Xcp
