import Verif.Proofs.AllocTrace
/-
C28: allocation never exceeds the pool.

True for ALLOC_DAQ counts below 256.  The count of ALLOC_DAQ is a 16-bit parameter that is cut to
8 bits, so ALLOC_DAQ(256) is accepted and allocates nothing (`C28_fails`).
-/
set_option autoImplicit false
namespace Xcp
open Spec

/-- C28: what is allocated is the sum of the accepted requests since the last FREE_DAQ, and never
exceeds the pool; a request is answered ERR_MEMORY_OVERFLOW exactly when it is in order but does
not fit. -/
theorem C28_pool_partial {cfg : Cfg} (hc : cfg.Ok) (hs : ShortOk cfg) (ha : AllocOn cfg) {s s' : St} (h0 : Empty s.daq)
    {t : List (AllocReq × UInt8)} (h : AllocTrace cfg s t s') (hsm : ∀ x ∈ t, small x.1) :
    s'.daq.entityCount = usedAfter cfg.resetOnSeqErr t ∧ s'.daq.entityCount ≤ cfg.maxEnt ∧
    Each (fun t1 r a => a = 0x30 ↔ r.legal (phaseAfter cfg.resetOnSeqErr t1) ∧ r ≠ .free ∧
      cfg.maxEnt < usedAfter cfg.resetOnSeqErr t1 + r.size) t := by
  obtain ⟨h1, h2, h3⟩ := trace_used hc hs ha h0 h hsm
  exact ⟨h1, by rw [h1]; exact h2, h3⟩

/-- C28: a request that is answered ERR_MEMORY_OVERFLOW changes nothing. -/
theorem C28_unchanged {cfg : Cfg} (hs : ShortOk cfg) (ha : AllocOn cfg) {env : Env}
    {s s' : St} (hd : DaqReady cfg s) (hi : s.daq.allocState ≠ .idle) {p : Pdu} {r : AllocReq}
    (hp : IsReq cfg.motorola p r) (h : step cfg env s (.cmd p) = .ok s') (hans : Answers cfg s s' [0xFE, 0x30]) :
    Refused cfg s s' 0x30 := by
  obtain ⟨a, h1, h2, h3⟩ := request_step hs ha hd hp h
  have ha' : a = 0x30 := by
    have : Answers cfg s s' (resp 0x30) := hans
    exact (resp_inj this h2).symm
  subst ha'
  obtain ⟨g1, g2, g3⟩ := applyReq_code hi h1
  have hd' : s'.daq = s.daq := by
    by_cases hl : r.legal (phase s.daq.allocState)
    · by_cases hf : r = .free ∨ s.daq.entityCount + (cutReq r).size ≤ cfg.maxEnt
      · exact absurd (g3 hl hf).1 (by decide)
      · exact (g2 hl (by omega) (fun h => hf (Or.inl h))).2
    · exact absurd (g1 hl).1 (by decide)
  rw [hd'] at h3
  exact ⟨h2, h3⟩

/-- The bound on the pool as an invariant of the elementary changes. -/
theorem pool_bound_op {cfg : Cfg} (hc : cfg.Ok) (d d' : Daq) (h : d.allocState ≠ .idle ∧ d.entityCount ≤ cfg.maxEnt)
    (ho : DaqOp cfg d d') : d'.allocState ≠ .idle ∧ d'.entityCount ≤ cfg.maxEnt := by
  refine ⟨not_idle_op d d' h.1 ho, ?_⟩
  have hlt := hc.ent_lt
  have h2 := h.2
  cases ho with
  | init => rw [(empty_init d).used]; omega
  | req r _ a hh =>
    obtain ⟨h1, h2, h3⟩ := applyReq_code h.1 hh
    by_cases hl : r.legal (phase d.allocState)
    · by_cases hf : r = .free ∨ d.entityCount + (cutReq r).size ≤ cfg.maxEnt
      · rw [(h3 hl hf).2.2.2]
        split
        · omega
        · rename_i hne
          rcases hf with hf | hf
          · exact absurd hf hne
          · exact Nat.le_trans (Nat.mod_le _ _) hf
      · rw [(h2 hl (by omega) (fun h => hf (Or.inl h))).2]; exact h.2
    · rw [(h1 hl).2]
      split
      · rw [(empty_init d).used]; omega
      · exact h.2
  | ptr => exact h2
  | write _ _ _ _ hh => rw [(write_same hh).2.2.2.1]; exact h2
  | event l ev _ _ hh => rw [(addEvent_pool hh).used]; exact h2
  | mode => exact h2
  | running => exact h2
  | queue => exact h2

/-- C28: in every reachable state, whatever was sent, no more than the pool is allocated. -/
theorem C28_bound {cfg : Cfg} (hc : cfg.Ok) {mem : Mem} {h : List (Env × Op)} {s : St}
    (hr : run cfg (St.init cfg mem) h = .ok s) : s.daq.entityCount ≤ cfg.maxEnt :=
  (daq_invariant (I := fun d => d.allocState ≠ .idle ∧ d.entityCount ≤ cfg.maxEnt) (pool_bound_op hc) hr
    ⟨init_not_idle cfg mem, by show (daqInit _).entityCount ≤ _; rw [(empty_init _).used]; omega⟩).2

/-- C28 is false in general: ALLOC_DAQ for 256 lists is accepted by a pool of 100 elements, and
allocates nothing; ALLOC_DAQ for 257 lists allocates one. -/
theorem C28_fails :
    Ex.obs Ex.sim [Ex.c [0xFF], Ex.c [0xD6], Ex.c [0xD5, 0, 0, 1]] (fun s => (s.daq.listCount, s.daq.entityCount,
      (s.tx.map Frame.bytes).getLast?)) = some (0, 0, some [1, 0, 2, 0, 0xFF]) ∧
    Ex.obs Ex.sim [Ex.c [0xFF], Ex.c [0xD6], Ex.c [0xD5, 0, 1, 1]] (fun s => (s.daq.listCount, s.daq.entityCount,
      (s.tx.map Frame.bytes).getLast?)) = some (1, 1, some [1, 0, 2, 0, 0xFF]) := by
  refine ⟨?_, ?_⟩ <;> decide +kernel

/-- 60 + 40 lists fit into a pool of 100, one more does not. -/
example : Ex.obs Ex.sim [Ex.c [0xFF], Ex.c [0xD6], Ex.c [0xD5, 0, 60, 0], Ex.c [0xD5, 0, 40, 0], Ex.c [0xD5, 0, 1, 0]]
    (fun s => (s.daq.entityCount, (s.tx.map Frame.bytes).drop 2)) =
      some (100, [[1, 0, 2, 0, 0xFF], [1, 0, 3, 0, 0xFF], [2, 0, 4, 0, 0xFE, 0x30]]) := by decide +kernel

end Xcp
