import Verif.Proofs.AllocTrace
/-
C27: dynamic allocation follows the XCP sequence.

True when "nothing allocated yet" counts as a FREE_DAQ: the initialisation of the slave (at
start-up, on disconnect and after a wrong key) leaves the sequence in the state after FREE_DAQ, so
ALLOC_DAQ is then accepted without a FREE_DAQ packet (`C27_implicit_free`).  With the option
XCP_DAQ_ENABLE_RESET_DYN_DAQ_CONFIG_ON_SEQUENCE_ERROR an out-of-order call does change something: it throws
the configuration away (`C27_reset`).
-/
set_option autoImplicit false
namespace Xcp
open Spec

/-- C27: in every history that starts with nothing allocated, an allocation request is answered
ERR_SEQUENCE exactly when it is out of order with respect to the requests accepted so far. -/
theorem C27_sequence {cfg : Cfg} (hs : ShortOk cfg) (ha : AllocOn cfg) {s s' : St} (h0 : Empty s.daq)
    {t : List (AllocReq × UInt8)} (h : AllocTrace cfg s t s') :
    Each (fun t1 r a => a = 0x29 ↔ ¬ r.legal (phaseAfter cfg.resetOnSeqErr t1)) t := by
  intro t1 r a t2 e
  obtain ⟨h1, h2⟩ := (trace_phase hs ha h0 h).2.2 t1 r a t2 e
  constructor
  · intro h3 h4
    rcases h2 h4 with h5 | h5 <;> subst h3 <;> exact absurd h5 (by decide)
  · exact h1

/-- C27: a request in order is accepted, or does not fit into the pool. -/
theorem C27_accepted {cfg : Cfg} (hs : ShortOk cfg) (ha : AllocOn cfg) {s s' : St} (h0 : Empty s.daq)
    {t : List (AllocReq × UInt8)} (h : AllocTrace cfg s t s') :
    Each (fun t1 r a => r.legal (phaseAfter cfg.resetOnSeqErr t1) → a = 0xFF ∨ a = 0x30) t :=
  fun t1 r a t2 e => ((trace_phase hs ha h0 h).2.2 t1 r a t2 e).2

/-- C27: FREE_DAQ is always accepted, and leaves nothing allocated. -/
theorem C27_free {cfg : Cfg} (hs : ShortOk cfg) (ha : AllocOn cfg) {env : Env} {s : St} (hd : DaqReady cfg s) {p : Pdu}
    (hp : code p = some 0xD6) (hi : s.daq.allocState ≠ .idle) :
    ∃ s', step cfg env s (.cmd p) = .ok s' ∧ Answers cfg s s' [0xFF] ∧ Empty s'.daq := by
  have hp : IsReq cfg.motorola p .free := hp
  have hst := alloc_step env hd (ha .free) hp
  have : ∃ s', step cfg env s (.cmd p) = .ok s' := by rw [hst]; exact ⟨_, rfl⟩
  obtain ⟨s', h⟩ := this
  obtain ⟨a, h1, h2, -⟩ := request_step hs ha hd hp h
  have hf : applyReq cfg s.daq .free = .ok (daqFree s.daq, ERR_SUCCESS) := by
    simp only [applyReq, daqFreeResult, (allocOk_rank _ hi).1, if_true]
  rw [hf] at h1
  simp only [Except.ok.injEq, Prod.mk.injEq] at h1
  obtain ⟨h1, rfl⟩ := h1
  exact ⟨s', h, h2, h1 ▸ empty_free s.daq⟩

/-- The slave is in a state in which C27_free applies, from start-up on. -/
theorem C27_reachable {cfg : Cfg} {mem : Mem} {h : List (Env × Op)} {s : St} (hr : run cfg (St.init cfg mem) h = .ok s) :
    s.daq.allocState ≠ .idle :=
  daq_invariant (I := fun d => d.allocState ≠ .idle) not_idle_op hr (init_not_idle cfg mem)

/-- C27: without the option to reset on sequence errors, an out-of-order request changes nothing. -/
theorem C27_unchanged {cfg : Cfg} (hs : ShortOk cfg) (ha : AllocOn cfg) (hn : cfg.resetOnSeqErr = false) {env : Env}
    {s s' : St} (hd : DaqReady cfg s) (hi : s.daq.allocState ≠ .idle) {p : Pdu} {r : AllocReq}
    (hp : IsReq cfg.motorola p r) (h : step cfg env s (.cmd p) = .ok s') (hans : Answers cfg s s' [0xFE, 0x29]) :
    Refused cfg s s' 0x29 := by
  obtain ⟨a, h1, h2, h3⟩ := request_step hs ha hd hp h
  have ha' : a = 0x29 := by
    have : Answers cfg s s' (resp 0x29) := hans
    exact (resp_inj this h2).symm
  subst ha'
  obtain ⟨g1, g2, g3⟩ := applyReq_code hi h1
  have hd' : s'.daq = s.daq := by
    by_cases hl : r.legal (phase s.daq.allocState)
    · by_cases hf : r = .free ∨ s.daq.entityCount + (cutReq r).size ≤ cfg.maxEnt
      · exact absurd (g3 hl hf).1 (by decide)
      · exact (g2 hl (by omega) (fun h => hf (Or.inl h))).2
    · have := (g1 hl).2
      rw [hn] at this
      exact this
  rw [hd'] at h3
  exact ⟨h2, h3⟩

/-- C27 in its strict reading is false: after start-up, and again after a wrong key, ALLOC_DAQ is
accepted although no FREE_DAQ was sent. -/
theorem C27_implicit_free :
    Ex.frames Ex.sim [Ex.c [0xFF], Ex.c [0xD5, 0, 2, 0]] =
      some [[8, 0, 0, 0, 0xFF, 0x15, 0x80, 64, 64, 0, 1, 1], [1, 0, 1, 0, 0xFF]] := by decide +kernel

/-- With the option to reset on sequence errors, an out-of-order ALLOC_DAQ throws the whole
configuration away. -/
theorem C27_reset :
    let h := [Ex.c [0xFF], Ex.c [0xD6], Ex.c [0xD5, 0, 1, 0], Ex.c [0xD4, 0, 0, 0, 2]]
    Ex.obs Ex.sim h (fun s => (s.daq.listCount, s.daq.odtCount, s.daq.entityCount)) = some (1, 2, 3) ∧
    Ex.obs Ex.sim (h ++ [Ex.c [0xD5, 0, 1, 0]]) (fun s => (s.daq.listCount, s.daq.odtCount, s.daq.entityCount,
      (s.tx.map Frame.bytes).getLast?)) = some (0, 0, 0, some [2, 0, 4, 0, 0xFE, 0x29]) := by
  refine ⟨?_, ?_⟩ <;> decide +kernel

/-- The start-up state has nothing allocated. -/
example : Empty (St.init Ex.sim Ex.mem).daq := empty_init _

/-- Orders that are accepted and rejected. -/
example : Ex.frames { Ex.sim with resetOnSeqErr := false } [Ex.c [0xFF], Ex.c [0xD6], Ex.c [0xD4, 0, 0, 0, 1], Ex.c [0xD5, 0, 1, 0],
    Ex.c [0xD5, 0, 1, 0], Ex.c [0xD3, 0, 0, 0, 0, 1], Ex.c [0xD4, 0, 0, 0, 1], Ex.c [0xD4, 0, 1, 0, 1], Ex.c [0xD3, 0, 0, 0, 0, 1],
    Ex.c [0xD4, 0, 1, 0, 1], Ex.c [0xD6]] =
    some [[8, 0, 0, 0, 0xFF, 0x15, 0x80, 64, 64, 0, 1, 1], [1, 0, 1, 0, 0xFF], [2, 0, 2, 0, 0xFE, 0x29], [1, 0, 3, 0, 0xFF],
      [1, 0, 4, 0, 0xFF], [2, 0, 5, 0, 0xFE, 0x29], [1, 0, 6, 0, 0xFF], [1, 0, 7, 0, 0xFF], [1, 0, 8, 0, 0xFF],
      [2, 0, 9, 0, 0xFE, 0x29], [1, 0, 10, 0, 0xFF]] := by decide +kernel

end Xcp
