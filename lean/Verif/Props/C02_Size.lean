import Verif.Proofs.DaqOps
import Verif.Proofs.TxHandlers
import Verif.Props.C01_Transport
/-
C02: No frame exceeds the announced size, and none is empty.

False for builds without assertions whose MAX_DTO is above 255: the length of a queued DAQ packet is
kept in 8 bits, so a packet of 256 bytes is sent as an empty one.
-/
set_option autoImplicit false
namespace Xcp
open Spec

/-- Every DAQ packet sent so far has at least one payload byte. -/
def NoEmptyDto (cfg : Cfg) (s : St) : Prop := ∀ f ∈ s.tx, f.kind = .dto → 1 ≤ (payload cfg f).length

theorem NoEmptyDto.ctos {cfg : Cfg} {s s' : St} (h : NoEmptyDto cfg s) (hc : Ctos s s') : NoEmptyDto cfg s' := by
  obtain ⟨fs, htx, hk⟩ := hc
  intro f hf hd
  rw [htx] at hf
  rcases List.mem_append.mp hf with hf | hf
  · exact h f hf hd
  · rw [hk f hf] at hd; cases hd

theorem step_dto {cfg : Cfg} (hl : cfg.asserts = true ∨ cfg.maxDto ≤ 255) (env : Env) (op : Op) {s : St}
    (hq : QE s.daq.queue) (h : NoEmptyDto cfg s) : Post (step cfg env s op) (NoEmptyDto cfg) := by
  cases op with
  | cmd p =>
    apply Post.cmd
    · intro t _ h2; exact h.ctos h2
    · intro _ t _ _ h2; exact h.ctos h2
    · intro c _
      refine (handler_ctos env p c).mono (fun t ht => h.ctos ((Ctos.of_eq ?_).trans ht))
      simp
  | main => exact (main_eff env).mono (fun t ht => h.ctos ht.ctos)
  | trigger ev =>
    unfold step
    apply Post.ite
    · intro _
      refine (trigger_dtos hq).mono ?_
      rintro s' ⟨⟨fs, htx, hfs⟩, -⟩ f hf hd
      rw [htx] at hf
      rcases List.mem_append.mp hf with hf | hf
      · exact h f hf hd
      · obtain ⟨-, d, ⟨pid, -, hle, j, -, hhd⟩, hp, ha⟩ := hfs f hf
        rw [hp, List.length_take]
        have hpos : 0 < d.length := by
          cases d with
          | nil => cases hhd
          | cons x d => simp
        rcases hl with hl | hl
        · have := ha hl; omega
        · rw [Nat.mod_eq_of_lt (by omega)]; omega
    · intro _; exact Post.ok h
  | eventPkt code data => exact special_eff.mono (fun t ht => h.ctos ht.ctos)
  | servPkt code data => exact special_eff.mono (fun t ht => h.ctos ht.ctos)
  | appWrite a b => exact Post.ok h
  | apiDisconnect => exact Post.ok (h.ctos (Ctos.apiDisconnect (Ctos.refl _)))

/-- C02 in full. -/
def Spec.SizesOk (cfg : Cfg) : Prop :=
  ∀ (mem : Mem) (h : List (Env × Op)) (s : St), run cfg (St.init cfg mem) h = .ok s → ∀ f ∈ s.tx,
    1 ≤ (payload cfg f).length ∧
    (f.kind = .cto → (payload cfg f).length ≤ cfg.maxCto) ∧ (f.kind = .dto → (payload cfg f).length ≤ cfg.maxDto)

/-- C02, for builds with assertions or with MAX_DTO at most 255. -/
theorem C02_sizes_partial {cfg : Cfg} (hc : cfg.Ok) (hl : cfg.asserts = true ∨ cfg.maxDto ≤ 255) : SizesOk cfg := by
  intro mem h s hr f hf
  have hI : ∀ s, QE s.daq.queue ∧ NoEmptyDto cfg s → ∀ env op s', step cfg env s op = .ok s' →
      QE s'.daq.queue ∧ NoEmptyDto cfg s' := by
    intro s ⟨hq, hn⟩ env op s' hs
    exact ⟨(step_daqOps env op s' hs).inv (I := fun d => QE d.queue) qe_op hq, step_dto hl env op hq hn s' hs⟩
  have hfin := run_induction (I := fun s => QE s.daq.queue ∧ NoEmptyDto cfg s)
    (fun env op s s' hs h1 => hI s hs env op s' h1) (s := St.init cfg mem) ⟨qe_init, by intro f hf; cases hf⟩ hr
  have hsz := C02_frame_size hc hr hf
  have hpl : (payload cfg f).length = f.bytes.length - (cfg.lenSize + cfg.ctrSize) := by
    simp [payload]
  refine ⟨?_, fun hk => by have := hsz.1 hk; omega, fun hk => by have := hsz.2 hk; omega⟩
  cases hk : f.kind with
  | cto => have := (hsz.1 hk).1; omega
  | dto => exact hfin.2 f hf hk

/-- A build without assertions that announces MAX_DTO 300. -/
def Ex.big : Cfg := { Ex.sim with asserts := false, maxDto := 300 }

theorem Ex.big_ok : Ex.big.Ok := by constructor <;> decide

/-- An ODT with one entry of 255 bytes makes a packet of 256 bytes; an empty packet is sent. -/
theorem C02_fails_witness :
    Ex.obs Ex.big [Ex.c [0xFF], Ex.c [0xD6], Ex.c [0xD5, 0, 1, 0], Ex.c [0xD4, 0, 0, 0, 1], Ex.c [0xD3, 0, 0, 0, 0, 1],
      Ex.c [0xE2, 0, 0, 0, 0, 0], Ex.c [0xE1, 0xFF, 255, 0, 0x10, 0, 0, 0], Ex.c [0xE0, 0, 0, 0, 0, 0, 1, 0], Ex.c [0xDE, 2, 0, 0],
      Ex.c [0xDD, 1], (Ex.env, .trigger 0)] (fun s => (s.tx.filter (·.kind == .dto)).map fun f => (payload Ex.big f).length) =
    some [0] := by decide +kernel

theorem C02_fails : ¬ SizesOk Ex.big := by
  intro hall
  have hw := C02_fails_witness
  unfold Ex.obs at hw
  split at hw
  · next s hr =>
    have := hall _ _ s hr
    have hz : (0 : Nat) ∈ (s.tx.filter (·.kind == .dto)).map fun f => (payload Ex.big f).length := by
      have hw' := Option.some.inj hw
      simp only at hw'
      rw [hw']; simp
    obtain ⟨f, hf, hz⟩ := List.mem_map.mp hz
    have := (this f (List.mem_filter.mp hf).1).1
    omega
  · cases hw

/-- The same list with an entry of 254 bytes is sent whole. -/
example : Ex.obs Ex.big [Ex.c [0xFF], Ex.c [0xD6], Ex.c [0xD5, 0, 1, 0], Ex.c [0xD4, 0, 0, 0, 1], Ex.c [0xD3, 0, 0, 0, 0, 1],
      Ex.c [0xE2, 0, 0, 0, 0, 0], Ex.c [0xE1, 0xFF, 254, 0, 0x10, 0, 0, 0], Ex.c [0xE0, 0, 0, 0, 0, 0, 1, 0], Ex.c [0xDE, 2, 0, 0],
      Ex.c [0xDD, 1], (Ex.env, .trigger 0)] (fun s => (s.tx.filter (·.kind == .dto)).map fun f => (payload Ex.big f).length) =
    some [255] := by decide +kernel

end Xcp
