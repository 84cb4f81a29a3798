import Verif.Proofs.TxHandlers
import Verif.Model.Example
/-
C01: every frame carries its payload length and the running frame number.
C02: no frame exceeds MAX_CTO / MAX_DTO.
-/
set_option autoImplicit false
namespace Xcp
open Spec

/-- C01. -/
theorem C01_transport_header {cfg : Cfg} (hc : cfg.Ok) {mem : Mem} {h : List (Env × Op)} {s : St}
    (hr : run cfg (St.init cfg mem) h = .ok s) {i : Nat} {f : Frame} (hf : s.tx[i]? = some f) :
    ∃ len ctr payload : List UInt8,
      f.bytes = len ++ ctr ++ payload ∧
      len.length = cfg.lenSize ∧ ctr.length = cfg.ctrSize ∧
      leVal len = payload.length % 256 ^ cfg.lenSize ∧
      leVal ctr = i % 256 ^ cfg.ctrSize := by
  obtain ⟨l, c, p, h1, h2, h3, h4, h5, -⟩ := (run_tx hc hr).frames i f hf
  exact ⟨l, c, p, h1, h2, h3, h4, h5⟩

/-- C02, on the whole frame: header plus payload. -/
theorem C02_frame_size {cfg : Cfg} (hc : cfg.Ok) {mem : Mem} {h : List (Env × Op)} {s : St}
    (hr : run cfg (St.init cfg mem) h = .ok s) {f : Frame} (hf : f ∈ s.tx) :
    (f.kind = .cto → cfg.lenSize + cfg.ctrSize < f.bytes.length ∧
      f.bytes.length ≤ cfg.lenSize + cfg.ctrSize + cfg.maxCto) ∧
    (f.kind = .dto → f.bytes.length ≤ cfg.lenSize + cfg.ctrSize + cfg.maxDto) := by
  obtain ⟨i, hi⟩ := List.getElem?_of_mem hf
  obtain ⟨l, c, p, h1, h2, h3, -, -, h6, h7⟩ := (run_tx hc hr).frames i f hi
  rw [h1]
  simp only [List.length_append, h2, h3]
  exact ⟨fun hk => by have := h6 hk; omega, fun hk => by have := h7 hk; omega⟩

/-- Two frames of a session on the simulator: CONNECT and GET_STATUS. -/
example : Ex.frames Ex.sim [Ex.c [0xFF, 0], Ex.c [0xFD]] =
    some [[8, 0, 0, 0, 0xFF, 0x15, 0x80, 64, 64, 0, 1, 1], [6, 0, 1, 0, 0xFF, 0, 0, 0, 0, 0]] := by
  decide +kernel

/-- CAN frames carry no header. -/
example : Ex.frames Ex.can [Ex.c [0xFF, 0]] = some [[0xFF, 0x15, 0xC0, 8, 8, 0, 1, 1]] := by
  decide +kernel

end Xcp
