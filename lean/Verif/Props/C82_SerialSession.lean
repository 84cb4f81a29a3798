import Verif.Props.C80_EndToEnd
import Verif.Props.C47_Serial
/-
C82: a tool on the serial line gets the answers of the remote memory, byte for byte.
-/
set_option autoImplicit false
namespace Xcp
open Spec

/-- C82: the requests arrive as bytes, at any times; every packet is handed to the slave with what the hook functions and the timer
answer at that time. -/
theorem C82_serial {cfg : Cfg} (hp : Plain cfg) (hl : cfg.lenSize = 2) (hn : cfg.ctrSize = 2) (hm : cfg.maxDlc = false) {k : About}
    {rs : List (UInt16 × Req)} {mem : Mem} {mode : UInt8} {qs : List Req} (hfirst : rs.map (·.2) = .connect mode :: qs)
    (hleg : AllLegal cfg k ⟨mem, 0, 0, true⟩ (qs.map .request)) {ts : List (UInt32 × UInt8)}
    (ht : ts.map Prod.snd = stream (rs.map fun x => (x.1, x.2.bytes))) :
    ∃ r ps, (Rcv.init (commBufLen cfg)).feedAll ts = .ok (r, ps) ∧ ps.length = rs.length ∧
      ∀ envs : List Env, envs.length = rs.length → Describes k cfg envs →
        ∃ s, run cfg (St.init cfg mem) (List.zipWith (fun env p => (env, .cmd p)) envs ps) = .ok s ∧
          (s.tx.map Frame.bytes).flatten = stream (numbered (Remote.answers k ⟨mem, 0, 0, true⟩ (.request (.connect mode) :: qs.map .request))) ∧
          s.mem = (Remote.final k ⟨mem, 0, 0, true⟩ (qs.map .request)).mem := by
  have h8 := hp.ok.cto_lo
  have h9 := hp.ok.cto_hi
  have hlens : ∀ x ∈ rs, x.2.bytes ≠ [] ∧ x.2.bytes.length ≤ cfg.maxCto := by
    intro x hx
    have hx : x.2 ∈ rs.map (·.2) := List.mem_map.mpr ⟨x, hx, rfl⟩
    rw [hfirst] at hx
    rcases List.mem_cons.mp hx with h | h
    · rw [h]; exact legal_length hp (r := ⟨mem, 0, 0, true⟩) (q := .connect mode) trivial
    · exact allLegal_length hp qs hleg _ h
  obtain ⟨r, ps, g1, g2, g3⟩ := C47_packets_partial (buflen := commBufLen cfg) (rs.map fun x => (x.1, x.2.bytes)) ts
    (by
      intro cp hcp
      obtain ⟨x, hx, rfl⟩ := List.mem_map.mp hcp
      have := (hlens x hx).2
      simp only [commBufLen]
      omega) ht
  have hlen : ps.length = rs.length := by simpa using congrArg List.length g3
  refine ⟨r, ps, g1, hlen, fun envs he hd => ?_⟩
  have hz : List.zipWith (fun env p => ((env, .cmd p) : Env × Op)) envs ps = (envs.zip ps).map fun p => (p.1, .cmd p.2) := by
    rw [List.zip, List.map_zipWith]
  rw [hz]
  have hb : ((envs.zip ps).map fun p => p.2.buf.take p.2.len) = (Req.connect mode :: qs).map Req.bytes := by
    have e1 : ((envs.zip ps).map fun p => p.2.buf.take p.2.len) = ((envs.zip ps).map Prod.snd).map delivered := by
      rw [List.map_map]; rfl
    rw [e1, List.map_snd_zip (by omega), g2, ← hfirst, List.map_map, List.map_map]
    rfl
  have hd' : Describes k cfg ((envs.zip ps).map Prod.fst) := by rw [List.map_fst_zip (by omega)]; exact hd
  obtain ⟨s, k1, k2, k3⟩ := packets_session hp hd' hb hleg
  exact ⟨s, k1, wire_bytes hp.ok hl hn hm k1 k2, k3⟩

/-- CONNECT, SET_MTA and UPLOAD of two bytes on the serial line. -/
example : (((Rcv.init (commBufLen Ex.sim)).feedAll
      ([2, 0, 0, 0, 0xFF, 0, 8, 0, 1, 0, 0xF6, 0, 0, 0, 0x34, 0x12, 0, 0, 2, 0, 2, 0, 0xF5, 2].map fun o => (0, o))).toOption.bind fun x =>
      (run Ex.sim (St.init Ex.sim Ex.mem) (x.2.map fun p => (Ex.env, .cmd p))).toOption.map fun s => (s.tx.map Frame.bytes).flatten) =
    some [8, 0, 0, 0, 0xFF, 0x15, 0x80, 64, 64, 0, 1, 1, 1, 0, 1, 0, 0xFF, 3, 0, 2, 0, 0xFF, 0x34, 0x35] := by decide +kernel

end Xcp
