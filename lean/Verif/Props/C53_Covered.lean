import Verif.Props.C53_Locks
import Verif.Props.C35_StartStop
/-
C53: the flags that several threads use change only in operations that take the lock for them.
-/
set_option autoImplicit false
namespace Xcp
open Spec

theorem handler_busy_covered {cfg : Cfg} (env : Env) {s : St} (p : Pdu) (c : Cmd) :
    Post (handler cfg env s p c) (fun s' => s'.busy = s.busy ∨ .blockActive ∈ c.lockFns cfg ∨ .startChecksum ∈ c.lockFns cfg) := by
  cases c
  all_goals unfold_handlers
  all_goals post
  all_goals first
    | (left; simp only [send8_busy, sendRaw_busy, apiDisconnect_busy]; done)
    | (right; simp_all [Cmd.lockFns]; done)

theorem handler_running_covered {cfg : Cfg} (env : Env) {s : St} (p : Pdu) (c : Cmd) :
    Post (handler cfg env s p c) (fun s' => s'.daq.running = s.daq.running ∨ .setDaqState ∈ c.lockFns cfg) := by
  rcases Bool.eq_false_or_eq_true (changesDaq c) with hd | hd
  · cases c <;> first | (simp [changesDaq] at hd; done) | skip
    all_goals unfold_handlers
    all_goals post
    all_goals first
      | (right; simp [Cmd.lockFns]; done)
      | left
    all_goals simp only [send8_daq]
    all_goals first
      | rfl
      | (rename_i hd; rw [(write_same hd).1])
      | (rename_i hd; rw [multiple_running _ _ hd])
      | (rename_i hd; rw [addEvent_running hd])
      | (rw [daqFree_running])
  · exact (handler_daq env p c hd).mono (fun t h => Or.inl (by rw [h]))

theorem lockFns_cmd {cfg : Cfg} {p : Pdu} {b : UInt8} {c : Cmd} (hb : p.byte 0 = .ok b) (hc : cmdTable[0xFF - b.toNat]? = some c) :
    (Op.cmd p).lockFns cfg = .tlSend :: c.lockFns cfg := by
  have h0 : p.buf.head? = some b := by
    unfold Pdu.byte at hb
    rw [List.head?_eq_getElem?]
    cases hx : p.buf[0]? with
    | none => rw [hx] at hb; cases hb
    | some y => rw [hx] at hb; cases hb; rfl
  simp only [Op.lockFns, h0, hc]

/-- C53: the busy flag and the state of the acquisition change only in operations that take the lock for them. -/
theorem C53_covered {cfg : Cfg} (env : Env) {s s' : St} (op : Op) (h : step cfg env s op = .ok s') :
    (s'.busy = s.busy ∨ .setBusy ∈ op.lockFns cfg ∨ .blockActive ∈ op.lockFns cfg ∨ .startChecksum ∈ op.lockFns cfg) ∧
    (s'.daq.running = s.daq.running ∨ .setDaqState ∈ op.lockFns cfg) := by
  revert s'
  suffices Post (step cfg env s op) (fun s' =>
    (s'.busy = s.busy ∨ .setBusy ∈ op.lockFns cfg ∨ .blockActive ∈ op.lockFns cfg ∨ .startChecksum ∈ op.lockFns cfg) ∧
    (s'.daq.running = s.daq.running ∨ .setDaqState ∈ op.lockFns cfg)) from fun s' h => this s' h
  cases op with
  | cmd p =>
    apply Post.dispatch
    · intro _ _
      have := busyState_same cfg s
      exact ⟨Or.inl this.busy, Or.inl (by rw [this.daq])⟩
    · intro b c hb hc _ _
      rw [lockFns_cmd hb hc]
      apply Post.tableEntry
      · intro _
        intro t ht
        refine ⟨?_, ?_⟩
        · rcases handler_busy_covered env p c t ht with h | h | h
          · exact Or.inl (by simpa using h)
          · exact Or.inr (Or.inr (Or.inl (List.mem_cons_of_mem _ h)))
          · exact Or.inr (Or.inr (Or.inr (List.mem_cons_of_mem _ h)))
        · rcases handler_running_covered env p c t ht with h | h
          · exact Or.inl (by simpa using h)
          · exact Or.inr (List.mem_cons_of_mem _ h)
      · intro _; exact ⟨Or.inl (by simp), Or.inl (by simp)⟩
    · intro _ hb
      have hc : cmdTable[0xFF - (0xFF : UInt8).toNat]? = some .connect := by decide
      intro t ht
      refine ⟨?_, ?_⟩
      · rcases handler_busy_covered env p .connect t ht with h | h | h
        · exact Or.inl (by simpa using h)
        · simp [Cmd.lockFns] at h
        · simp [Cmd.lockFns] at h
      · rcases handler_running_covered env p .connect t ht with h | h
        · exact Or.inl (by simpa using h)
        · simp [Cmd.lockFns] at h
    · intro _ _ _ _; exact ⟨Or.inl (by simp), Or.inl (by simp)⟩
  | main =>
    have hd := (main_eff env : Post (step cfg env s .main) _)
    intro t ht
    refine ⟨?_, Or.inl (by rw [(hd t ht).daq])⟩
    revert ht t
    suffices Post (mainFunction cfg env s) (fun t => t.busy = s.busy ∨ .setBusy ∈ Op.lockFns cfg .main ∨ .blockActive ∈ Op.lockFns cfg .main ∨
      .startChecksum ∈ Op.lockFns cfg .main) from fun t ht => this t ht
    refine Post.mainFunction (Q := fun t => t.busy = s.busy ∨ .setBusy ∈ Op.lockFns cfg .main ∨ .blockActive ∈ Op.lockFns cfg .main ∨
      .startChecksum ∈ Op.lockFns cfg .main) ?_ ?_ ?_ ?_
    · intro hsb t _
      exact Or.inr (Or.inr (Or.inl (by simp [Op.lockFns, hsb])))
    · intro _; exact Or.inl rfl
    · intro t _ _ hc
      exact Or.inr (Or.inl (by simp [Op.lockFns, hc]))
    · intro t h; exact h
  | trigger ev =>
    unfold step
    apply Post.ite
    · intro _
      refine (trigger_eff env _).mono (fun t ht => ?_)
      obtain ⟨q, h⟩ := ht.daq
      exact ⟨Or.inl ht.busy, Or.inl (by rw [h])⟩
    · intro _; exact Post.ok ⟨Or.inl rfl, Or.inl rfl⟩
  | eventPkt code data => exact special_eff.mono (fun t ht => ⟨Or.inl ht.same.busy, Or.inl (by rw [ht.same.daq])⟩)
  | servPkt code data => exact special_eff.mono (fun t ht => ⟨Or.inl ht.same.busy, Or.inl (by rw [ht.same.daq])⟩)
  | appWrite a b => exact Post.ok ⟨Or.inl rfl, Or.inl rfl⟩
  | apiDisconnect => exact Post.ok ⟨Or.inl (by simp), Or.inr (by simp [Op.lockFns])⟩

/-- DISCONNECT while measuring: the acquisition stops, so the command takes the DAQ lock. -/
example : .setDaqState ∈ (Op.cmd ⟨1, [0xFE]⟩).lockFns Ex.sim ∧
    Ex.obs Ex.sim [Ex.c [0xFF], Ex.c [0xDD, 1], Ex.c [0xFE]] (fun s => s.daq.running) = some false ∧
    Ex.obs Ex.sim [Ex.c [0xFF], Ex.c [0xDD, 1]] (fun s => s.daq.running) = some true := by
  refine ⟨by decide, ?_, ?_⟩ <;> decide +kernel

end Xcp
