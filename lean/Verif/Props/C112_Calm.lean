import Verif.Props.C111_Sketch
/-
C112: on the Arduino the slave does not notice the interrupts, as long as no message arrives while one is being handled.
-/
set_option autoImplicit false
namespace Xcp
open Spec

/-- What the slave executed: the command of a message, with the bytes behind it in the buffer and the recorded length; or
something the sketch does. -/
inductive Spec.Did where
  | msg (m : CanMsg) (len : Nat) (behind : List UInt8)
  | other (op : Op)

/-- What it is for the slave. -/
def Spec.Did.op : Did → Op
  | .msg m len behind => .cmd ⟨len, m.data ++ behind⟩
  | .other op => op

/-- The messages that were executed. -/
def Spec.didMsgs (h : List (Env × Did)) : List CanMsg := h.filterMap fun x => match x.2 with | .msg m _ _ => some m | _ => none

/-- The rest, each with its environment. -/
def Spec.didOthers (h : List (Env × Did)) : List (Env × Op) := h.filterMap fun x => match x.2 with | .other op => some (x.1, op) | _ => none

/-- The messages of a history of the sketch. -/
def Spec.loopMsgs (os : List LoopOp) : List CanMsg := os.filterMap fun | .irq m => some m | _ => none

/-- The rest of `loop` in a history of the sketch. -/
def Spec.loopApps (os : List LoopOp) : List (Env × Op) := os.filterMap fun | .app e op => some (e, op) | _ => none

/-- No message arrives while one is being handled: from the interrupt until the slave has executed it.  The sketch does
something else only outside of `XcpTl_MainFunction`. -/
def Spec.Calm (cfg : Cfg) : InoIrq → List LoopOp → Prop
  | _, [] => True
  | x, o :: os =>
    (match o with
      | .irq _ => x.pc = .idle ∧ x.ino.flag = false
      | .cpu _ => True
      | .app _ _ => x.pc = .idle) ∧
    ∀ y, x.loopStep cfg o = .ok y → Calm cfg y os

/-- Where the program is with message `p`. -/
inductive Handling (x : InoIrq) : Option CanMsg → Prop where
  | none (hpc : x.pc = .idle) (hf : x.ino.flag = false) : Handling x none
  | here (m : CanMsg) (hpc : x.pc = .idle) (hf : x.ino.flag = true) (hd : x.ino.dlc = m.data.length)
      (hb : x.ino.buf.take m.data.length = m.data) : Handling x (some m)
  | seen (m : CanMsg) (hpc : x.pc = .seen) (hd : x.ino.dlc = m.data.length) (hb : x.ino.buf.take m.data.length = m.data) :
      Handling x (some m)
  | cleared (m : CanMsg) (hpc : x.pc = .cleared) (hf : x.ino.flag = false) (hd : x.ino.dlc = m.data.length)
      (hb : x.ino.buf.take m.data.length = m.data) : Handling x (some m)
  | copying (m : CanMsg) (i : Nat) (hi : i ≤ m.data.length) (hpc : x.pc = .copying i m.data.length) (hf : x.ino.flag = false)
      (hb : x.ino.buf.take m.data.length = m.data) (hc : x.ino.ctoIn.take i = m.data.take i) : Handling x (some m)

/-- The message fits in the buffers. -/
def Spec.FitsIn (cfg : Cfg) (m : CanMsg) : Prop :=
  m.rtr = false ∧ m.data ≠ [] ∧ m.data.length ≤ 64 ∧ m.data.length ≤ cfg.maxCto + cfg.lenSize + cfg.ctrSize

/-- What is true of the program after the slave executed `h`. -/
structure InStep (cfg : Cfg) (mem : Mem) (x : InoIrq) (h : List (Env × Did)) (p : Option CanMsg) : Prop where
  ran : run cfg (St.init cfg mem) (h.map fun y => (y.1, y.2.op)) = .ok x.ino.s
  cto : x.ino.ctoIn.length = cfg.maxCto + cfg.lenSize + cfg.ctrSize
  buf : x.ino.buf.length = 64
  small : ∀ m ∈ p, FitsIn cfg m
  at' : Handling x p

theorem run_did {cfg : Cfg} {mem : Mem} {h : List (Env × Did)} {s : St} (hr : run cfg (St.init cfg mem) (h.map fun y => (y.1, y.2.op)) = .ok s)
    (e : Env) (d : Did) : run cfg (St.init cfg mem) ((h ++ [(e, d)]).map fun y => (y.1, y.2.op)) = step cfg e s d.op := by
  rw [List.map_append, run_append, hr, ok_bind]
  simp only [List.map_cons, List.map_nil, run]
  cases step cfg e s d.op <;> rfl

/-- One step of the program: it goes on, or the slave executes the message, or the slave fails with it. -/
theorem agrees_cpu {cfg : Cfg} {mem : Mem} {x : InoIrq} {h : List (Env × Did)} {p : Option CanMsg} (hx : InStep cfg mem x h p) (env : Env) :
    (∃ y, x.loopStep cfg (.cpu env) = .ok y ∧ InStep cfg mem y h p) ∨
    ∃ m len behind, p = some m ∧
      ((∃ y, x.loopStep cfg (.cpu env) = .ok y ∧ InStep cfg mem y (h ++ [(env, .msg m len behind)]) none) ∨
        ∃ f, x.loopStep cfg (.cpu env) = .error f ∧
          run cfg (St.init cfg mem) ((h ++ [(env, Did.msg m len behind)]).map fun y => (y.1, y.2.op)) = .error f) := by
  obtain ⟨hran, hcto, hbuf, hsmall, hat⟩ := hx
  obtain ⟨ino, pc⟩ := x
  simp only at hran hcto hbuf
  cases hat with
  | none hpc hf =>
    simp only at hpc hf
    subst hpc
    exact .inl ⟨⟨ino, .idle⟩, by simp [InoIrq.loopStep, InoIrq.step, InoIrq.cpu, hf], hran, hcto, hbuf, hsmall, .none rfl hf⟩
  | here m hpc hf hd hb =>
    simp only at hpc hf hd hb
    subst hpc
    exact .inl ⟨⟨ino, .seen⟩, by simp [InoIrq.loopStep, InoIrq.step, InoIrq.cpu, hf], hran, hcto, hbuf, hsmall, .seen m rfl hd hb⟩
  | seen m hpc hd hb =>
    simp only at hpc hd hb
    subst hpc
    exact .inl ⟨⟨{ ino with flag := false }, .cleared⟩, rfl, hran, hcto, hbuf, hsmall, .cleared m rfl rfl hd hb⟩
  | cleared m hpc hf hd hb =>
    simp only at hpc hf hd hb
    subst hpc
    have h0 : (ino.dlc == 0) = false := by
      rw [hd]
      simpa using (hsmall m rfl).2.1
    refine .inl ⟨⟨ino, .copying 0 m.data.length⟩, ?_, hran, hcto, hbuf, hsmall, .copying m 0 (by omega) rfl hf hb (by simp)⟩
    simp only [InoIrq.loopStep, InoIrq.step, InoIrq.cpu, h0, Bool.and_false, Bool.false_eq_true, if_false]
    rw [hd]
  | copying m i hi hpc hf hb hc =>
    simp only at hpc hf hb hc
    subst hpc
    obtain ⟨-, -, hs1, hs2⟩ := hsmall m rfl
    by_cases hlt : i < m.data.length
    · have hbi : i < ino.buf.length := by omega
      have hci : i < ino.ctoIn.length := by omega
      refine .inl ⟨⟨{ ino with ctoIn := ino.ctoIn.set i ino.buf[i] }, .copying (i + 1) m.data.length⟩, ?_, hran, by simpa using hcto, hbuf, hsmall,
        .copying m (i + 1) (by omega) rfl hf hb ?_⟩
      · simp only [InoIrq.loopStep, InoIrq.step, InoIrq.cpu]
        rw [if_pos hlt, List.getElem?_eq_getElem hbi]
        simp only []
        rw [if_neg (by omega)]
      · have e1 : (ino.ctoIn.set i ino.buf[i]).take (i + 1) = ino.ctoIn.take i ++ [ino.buf[i]] := by
          rw [List.set_eq_take_append_cons_drop, if_pos hci, List.take_append, List.length_take, Nat.min_eq_left (by omega)]
          simp [List.take_take]
        have e2 : ino.buf[i] = m.data[i] := by
          have := congrArg (·[i]?) hb
          simp only [List.getElem?_take, hlt, if_true, List.getElem?_eq_getElem hbi, List.getElem?_eq_getElem hlt, Option.some.injEq] at this
          exact this
        refine e1.trans ?_
        rw [hc, e2, List.take_add_one, List.getElem?_eq_getElem hlt]
        rfl
    · have hin : i = m.data.length := by omega
      subst hin
      rw [List.take_length] at hc
      have hcto' : ino.ctoIn = m.data ++ ino.ctoIn.drop m.data.length := by
        conv => lhs; rw [← List.take_append_drop m.data.length ino.ctoIn, hc]
      have hst := run_did hran env (.msg m ino.ctoLen (ino.ctoIn.drop m.data.length))
      simp only [Did.op, ← hcto'] at hst
      refine .inr ⟨m, ino.ctoLen, ino.ctoIn.drop m.data.length, rfl, ?_⟩
      simp only [InoIrq.loopStep, InoIrq.step, InoIrq.cpu, Nat.lt_irrefl, if_false]
      cases hs : step cfg env ino.s (.cmd ⟨ino.ctoLen, ino.ctoIn⟩) with
      | ok s =>
        rw [hs] at hst
        exact .inl ⟨⟨{ ino with s }, .idle⟩, rfl, hst, hcto, hbuf, by simp, .none rfl hf⟩
      | error f =>
        rw [hs] at hst
        exact .inr ⟨f, rfl, hst⟩

theorem agrees_irq {cfg : Cfg} {mem : Mem} {x : InoIrq} {h : List (Env × Did)} {p : Option CanMsg} (hx : InStep cfg mem x h p)
    (hpc : x.pc = .idle) (hfl : x.ino.flag = false) {m : CanMsg} (hm : FitsIn cfg m) :
    p = none ∧ ∃ y, x.loopStep cfg (.irq m) = .ok y ∧ InStep cfg mem y h (some m) := by
  obtain ⟨hran, hcto, hbuf, -, hat⟩ := hx
  cases hat with
  | none h1 h2 =>
    refine ⟨rfl, ?_⟩
    obtain ⟨k1, k2, k3, k4⟩ := hm
    have hr := receive_fits (x := x.ino) (m := m) ⟨k1, k2, by omega, by omega, by omega⟩
    refine ⟨⟨{ x.ino with buf := storeAt x.ino.buf 0 m.data, dlc := m.data.length, flag := true }, x.pc⟩, ?_, hran, hcto,
      (storeAt_length (by omega)).trans hbuf, ?_, .here m hpc rfl rfl (by simp [storeAt])⟩
    · simp only [InoIrq.loopStep, InoIrq.step, hr, ok_bind]; rfl
    · rintro m' ⟨⟩
      exact ⟨k1, k2, k3, k4⟩
  | here m' _ h2 => rw [hfl] at h2; cases h2
  | seen m' h1 => rw [hpc] at h1; cases h1
  | cleared m' h1 => rw [hpc] at h1; cases h1
  | copying m' i _ h1 => rw [hpc] at h1; cases h1

theorem Handling.same {x : InoIrq} {p : Option CanMsg} (h : Handling x p) (s : St) : Handling { x with ino := { x.ino with s } } p := by
  cases h with
  | none a b => exact .none a b
  | here m a b c d => exact .here m a b c d
  | seen m a b c => exact .seen m a b c
  | cleared m a b c d => exact .cleared m a b c d
  | copying m i a b c d e => exact .copying m i a b c d e

/-- The whole history. -/
theorem agrees_run {cfg : Cfg} {mem : Mem} : ∀ (os : List LoopOp) {x : InoIrq} {h : List (Env × Did)} {p : Option CanMsg}, InStep cfg mem x h p →
    (∀ m ∈ loopMsgs os, FitsIn cfg m) → Calm cfg x os →
    (∃ y h' p', x.loopRun cfg os = .ok y ∧ InStep cfg mem y h' p' ∧ didMsgs h' ++ p'.toList = didMsgs h ++ p.toList ++ loopMsgs os ∧
      didOthers h' = didOthers h ++ loopApps os) ∨
    ∃ f h', x.loopRun cfg os = .error f ∧ run cfg (St.init cfg mem) (h'.map fun y => (y.1, y.2.op)) = .error f ∧
      didMsgs h' <+: didMsgs h ++ p.toList ++ loopMsgs os ∧ didOthers h' <+: didOthers h ++ loopApps os
  | [], x, h, p, hx, _, _ => .inl ⟨x, h, p, rfl, hx, by simp [loopMsgs], by simp [loopApps]⟩
  | .cpu env :: os, x, h, p, hx, hf, hw => by
    have e1 : loopMsgs (.cpu env :: os) = loopMsgs os := by simp [loopMsgs]
    have e2 : loopApps (.cpu env :: os) = loopApps os := by simp [loopApps]
    rw [e1] at hf
    rw [e1, e2]
    rcases agrees_cpu hx env with ⟨y, h1, h2⟩ | ⟨m, len, behind, rfl, ⟨y, h1, h2⟩ | ⟨f, h1, h2⟩⟩
    · simp only [InoIrq.loopRun, h1, ok_bind]
      exact agrees_run os h2 hf (hw.2 y h1)
    · simp only [InoIrq.loopRun, h1, ok_bind]
      have := agrees_run os h2 hf (hw.2 y h1)
      have e3 : didMsgs (h ++ [(env, Did.msg m len behind)]) = didMsgs h ++ [m] := by simp [didMsgs]
      have e4 : didOthers (h ++ [(env, Did.msg m len behind)]) = didOthers h := by simp [didOthers]
      simpa [e3, e4] using this
    · refine .inr ⟨f, _, by simp only [InoIrq.loopRun, h1, error_bind], h2, ?_, ?_⟩
      · simp [didMsgs]
      · simp [didOthers]
  | .irq m :: os, x, h, p, hx, hf, hw => by
    have e1 : loopMsgs (.irq m :: os) = m :: loopMsgs os := by simp [loopMsgs]
    have e2 : loopApps (.irq m :: os) = loopApps os := by simp [loopApps]
    rw [e1] at hf
    rw [e1, e2]
    obtain ⟨rfl, y, h1, h2⟩ := agrees_irq hx hw.1.1 hw.1.2 (hf m List.mem_cons_self)
    simp only [InoIrq.loopRun, h1, ok_bind]
    simpa using agrees_run os h2 (fun m' hm => hf m' (List.mem_cons_of_mem _ hm)) (hw.2 y h1)
  | .app env op :: os, x, h, p, hx, hf, hw => by
    have e1 : loopMsgs (.app env op :: os) = loopMsgs os := by simp [loopMsgs]
    have e2 : loopApps (.app env op :: os) = (env, op) :: loopApps os := by simp [loopApps]
    rw [e1] at hf
    rw [e1, e2]
    have hpc : x.pc = .idle := hw.1
    have hst := run_did hx.ran env (.other op)
    simp only [Did.op] at hst
    cases hs : step cfg env x.ino.s op with
    | ok s =>
      rw [hs] at hst
      have h1 : x.loopStep cfg (.app env op) = .ok { x with ino := { x.ino with s } } := by
        simp only [InoIrq.loopStep, hpc, hs, ok_bind]
        rfl
      have h2 : InStep cfg mem { x with ino := { x.ino with s } } (h ++ [(env, .other op)]) p :=
        ⟨hst, hx.cto, hx.buf, hx.small, hx.at'.same s⟩
      simp only [InoIrq.loopRun, h1, ok_bind]
      have := agrees_run os h2 hf (hw.2 _ h1)
      have e3 : didMsgs (h ++ [(env, Did.other op)]) = didMsgs h := by simp [didMsgs]
      have e4 : didOthers (h ++ [(env, Did.other op)]) = didOthers h ++ [(env, op)] := by simp [didOthers]
      simpa [e3, e4] using this
    | error f =>
      rw [hs] at hst
      have h1 : x.loopStep cfg (.app env op) = .error f := by
        simp only [InoIrq.loopStep, hpc, hs, error_bind]
      refine .inr ⟨f, _, by simp only [InoIrq.loopRun, h1, error_bind], hst, ?_, ?_⟩
      · simp [didMsgs]
      · simp [didOthers]

theorem agrees_start (cfg : Cfg) (mem : Mem) : InStep cfg mem ⟨Ino.init cfg mem, .idle⟩ [] none :=
  ⟨rfl, by simp [Ino.init], by simp [Ino.init], by simp, .none rfl rfl⟩

/-- C112: no message arrives while one is being handled, and all of them fit in the buffers.  Then, wherever the interrupts
fall, the slave of the sketch is a slave that executes the messages, each once, in order and intact, and what the sketch
does, in order; the last message may still be on its way. -/
theorem C112_calm {cfg : Cfg} {mem : Mem} {os : List LoopOp} (hf : ∀ m ∈ loopMsgs os, FitsIn cfg m)
    (hw : Calm cfg ⟨Ino.init cfg mem, .idle⟩ os) {y : InoIrq} (hy : InoIrq.loopRun cfg ⟨Ino.init cfg mem, .idle⟩ os = .ok y) :
    ∃ h : List (Env × Did), run cfg (St.init cfg mem) (h.map fun x => (x.1, x.2.op)) = .ok y.ino.s ∧
      didOthers h = loopApps os ∧
      (if y.pc = .idle ∧ y.ino.flag = false then didMsgs h = loopMsgs os else ∃ m, didMsgs h ++ [m] = loopMsgs os) := by
  rcases agrees_run os (agrees_start cfg mem) hf hw with ⟨y', h, p, h1, h2, h3, h4⟩ | ⟨f, -, h1, -⟩
  · rw [hy] at h1
    cases h1
    refine ⟨h, h2.ran, by simpa [didOthers] using h4, ?_⟩
    have h3' : didMsgs h ++ p.toList = loopMsgs os := by simpa [didMsgs] using h3
    have key : ∀ m, p = some m → ¬ (y.pc = .idle ∧ y.ino.flag = false) := by
      rintro m rfl ⟨a, b⟩
      cases h2.at' with
      | here _ _ c => rw [b] at c; cases c
      | seen _ c => rw [a] at c; cases c
      | cleared _ c => rw [a] at c; cases c
      | copying _ _ _ c => rw [a] at c; cases c
    cases p with
    | none =>
      have : y.pc = .idle ∧ y.ino.flag = false := by
        cases h2.at' with
        | none a b => exact ⟨a, b⟩
      rw [if_pos this]
      simpa using h3'
    | some m =>
      rw [if_neg (key m rfl)]
      exact ⟨m, by simpa using h3'⟩
  · rw [hy] at h1; cases h1

/-- C112, failures: the sketch fails only as the slave does, with some of the messages and of what the sketch does. -/
theorem C112_fault {cfg : Cfg} {mem : Mem} {os : List LoopOp} (hf : ∀ m ∈ loopMsgs os, FitsIn cfg m)
    (hw : Calm cfg ⟨Ino.init cfg mem, .idle⟩ os) {f : Fault} (hy : InoIrq.loopRun cfg ⟨Ino.init cfg mem, .idle⟩ os = .error f) :
    ∃ h : List (Env × Did), run cfg (St.init cfg mem) (h.map fun x => (x.1, x.2.op)) = .error f ∧
      didMsgs h <+: loopMsgs os ∧ didOthers h <+: loopApps os := by
  rcases agrees_run os (agrees_start cfg mem) hf hw with ⟨y', h, p, h1, -⟩ | ⟨f', h, h1, h2, h3, h4⟩
  · rw [hy] at h1; cases h1
  · rw [hy] at h1
    cases h1
    exact ⟨h, h2, by simpa [didMsgs] using h3, by simpa [didOthers] using h4⟩

/-- `Calm`, to be computed. -/
def Spec.calm (cfg : Cfg) : InoIrq → List LoopOp → Bool
  | _, [] => true
  | x, o :: os =>
    (match o with
      | .irq _ => x.pc == .idle && x.ino.flag == false
      | .cpu _ => true
      | .app _ _ => x.pc == .idle) &&
    match x.loopStep cfg o with
    | .ok y => calm cfg y os
    | .error _ => true

theorem calm_sound {cfg : Cfg} : ∀ (os : List LoopOp) (x : InoIrq), calm cfg x os = true → Calm cfg x os
  | [], _, _ => trivial
  | o :: os, x, h => by
    simp only [calm, Bool.and_eq_true] at h
    refine ⟨?_, ?_⟩
    · cases o with
      | irq m => simpa using h.1
      | cpu e => trivial
      | app e op => simpa using h.1
    · intro y hy
      rw [hy] at h
      exact calm_sound os y h.2

/-- CONNECT; the sketch writes a variable before the program looks at the message; an illegal command; a slave block. -/
def Ex.calmOps : List LoopOp :=
  let cpu := LoopOp.cpu Ex.env
  [.app Ex.env .main, .irq ⟨0x300, false, false, [0xFF, 0]⟩, .app Ex.env (.appWrite 0x1235 0x99)] ++ List.replicate 6 cpu ++
  [.app Ex.env (.trigger 0), cpu, .irq ⟨0x300, false, false, [0xF4, 9, 0, 0, 0x34, 0x12, 0, 0]⟩] ++ List.replicate 12 cpu ++
  [.app Ex.env .main, .irq ⟨0x300, false, false, [0xFC]⟩, cpu, cpu]

example : Calm Ex.can ⟨Ino.init Ex.can Ex.mem, .idle⟩ Ex.calmOps := calm_sound _ _ (by decide +kernel)

example : (∀ m ∈ loopMsgs Ex.calmOps, FitsIn Ex.can m) ∧ (loopMsgs Ex.calmOps).length = 3 ∧ (loopApps Ex.calmOps).length = 4 := by
  refine ⟨?_, rfl, rfl⟩
  unfold FitsIn
  decide +kernel

/-- The last message is still on its way; the slave has answered the other two. -/
example : (InoIrq.loopRun Ex.can ⟨Ino.init Ex.can Ex.mem, .idle⟩ Ex.calmOps).toOption.map (fun y => (y.pc, y.ino.s.tx.map Frame.bytes)) =
    some (.cleared, (run Ex.can (St.init Ex.can Ex.mem) [(Ex.env, .main), (Ex.env, .appWrite 0x1235 0x99), (Ex.env, .cmd ⟨0, [0xFF, 0, 0, 0, 0, 0, 0, 0]⟩),
      (Ex.env, .trigger 0), (Ex.env, .cmd ⟨0, [0xF4, 9, 0, 0, 0x34, 0x12, 0, 0]⟩), (Ex.env, .main)]).toOption.elim [] (·.tx.map Frame.bytes)) := by
  decide +kernel

end Xcp
