import Verif.Model.InoLoop
import Verif.Props.C108_Torn
import Verif.Props.C81_CanSession
/-
C111: a tool that waits for each answer gets the answers of the remote memory from the Arduino sketch, wherever the
interrupts fall.
-/
set_option autoImplicit false
namespace Xcp
open Spec

/-- The requests of a history. -/
def Spec.asked (hs : List Happening) : List Req := hs.filterMap fun | .request q => some q | _ => none

/-- What else happened. -/
def Spec.besides (hs : List Happening) : List Happening := hs.filter fun | .request _ => false | _ => true

/-- A slice of time: a message arrives, the program makes a step of `XcpTl_MainFunction`, or the sketch does something else. -/
inductive Spec.Slice where
  | msg (m : CanMsg)
  | cpu (env : Env)
  | app (env : Env) (h : Happening)

/-- What it is for the program. -/
def Spec.Slice.op : Slice → LoopOp
  | .msg m => .irq m
  | .cpu env => .cpu env
  | .app env h => .app env (h.op 0 [])

/-- The messages of a history. -/
def Spec.arrived (ts : List Slice) : List CanMsg := ts.filterMap fun | .msg m => some m | _ => none

/-- What the sketch does. -/
def Spec.doings (ts : List Slice) : List Happening := ts.filterMap fun | .app _ h => some h | _ => none

/-- The environments. -/
def Spec.turnEnvs (ts : List Slice) : List Env := ts.filterMap fun | .msg _ => none | .cpu e => some e | .app e _ => some e

/-- The tool waits: a message arrives only when as many packets have been sent as messages arrived before it (`n`).  The
sketch does something else only outside of `XcpTl_MainFunction`. -/
def Spec.Waits (cfg : Cfg) : InoIrq → Nat → List Slice → Prop
  | _, _, [] => True
  | x, n, t :: ts =>
    (match t with
      | .msg _ => x.ino.s.tx.length = n
      | .cpu _ => True
      | .app _ _ => x.pc = .idle) ∧
    ∀ y, x.loopStep cfg t.op = .ok y → Waits cfg y (n + (arrived [t]).length) ts

theorem asked_append (a b : List Happening) : asked (a ++ b) = asked a ++ asked b := List.filterMap_append
theorem besides_append (a b : List Happening) : besides (a ++ b) = besides a ++ besides b := List.filter_append ..

theorem allLegal_append {cfg : Cfg} {k : About} : ∀ {a b : List Happening} {r : Remote}, AllLegal cfg k r (a ++ b) → AllLegal cfg k r a
  | [], _, _, _ => trivial
  | _ :: _, _, _, h => ⟨h.1, allLegal_append h.2⟩

theorem answers_length (k : About) : ∀ (hs : List Happening) (r : Remote), (r.answers k hs).length = (asked hs).length
  | [], _ => rfl
  | .request q :: hs, r => by simp [Remote.answers, asked, answers_length k hs (r.next k q)]
  | .write a b :: hs, r => by simpa [Remote.answers, asked] using answers_length k hs (r.after k (.write a b))
  | .main :: hs, r => by simpa [Remote.answers, asked] using answers_length k hs (r.after k .main)
  | .event e :: hs, r => by simpa [Remote.answers, asked] using answers_length k hs (r.after k (.event e))

/-- C79 with something before CONNECT: from start-up, if the first request is CONNECT. -/
theorem remote_start {cfg : Cfg} (hp : Plain cfg) {k : About} : ∀ {hs : List (Around × Happening)} {mem : Mem},
    Describes k cfg (hs.map (·.1.env)) → AllLegal cfg k ⟨mem, 0, 0, true⟩ (hs.map (·.2)) →
    (∀ q ∈ (asked (hs.map (·.2))).head?, ∃ mode, q = .connect mode) →
    ∃ s, run cfg (St.init cfg mem) (ops hs) = .ok s ∧ CarryAll cfg s.tx (Remote.answers k ⟨mem, 0, 0, true⟩ (hs.map (·.2))) ∧
      s.mem = (Remote.final k ⟨mem, 0, 0, true⟩ (hs.map (·.2))).mem
  | [], mem, _, _, _ => ⟨_, rfl, trivial, rfl⟩
  | (a, h) :: hs, mem, hd, hl, hc => by
    have hd' : Describes k cfg (hs.map (·.1.env)) := { hd with hook := fun hm env he => hd.hook hm env (List.mem_cons_of_mem _ he) }
    have e : ops ((a, h) :: hs) = (a.env, h.op a.len a.behind) :: ops hs := rfl
    cases h with
    | request q =>
      obtain ⟨mode, rfl⟩ := hc q (by simp [asked])
      have hnext : Remote.next k ⟨mem, 0, 0, true⟩ (.connect mode) = ⟨mem, 0, 0, true⟩ := by simp [Remote.next]
      have hl2 := hl.2
      simp only [Remote.after, hnext] at hl2
      obtain ⟨s, h1, h2, h3⟩ := C79_remote_memory hp (a := a) (mode := mode) hd hl2
      refine ⟨s, h1, h2, ?_⟩
      rw [h3]
      simp only [List.map_cons, Remote.final, List.foldl_cons, Remote.after, hnext]
    | write x b =>
      obtain ⟨s, h1, h2, h3⟩ := remote_start hp (hs := hs) (mem := mem.write x [b]) hd' hl.2 (by simpa [asked] using hc)
      exact ⟨s, by rw [e]; exact h1, h2, h3⟩
    | main =>
      obtain ⟨s, h1, h2, h3⟩ := remote_start hp (hs := hs) (mem := mem) hd' hl.2 (by simpa [asked] using hc)
      refine ⟨s, ?_, h2, h3⟩
      rw [e, ← h1]
      simp [run, Happening.op, step, mainFunction, mainUpload, uploadSingleBlock, mainChecksum, checksumMain, St.init, ok_bind]
    | event ev =>
      obtain ⟨s, h1, h2, h3⟩ := remote_start hp (hs := hs) (mem := mem) hd' hl.2 (by simpa [asked] using hc)
      refine ⟨s, ?_, h2, h3⟩
      rw [e, ← h1]
      have : triggerEvent cfg a.env (St.init cfg mem) ev.toNat = .ok (St.init cfg mem) := by
        have hrun : (St.init cfg mem).daq.running = false := rfl
        simp [triggerEvent, hrun]
      simp only [run, Happening.op, step, this, ite_self, ok_bind]

/-- Where the program is with the message of request `p`, and how many steps it still needs. -/
inductive Progress (cfg : Cfg) (x : InoIrq) : Option Req → Nat → Prop where
  | done (hpc : x.pc = .idle) (hf : x.ino.flag = false) : Progress cfg x none 0
  | here (q : Req) (hpc : x.pc = .idle) (hf : x.ino.flag = true) (hd : x.ino.dlc = q.bytes.length) (hb : x.ino.buf.take q.bytes.length = q.bytes) :
      Progress cfg x (some q) (q.bytes.length + 4)
  | seen (q : Req) (hpc : x.pc = .seen) (hd : x.ino.dlc = q.bytes.length) (hb : x.ino.buf.take q.bytes.length = q.bytes) :
      Progress cfg x (some q) (q.bytes.length + 3)
  | cleared (q : Req) (hpc : x.pc = .cleared) (hf : x.ino.flag = false) (hd : x.ino.dlc = q.bytes.length)
      (hb : x.ino.buf.take q.bytes.length = q.bytes) : Progress cfg x (some q) (q.bytes.length + 2)
  | copying (q : Req) (i : Nat) (hi : i ≤ q.bytes.length) (hpc : x.pc = .copying i q.bytes.length) (hf : x.ino.flag = false)
      (hb : x.ino.buf.take q.bytes.length = q.bytes) (hc : x.ino.ctoIn.take i = q.bytes.take i) :
      Progress cfg x (some q) (q.bytes.length - i + 1)

/-- What is true of the program after it executed `hs`. -/
structure Serves (cfg : Cfg) (mem : Mem) (x : InoIrq) (hs : List (Around × Happening)) (p : Option Req) (w : Nat) : Prop where
  ran : run cfg (St.init cfg mem) (ops hs) = .ok x.ino.s
  cto : x.ino.ctoIn.length = cfg.maxCto + cfg.lenSize + cfg.ctrSize
  buf : x.ino.buf.length = 64
  small : ∀ q ∈ p, q.bytes.length ≤ 64 ∧ q.bytes.length ≤ cfg.maxCto + cfg.lenSize + cfg.ctrSize
  progress : Progress cfg x p w

theorem req_ne_nil (q : Req) : q.bytes.length ≠ 0 := by cases q <;> simp [Req.bytes]

/-- The slave can execute one more. -/
theorem run_more {cfg : Cfg} (hp : Plain cfg) {k : About} {mem : Mem} {hs : List (Around × Happening)} {s : St} {a : Around} {h : Happening}
    (hr : run cfg (St.init cfg mem) (ops hs) = .ok s) (hd : Describes k cfg ((hs ++ [(a, h)]).map (·.1.env)))
    (hl : AllLegal cfg k ⟨mem, 0, 0, true⟩ ((hs ++ [(a, h)]).map (·.2)))
    (hc : ∀ q ∈ (asked ((hs ++ [(a, h)]).map (·.2))).head?, ∃ mode, q = .connect mode) :
    ∃ s', step cfg a.env s (h.op a.len a.behind) = .ok s' ∧ run cfg (St.init cfg mem) (ops (hs ++ [(a, h)])) = .ok s' := by
  obtain ⟨s', h1, -, -⟩ := remote_start hp hd hl hc
  refine ⟨s', ?_, h1⟩
  have e : ops (hs ++ [(a, h)]) = ops hs ++ [(a.env, h.op a.len a.behind)] := by simp [ops]
  rw [e, run_append, hr, ok_bind] at h1
  simp only [run] at h1
  cases hs' : step cfg a.env s (h.op a.len a.behind) with
  | error f => simp [hs', error_bind] at h1
  | ok t => simpa [hs', ok_bind] using h1

/-- A step of the program. -/
theorem serves_cpu {cfg : Cfg} (hp : Plain cfg) {k : About} {mem : Mem} {x : InoIrq} {hs : List (Around × Happening)} {p : Option Req} {w : Nat}
    (hx : Serves cfg mem x hs p w) (env : Env) (hd : Describes k cfg (hs.map (·.1.env) ++ [env]))
    (hl : ∀ q ∈ p, AllLegal cfg k ⟨mem, 0, 0, true⟩ (hs.map (·.2) ++ [.request q]))
    (hc : ∀ q ∈ (asked (hs.map (·.2)) ++ p.toList).head?, ∃ mode, q = .connect mode) :
    ∃ y hs' p', x.loopStep cfg (.cpu env) = .ok y ∧ Serves cfg mem y hs' p' (w - 1) ∧
      (hs' = hs ∧ p' = p ∨ ∃ q a, p = some q ∧ p' = none ∧ hs' = hs ++ [(a, .request q)] ∧ a.env = env) := by
  obtain ⟨hran, hcto, hbuf, hsmall, hpr⟩ := hx
  obtain ⟨ino, pc⟩ := x
  simp only at hran hcto hbuf
  cases hpr with
  | done hpc hf =>
    simp only at hpc hf
    subst hpc
    refine ⟨⟨ino, .idle⟩, hs, none, by simp [InoIrq.loopStep, InoIrq.step, InoIrq.cpu, hf], ⟨hran, hcto, hbuf, hsmall, .done rfl hf⟩, .inl ⟨rfl, rfl⟩⟩
  | here q hpc hf hd' hb =>
    simp only at hpc hf hd' hb
    subst hpc
    exact ⟨⟨ino, .seen⟩, hs, some q, by simp [InoIrq.loopStep, InoIrq.step, InoIrq.cpu, hf], ⟨hran, hcto, hbuf, hsmall, .seen q rfl hd' hb⟩, .inl ⟨rfl, rfl⟩⟩
  | seen q hpc hd' hb =>
    simp only at hpc hd' hb
    subst hpc
    exact ⟨⟨{ ino with flag := false }, .cleared⟩, hs, some q, rfl, ⟨hran, hcto, hbuf, hsmall, .cleared q rfl rfl hd' hb⟩, .inl ⟨rfl, rfl⟩⟩
  | cleared q hpc hf hd' hb =>
    simp only at hpc hf hd' hb
    subst hpc
    have h0 : (ino.dlc == 0) = false := by rw [hd']; simpa using req_ne_nil q
    refine ⟨⟨ino, .copying 0 q.bytes.length⟩, hs, some q,
      by simp only [InoIrq.loopStep, InoIrq.step, InoIrq.cpu, h0, Bool.and_false, Bool.false_eq_true, if_false]; rw [hd'], ⟨hran, hcto, hbuf, hsmall, ?_⟩,
      .inl ⟨rfl, rfl⟩⟩
    exact .copying q 0 (by omega) rfl hf hb (by simp)
  | copying q i hi hpc hf hb hc' =>
    simp only at hpc hf hb hc'
    subst hpc
    obtain ⟨hs1, hs2⟩ := hsmall q rfl
    by_cases hlt : i < q.bytes.length
    · have hbi : i < ino.buf.length := by omega
      have hci : i < ino.ctoIn.length := by omega
      refine ⟨⟨{ ino with ctoIn := ino.ctoIn.set i ino.buf[i] }, .copying (i + 1) q.bytes.length⟩, hs, some q, ?_,
        ⟨hran, by simpa using hcto, hbuf, hsmall, ?_⟩, .inl ⟨rfl, rfl⟩⟩
      · simp only [InoIrq.loopStep, InoIrq.step, InoIrq.cpu]
        rw [if_pos hlt, List.getElem?_eq_getElem hbi]
        simp only []
        rw [if_neg (by omega)]
      · have ew : q.bytes.length - i + 1 - 1 = q.bytes.length - (i + 1) + 1 := by omega
        rw [ew]
        refine .copying q (i + 1) (by omega) rfl hf hb ?_
        have e1 : (ino.ctoIn.set i ino.buf[i]).take (i + 1) = ino.ctoIn.take i ++ [ino.buf[i]] := by
          rw [List.set_eq_take_append_cons_drop, if_pos hci, List.take_append, List.length_take, Nat.min_eq_left (by omega)]
          simp [List.take_take]
        have e2 : ino.buf[i] = q.bytes[i] := by
          have := congrArg (·[i]?) hb
          simp only [List.getElem?_take, hlt, if_true, List.getElem?_eq_getElem hbi, List.getElem?_eq_getElem hlt, Option.some.injEq] at this
          exact this
        refine e1.trans ?_
        rw [hc', e2, List.take_add_one, List.getElem?_eq_getElem hlt]
        rfl
    · have hin : i = q.bytes.length := by omega
      subst hin
      rw [List.take_length] at hc'
      have hcto' : ino.ctoIn = q.bytes ++ ino.ctoIn.drop q.bytes.length := by
        conv => lhs; rw [← List.take_append_drop q.bytes.length ino.ctoIn, hc']
      obtain ⟨s', h1, h2⟩ := run_more hp (a := ⟨env, ino.ctoLen, ino.ctoIn.drop q.bytes.length⟩) (h := .request q) hran
        (by simpa using hd) (by simpa using hl q rfl) (by simpa [asked_append, asked] using hc)
      simp only [Happening.op, ← hcto'] at h1
      refine ⟨⟨{ ino with s := s' }, .idle⟩, _, none, ?_, ⟨h2, hcto, hbuf, by simp, ?_⟩, .inr ⟨q, _, rfl, rfl, rfl, rfl⟩⟩
      · simp only [InoIrq.loopStep, InoIrq.step, InoIrq.cpu, Nat.lt_irrefl, if_false, h1, ok_bind]
        rfl
      · simpa using Progress.done rfl hf

/-- A message. -/
theorem serves_msg {cfg : Cfg} {mem : Mem} {x : InoIrq} {hs : List (Around × Happening)} (hx : Serves cfg mem x hs none 0) {m : CanMsg} {q : Req}
    (hm : m.data = q.bytes) (hfit : InoFits (Ino.init cfg mem) m) :
    ∃ y, x.loopStep cfg (.irq m) = .ok y ∧ Serves cfg mem y hs (some q) (q.bytes.length + 4) := by
  obtain ⟨hran, hcto, hbuf, -, hpr⟩ := hx
  cases hpr with
  | done hpc hf =>
    have hfit' : InoFits x.ino m := by
      unfold InoFits at hfit ⊢
      rw [hcto, hbuf]
      simpa [Ino.init] using hfit
    have hr := receive_fits hfit'
    obtain ⟨h1, h2, h3, h4, h5⟩ := hfit'
    refine ⟨⟨{ x.ino with buf := storeAt x.ino.buf 0 m.data, dlc := m.data.length, flag := true }, x.pc⟩, ?_, ⟨hran, hcto, ?_, ?_, ?_⟩⟩
    · simp only [InoIrq.loopStep, InoIrq.step, hr, ok_bind]; rfl
    · exact (storeAt_length (by omega)).trans hbuf
    · rintro q' ⟨⟩
      rw [hm] at h4 h5
      omega
    · exact .here q hpc rfl (by simp [hm]) (by simp [storeAt, hm])

/-- Something else the sketch does. -/
theorem serves_app {cfg : Cfg} (hp : Plain cfg) {k : About} {mem : Mem} {x : InoIrq} {hs : List (Around × Happening)} {p : Option Req} {w : Nat}
    (hx : Serves cfg mem x hs p w) (hpc : x.pc = .idle) {env : Env} {h : Happening} (hn : asked [h] = [])
    (hd : Describes k cfg (hs.map (·.1.env) ++ [env])) (hl : AllLegal cfg k ⟨mem, 0, 0, true⟩ (hs.map (·.2) ++ [h]))
    (hc : ∀ q ∈ (asked (hs.map (·.2))).head?, ∃ mode, q = .connect mode) :
    ∃ y, x.loopStep cfg (.app env (h.op 0 [])) = .ok y ∧ Serves cfg mem y (hs ++ [(⟨env, 0, []⟩, h)]) p w := by
  obtain ⟨hran, hcto, hbuf, hsmall, hpr⟩ := hx
  obtain ⟨s', h1, h2⟩ := run_more hp (a := ⟨env, 0, []⟩) (h := h) hran (by simpa using hd) (by simpa using hl)
    (by simpa [asked_append, hn] using hc)
  refine ⟨{ x with ino := { x.ino with s := s' } }, ?_, ⟨h2, hcto, hbuf, hsmall, ?_⟩⟩
  · simp only at h1
    simp only [InoIrq.loopStep, hpc, h1, ok_bind]
    rfl
  · cases hpr with
    | done a b => exact .done a b
    | here q a b c d => exact .here q a b c d
    | seen q a b c => exact .seen q a b c
    | cleared q a b c d => exact .cleared q a b c d
    | copying q i a b c d e => exact .copying q i a b c d e

theorem InoIrq.loopRun_append (cfg : Cfg) : ∀ (a b : List LoopOp) (x : InoIrq),
    x.loopRun cfg (a ++ b) = (x.loopRun cfg a >>= fun y => y.loopRun cfg b)
  | [], _, _ => rfl
  | o :: a, b, x => by
    simp only [List.cons_append, InoIrq.loopRun]
    cases x.loopStep cfg o with
    | error f => rfl
    | ok y => exact InoIrq.loopRun_append cfg a b y

/-- The number of packets sent is the number of requests executed. -/
theorem serves_sent {cfg : Cfg} (hp : Plain cfg) {k : About} {mem : Mem} {hs : List (Around × Happening)} {s : St}
    (hr : run cfg (St.init cfg mem) (ops hs) = .ok s) (hd : Describes k cfg (hs.map (·.1.env)))
    (hl : AllLegal cfg k ⟨mem, 0, 0, true⟩ (hs.map (·.2))) (hc : ∀ q ∈ (asked (hs.map (·.2))).head?, ∃ mode, q = .connect mode) :
    s.tx.length = (asked (hs.map (·.2))).length := by
  obtain ⟨s', h1, h2, -⟩ := remote_start hp hd hl hc
  rw [hr] at h1
  cases h1
  rw [(carryAll_get h2).1, answers_length]

/-- The whole history. -/
theorem serves_run {cfg : Cfg} (hp : Plain cfg) {k : About} {mem : Mem} {envs : List Env} (hd : Describes k cfg envs) {Q : List Req}
    {A : List Happening} (hl : ∀ hs, asked hs = Q → besides hs = A → AllLegal cfg k ⟨mem, 0, 0, true⟩ hs)
    (hc : ∀ q ∈ Q.head?, ∃ mode, q = .connect mode) (hA0 : asked A = []) : ∀ (ts : List Slice) (x : InoIrq) (hs : List (Around × Happening)) (p : Option Req) (w : Nat)
    (R : List Req), Serves cfg mem x hs p w → Q = asked (hs.map (·.2)) ++ p.toList ++ R → A = besides (hs.map (·.2)) ++ doings ts →
    (∀ e ∈ hs.map (·.1.env), e ∈ envs) → (∀ e ∈ turnEnvs ts, e ∈ envs) →
    (arrived ts).map (·.data) = R.map Req.bytes → (∀ m ∈ arrived ts, InoFits (Ino.init cfg mem) m) →
    Waits cfg x (asked (hs.map (·.2)) ++ p.toList).length ts →
    ∃ y hs' p' w', x.loopRun cfg (ts.map Slice.op) = .ok y ∧ Serves cfg mem y hs' p' w' ∧ Q = asked (hs'.map (·.2)) ++ p'.toList ∧
      A = besides (hs'.map (·.2)) ∧ ∀ e ∈ hs'.map (·.1.env), e ∈ envs
  | [], x, hs, p, w, R, hx, hQ, hA, he, _, hR, _, _ => by
    have : R = [] := by
      have := congrArg List.length hR
      simpa [arrived] using this.symm
    subst this
    exact ⟨x, hs, p, w, rfl, hx, by simpa using hQ, by simpa [doings] using hA, he⟩
  | t :: ts, x, hs, p, w, R, hx, hQ, hA, he, he', hR, hf, hw => by
    have hdh : ∀ es : List Env, (∀ e ∈ es, e ∈ envs) → Describes k cfg es := fun es h =>
      { hd with hook := fun hm env hx => hd.hook hm env (h env hx) }
    -- what has been executed is legal, also with more
    have hleg : ∀ (b : List Happening) (R' : List Req) (A' : List Happening), asked (hs.map (·.2) ++ b) ++ R' = Q →
        besides (hs.map (·.2) ++ b) ++ A' = A → (asked A' = []) → AllLegal cfg k ⟨mem, 0, 0, true⟩ (hs.map (·.2) ++ b) := by
      intro b R' A' h1 h2 h3
      refine allLegal_append (b := R'.map .request ++ A') (hl _ ?_ ?_)
      · rw [asked_append _ (R'.map Happening.request ++ A'), asked_append (R'.map Happening.request), h3, List.append_nil]
        have : asked (R'.map .request) = R' := by
          simp [asked, List.filterMap_map, Function.comp_def]
        rw [this, h1]
      · rw [besides_append _ (R'.map Happening.request ++ A'), besides_append (R'.map Happening.request)]
        have e1 : besides (R'.map .request) = [] := by simp [besides]
        have e2 : besides A' = A' := by
          clear h2
          induction A' with
          | nil => rfl
          | cons a A' ih =>
            cases a with
            | request q => simp [asked] at h3
            | _ => simp only [besides, List.filter_cons, if_true]; rw [show A'.filter _ = A' from ih (by simpa [asked] using h3)]
        rw [e1, e2, List.nil_append, h2]
    obtain ⟨hw1, hw2⟩ := hw
    have hA1 : asked (doings (t :: ts)) = [] := by
      have := hA0
      rw [hA, asked_append] at this
      exact (List.append_eq_nil_iff.mp this).2
    have hchead : ∀ (a b : List Req), Q = a ++ b → ∀ q ∈ a.head?, ∃ mode, q = .connect mode := by
      intro a b h q hq
      refine hc q ?_
      rw [h, List.head?_append]
      rw [Option.mem_def] at hq ⊢
      simp [hq]
    cases t with
    | cpu env =>
      have hdo : doings (.cpu env :: ts) = doings ts := by simp [doings]
      rw [hdo] at hA hA1
      obtain ⟨y, hs', p', h1, h2, h3⟩ := serves_cpu (k := k) hp hx env (hdh _ (by
          intro e h
          rcases List.mem_append.mp h with h | h
          · exact he e h
          · exact he' e (by simpa [turnEnvs] using .inl (by simpa using h))))
        (by
          intro q hq
          have : p = some q := hq
          subst this
          refine hleg [.request q] R (doings ts) ?_ ?_ hA1
          · rw [asked_append, hQ]; simp [asked]
          · rw [besides_append, hA]; simp [besides])
        (hchead _ _ hQ)
      have hw3 := hw2 y h1
      have hQ' : Q = asked (hs'.map (·.2)) ++ p'.toList ++ R ∧ asked (hs'.map (·.2)) ++ p'.toList = asked (hs.map (·.2)) ++ p.toList ∧
          besides (hs'.map (·.2)) = besides (hs.map (·.2)) ∧ ∀ e ∈ hs'.map (·.1.env), e ∈ envs := by
        rcases h3 with ⟨rfl, rfl⟩ | ⟨q, a, rfl, rfl, rfl, rfl⟩
        · exact ⟨hQ, rfl, rfl, he⟩
        · refine ⟨by rw [hQ]; simp [asked], by simp [asked], by simp [besides], ?_⟩
          intro e h
          rw [List.map_append, List.mem_append] at h
          rcases h with h | h
          · exact he e h
          · exact he' e (by simpa [turnEnvs] using .inl (by simpa using h))
      obtain ⟨z, hs'', p'', w'', g1, g2⟩ := serves_run hp hd hl hc hA0 ts y hs' p' (w - 1) R h2 hQ'.1 (by rw [hQ'.2.2.1]; exact hA) hQ'.2.2.2
        (fun e h => he' e (by simpa [turnEnvs] using .inr (by simpa [turnEnvs] using h))) (by simpa [arrived] using hR)
        (by simpa [arrived] using hf) (by rw [hQ'.2.1]; simpa [arrived] using hw3)
      refine ⟨z, hs'', p'', w'', ?_, g2⟩
      simp only [List.map_cons, InoIrq.loopRun, Slice.op, h1, ok_bind, g1]
    | app env h =>
      have hdo : doings (.app env h :: ts) = h :: doings ts := by simp [doings]
      rw [hdo] at hA hA1
      have hn : asked [h] = [] ∧ asked (doings ts) = [] := by
        rw [show h :: doings ts = [h] ++ doings ts from rfl, asked_append] at hA1
        exact List.append_eq_nil_iff.mp hA1
      have hb : besides [h] = [h] := by cases h <;> simp_all [asked, besides]
      obtain ⟨y, h1, h2⟩ := serves_app (k := k) (env := env) hp hx hw1 hn.1 (hdh _ (by
          intro e h
          rcases List.mem_append.mp h with h | h
          · exact he e h
          · exact he' e (by simpa [turnEnvs] using .inl (by simpa using h))))
        (by
          refine hleg [h] (p.toList ++ R) (doings ts) ?_ ?_ hn.2
          · rw [asked_append, hQ, hn.1]; simp
          · rw [besides_append, hA, hb]; simp)
        (hchead _ (p.toList ++ R) (by rw [hQ]; simp))
      have hw3 := hw2 y h1
      have e1 : asked ((hs ++ [((⟨env, 0, []⟩ : Around), h)]).map (·.2)) = asked (hs.map (·.2)) := by
        rw [List.map_append, asked_append]
        simp [hn.1]
      have e2 : besides ((hs ++ [((⟨env, 0, []⟩ : Around), h)]).map (·.2)) = besides (hs.map (·.2)) ++ [h] := by
        rw [List.map_append, besides_append]
        simp [hb]
      obtain ⟨z, hs'', p'', w'', g1, g2⟩ := serves_run hp hd hl hc hA0 ts y _ p w R h2 (by rw [e1]; exact hQ) (by rw [e2, hA]; simp)
        (by
          intro e h
          rw [List.map_append, List.mem_append] at h
          rcases h with h | h
          · exact he e h
          · exact he' e (by simpa [turnEnvs] using .inl (by simpa using h)))
        (fun e h => he' e (by simpa [turnEnvs] using .inr (by simpa [turnEnvs] using h))) (by simpa [arrived] using hR)
        (by simpa [arrived] using hf) (by rw [e1]; simpa [arrived] using hw3)
      refine ⟨z, hs'', p'', w'', ?_, g2⟩
      simp only [List.map_cons, InoIrq.loopRun, Slice.op, h1, ok_bind, g1]
    | msg m =>
      have hdo : doings (.msg m :: ts) = doings ts := by simp [doings]
      rw [hdo] at hA hA1
      -- nothing is pending
      have hsent := serves_sent hp hx.ran (hdh _ he) (by
          have := hleg [] (p.toList ++ R) (doings ts) (by rw [List.append_nil, hQ]; simp) (by rw [List.append_nil, hA]) hA1
          simpa using this) (hchead _ (p.toList ++ R) (by rw [hQ]; simp))
      have hpn : p = none := by
        cases p with
        | none => rfl
        | some q => simp [hsent] at hw1
      subst hpn
      have hw0 : w = 0 := by cases hx.progress; rfl
      subst hw0
      have har : arrived (.msg m :: ts) = m :: arrived ts := by simp [arrived]
      rw [har] at hR hf
      match R, hR with
      | q :: R, hR =>
        simp only [List.map_cons, List.cons.injEq] at hR
        obtain ⟨y, h1, h2⟩ := serves_msg hx hR.1 (hf m List.mem_cons_self)
        have hw3 := hw2 y h1
        obtain ⟨z, hs'', p'', w'', g1, g2⟩ := serves_run hp hd hl hc hA0 ts y hs (some q) _ R h2 (by rw [hQ]; simp) hA he
          (fun e h => he' e (by simpa [turnEnvs] using h)) hR.2
          (fun m h => hf m (List.mem_cons_of_mem _ h)) (by simpa [arrived] using hw3)
        refine ⟨z, hs'', p'', w'', ?_, g2⟩
        simp only [List.map_cons, InoIrq.loopRun, Slice.op, h1, ok_bind, g1]

/-- From start-up. -/
theorem sketch_serves {cfg : Cfg} (hp : Plain cfg) {k : About} {mem : Mem} {mode : UInt8} {qs : List Req} {ts : List Slice}
    {envs : List Env} (hd : Describes k cfg envs) (he : ∀ e ∈ turnEnvs ts, e ∈ envs)
    (hq : (arrived ts).map (·.data) = (Req.connect mode :: qs).map Req.bytes)
    (hf : ∀ m ∈ arrived ts, InoFits (Ino.init cfg mem) m) (ha : asked (doings ts) = [])
    (hl : ∀ hs, asked hs = .connect mode :: qs → besides hs = doings ts → AllLegal cfg k ⟨mem, 0, 0, true⟩ hs)
    (hw : Waits cfg ⟨Ino.init cfg mem, .idle⟩ 0 ts) :
    ∃ y hs p w, InoIrq.loopRun cfg ⟨Ino.init cfg mem, .idle⟩ (ts.map Slice.op) = .ok y ∧ Serves cfg mem y hs p w ∧
      .connect mode :: qs = asked (hs.map (·.2)) ++ p.toList ∧ doings ts = besides (hs.map (·.2)) ∧ (∀ e ∈ hs.map (·.1.env), e ∈ envs) ∧
      CarryAll cfg y.ino.s.tx (Remote.answers k ⟨mem, 0, 0, true⟩ (hs.map (·.2))) ∧
      y.ino.s.mem = (Remote.final k ⟨mem, 0, 0, true⟩ (hs.map (·.2))).mem := by
  have hc : ∀ q ∈ (Req.connect mode :: qs).head?, ∃ mode, q = .connect mode := by simp
  obtain ⟨y, hs, p, w, h1, h2, h3, h4, h5⟩ := serves_run hp hd hl hc ha ts ⟨Ino.init cfg mem, .idle⟩ [] none 0 (.connect mode :: qs)
    ⟨rfl, by simp [Ino.init], by simp [Ino.init], by simp, .done rfl rfl⟩ rfl rfl (by simp) he hq hf hw
  have hleg : AllLegal cfg k ⟨mem, 0, 0, true⟩ (hs.map (·.2)) := by
    refine allLegal_append (b := p.toList.map .request) (hl _ ?_ ?_)
    · rw [asked_append, h3]
      cases p <;> simp [asked]
    · rw [besides_append, h4]
      cases p <;> simp [besides]
  obtain ⟨s, g1, g2, g3⟩ := remote_start hp (hs := hs) { hd with hook := fun hm env hx => hd.hook hm env (h5 env hx) } hleg (by
    intro q hq'
    refine hc q ?_
    rw [h3, List.head?_append]
    rw [Option.mem_def] at hq' ⊢
    simp [hq'])
  rw [h2.ran] at g1
  cases g1
  exact ⟨y, hs, p, w, h1, h2, h3, h4, h5, g2, g3⟩

/-- C111: a tool that sends CONNECT and then whatever it likes, each message after the answer to the one before it; the
sketch does other things in between.  Wherever the interrupts fall, the program never fails; what it sends are the
answers of the remote memory to the requests, in some order with the doings of the sketch, except perhaps for the last
request, which it is still working on; and its memory is that of the remote memory. -/
theorem C111_waiting_tool {cfg : Cfg} (hp : Plain cfg) {k : About} {mem : Mem} {mode : UInt8} {qs : List Req} {ts : List Slice}
    (hd : Describes k cfg (turnEnvs ts)) (hq : (arrived ts).map (·.data) = (Req.connect mode :: qs).map Req.bytes)
    (hf : ∀ m ∈ arrived ts, InoFits (Ino.init cfg mem) m) (ha : asked (doings ts) = [])
    (hl : ∀ hs, asked hs = .connect mode :: qs → besides hs = doings ts → AllLegal cfg k ⟨mem, 0, 0, true⟩ hs)
    (hw : Waits cfg ⟨Ino.init cfg mem, .idle⟩ 0 ts) :
    ∃ y hs, InoIrq.loopRun cfg ⟨Ino.init cfg mem, .idle⟩ (ts.map Slice.op) = .ok y ∧ besides hs = doings ts ∧
      (asked hs = .connect mode :: qs ∨ asked hs = (Req.connect mode :: qs).dropLast) ∧
      CarryAll cfg y.ino.s.tx (Remote.answers k ⟨mem, 0, 0, true⟩ hs) ∧
      y.ino.s.mem = (Remote.final k ⟨mem, 0, 0, true⟩ hs).mem := by
  obtain ⟨y, hs, p, w, h1, h2, h3, h4, -, h5, h6⟩ := sketch_serves hp hd (fun _ h => h) hq hf ha hl hw
  refine ⟨y, hs.map (·.2), h1, h4.symm, ?_, h5, h6⟩
  cases p with
  | none => left; simpa using h3.symm
  | some q => right; rw [h3]; simp

/-- The steps the program still needs. -/
theorem serves_cpus {cfg : Cfg} (hp : Plain cfg) {k : About} {mem : Mem} : ∀ (es : List Env) {x : InoIrq} {hs : List (Around × Happening)}
    {p : Option Req} {w : Nat}, Serves cfg mem x hs p w → Describes k cfg (hs.map (·.1.env) ++ es) →
    (∀ q ∈ p, AllLegal cfg k ⟨mem, 0, 0, true⟩ (hs.map (·.2) ++ [.request q])) →
    (∀ q ∈ (asked (hs.map (·.2)) ++ p.toList).head?, ∃ mode, q = .connect mode) →
    ∃ y hs' p', x.loopRun cfg (es.map .cpu) = .ok y ∧ Serves cfg mem y hs' p' (w - es.length) ∧
      hs'.map (·.2) ++ p'.toList.map .request = hs.map (·.2) ++ p.toList.map .request ∧ ∀ e ∈ hs'.map (·.1.env), e ∈ hs.map (·.1.env) ++ es
  | [], x, hs, p, w, hx, _, _, _ => ⟨x, hs, p, rfl, hx, rfl, fun e h => by simpa using h⟩
  | e :: es, x, hs, p, w, hx, hd, hl, hc => by
    obtain ⟨y, hs', p', h1, h2, h3⟩ := serves_cpu hp hx e { hd with hook := fun hm env h => hd.hook hm env (by
      rcases List.mem_append.mp h with h | h
      · exact List.mem_append.mpr (.inl h)
      · exact List.mem_append.mpr (.inr (by simp at h; simp [h]))) } hl hc
    have key : hs'.map (·.2) ++ p'.toList.map .request = hs.map (·.2) ++ p.toList.map .request ∧
        (∀ e' ∈ hs'.map (·.1.env), e' ∈ hs.map (·.1.env) ++ [e]) ∧
        (∀ q ∈ p', AllLegal cfg k ⟨mem, 0, 0, true⟩ (hs'.map (·.2) ++ [.request q])) ∧
        (∀ q ∈ (asked (hs'.map (·.2)) ++ p'.toList).head?, ∃ mode, q = .connect mode) := by
      rcases h3 with ⟨rfl, rfl⟩ | ⟨q, a, rfl, rfl, rfl, rfl⟩
      · exact ⟨rfl, fun e' h => List.mem_append.mpr (.inl h), hl, hc⟩
      · refine ⟨by simp, by simp, by simp, ?_⟩
        simpa [asked] using hc
    obtain ⟨k1, k2, k3, k4⟩ := key
    obtain ⟨z, hs'', p'', g1, g2, g3, g4⟩ := serves_cpus hp es h2 { hd with hook := fun hm env h => hd.hook hm env (by
      rcases List.mem_append.mp h with h | h
      · rcases List.mem_append.mp (k2 env h) with h | h
        · exact List.mem_append.mpr (.inl h)
        · exact List.mem_append.mpr (.inr (by simp at h; simp [h]))
      · exact List.mem_append.mpr (.inr (List.mem_cons_of_mem _ h))) } k3 k4
    refine ⟨z, hs'', p'', ?_, ?_, g3.trans k1, ?_⟩
    · simp only [List.map_cons, InoIrq.loopRun, h1, ok_bind, g1]
    · simpa [Nat.sub_sub, Nat.add_comm] using g2
    · intro e' h
      rcases List.mem_append.mp (g4 e' h) with h | h
      · rcases List.mem_append.mp (k2 e' h) with h | h
        · exact List.mem_append.mpr (.inl h)
        · exact List.mem_append.mpr (.inr (by simp at h; simp [h]))
      · exact List.mem_append.mpr (.inr (List.mem_cons_of_mem _ h))

/-- A history with enough steps at its end: four, and one for each byte of the longest message. -/
theorem C111_answered {cfg : Cfg} (hp : Plain cfg) {k : About} {mem : Mem} {mode : UInt8} {qs : List Req} {ts : List Slice} {es : List Env}
    (hd : Describes k cfg (turnEnvs ts ++ es)) (hq : (arrived ts).map (·.data) = (Req.connect mode :: qs).map Req.bytes)
    (hf : ∀ m ∈ arrived ts, InoFits (Ino.init cfg mem) m) (ha : asked (doings ts) = [])
    (hl : ∀ hs, asked hs = .connect mode :: qs → besides hs = doings ts → AllLegal cfg k ⟨mem, 0, 0, true⟩ hs)
    (hw : Waits cfg ⟨Ino.init cfg mem, .idle⟩ 0 ts) (hes : ∀ m ∈ arrived ts, m.data.length + 4 ≤ es.length) :
    ∃ y h hs, InoIrq.loopRun cfg ⟨Ino.init cfg mem, .idle⟩ (ts.map Slice.op ++ es.map .cpu) = .ok y ∧ run cfg (St.init cfg mem) h = .ok y.ino.s ∧
      besides hs = doings ts ∧ asked hs = .connect mode :: qs ∧
      CarryAll cfg y.ino.s.tx (Remote.answers k ⟨mem, 0, 0, true⟩ hs) ∧
      y.ino.s.mem = (Remote.final k ⟨mem, 0, 0, true⟩ hs).mem ∧ y.pc = .idle ∧ y.ino.flag = false := by
  obtain ⟨x, hs, p, w, h1, h2, h3, h4, h5, -, -⟩ := sketch_serves hp hd (fun _ h => List.mem_append.mpr (.inl h)) hq hf ha hl hw
  have hsub : ∀ {l : List Env}, (∀ e ∈ l, e ∈ turnEnvs ts ++ es) → Describes k cfg l := fun h =>
    { hd with hook := fun hm env hx => hd.hook hm env (h env hx) }
  have hc : ∀ q ∈ (asked (hs.map (·.2)) ++ p.toList).head?, ∃ mode, q = .connect mode := by rw [← h3]; simp
  have hleg : ∀ q ∈ p, AllLegal cfg k ⟨mem, 0, 0, true⟩ (hs.map (·.2) ++ [.request q]) := by
    rintro q ⟨⟩
    refine hl _ ?_ ?_
    · rw [asked_append, h3]; simp [asked]
    · rw [besides_append, h4]; simp [besides]
  obtain ⟨y, hs', p', g1, g2, g3, g4⟩ := serves_cpus hp es h2 (hsub (by
    intro e h
    rcases List.mem_append.mp h with h | h
    · exact h5 e h
    · exact List.mem_append.mpr (.inr h))) hleg hc
  have hw0 : w - es.length = 0 := by
    have hb : ∀ q ∈ p, q.bytes.length + 4 ≤ es.length := by
      rintro q ⟨⟩
      have hmem : q.bytes ∈ (Req.connect mode :: qs).map Req.bytes := List.mem_map.mpr ⟨q, by rw [h3]; simp, rfl⟩
      rw [← hq] at hmem
      obtain ⟨m, hm, he⟩ := List.mem_map.mp hmem
      rw [← he]
      exact hes m hm
    cases h2.progress with
    | done => simp
    | here q => have := hb q rfl; omega
    | seen q => have := hb q rfl; omega
    | cleared q => have := hb q rfl; omega
    | copying q i => have := hb q rfl; omega
  rw [hw0] at g2
  have hpn : p' = none ∧ y.pc = .idle ∧ y.ino.flag = false := by
    generalize hz : (0 : Nat) = z at g2
    cases g2.progress with
    | done a b => exact ⟨rfl, a, b⟩
    | _ => omega
  obtain ⟨rfl, hpc, hfl⟩ := hpn
  simp only [Option.toList_none, List.map_nil, List.append_nil] at g3
  have ask : asked (hs'.map (·.2)) = .connect mode :: qs := by
    rw [g3, asked_append, h3]
    cases p <;> simp [asked]
  have bes : besides (hs'.map (·.2)) = doings ts := by
    rw [g3, besides_append, h4]
    cases p <;> simp [besides]
  obtain ⟨s, k1, k2, k3⟩ := remote_start hp (hs := hs') (mem := mem) (hsub (by
    intro e h
    rcases List.mem_append.mp (g4 e h) with h | h
    · exact h5 e h
    · exact List.mem_append.mpr (.inr h))) (hl _ ask bes) (by rw [ask]; simp)
  rw [g2.ran] at k1
  cases k1
  refine ⟨y, _, _, ?_, g2.ran, bes, ask, k2, k3, hpc, hfl⟩
  rw [InoIrq.loopRun_append, h1, ok_bind, g1]

/-- C111, the messages on the bus. -/
theorem C111_bus {cfg : Cfg} (hp : Plain cfg) (hk : CanCfg cfg 8) {outb : UInt32} {k : About} {mem : Mem} {mode : UInt8} {qs : List Req}
    {ts : List Slice} {es : List Env} (hd : Describes k cfg (turnEnvs ts ++ es))
    (hq : (arrived ts).map (·.data) = (Req.connect mode :: qs).map Req.bytes)
    (hf : ∀ m ∈ arrived ts, m.rtr = false ∧ m.data.length ≤ cfg.maxCto) (ha : asked (doings ts) = [])
    (hl : ∀ hs, asked hs = .connect mode :: qs → besides hs = doings ts → AllLegal cfg k ⟨mem, 0, 0, true⟩ hs)
    (hw : Waits cfg ⟨Ino.init cfg mem, .idle⟩ 0 ts) (hes : 12 ≤ es.length) :
    ∃ y hs, InoIrq.loopRun cfg ⟨Ino.init cfg mem, .idle⟩ (ts.map Slice.op ++ es.map .cpu) = .ok y ∧ besides hs = doings ts ∧
      asked hs = .connect mode :: qs ∧
      OneEach (AnswerMsg cfg outb) (Remote.answers k ⟨mem, 0, 0, true⟩ hs) (y.ino.s.tx.filterMap fun f => inoSend outb f.bytes) ∧
      y.ino.s.mem = (Remote.final k ⟨mem, 0, 0, true⟩ hs).mem := by
  have h8 : cfg.maxCto ≤ 8 := hk.cto
  have hne : ∀ m ∈ arrived ts, m.data ≠ [] := by
    intro m hm h0
    have : m.data ∈ (Req.connect mode :: qs).map Req.bytes := by rw [← hq]; exact List.mem_map.mpr ⟨m, hm, rfl⟩
    obtain ⟨q, -, hq⟩ := List.mem_map.mp this
    exact req_ne_nil q (by rw [hq, h0]; rfl)
  obtain ⟨y, h, hs, h1, h2, h3, h4, h5, h6, -, -⟩ := C111_answered hp hd hq (fun m hm => ⟨(hf m hm).1, hne m hm, by have := (hf m hm).2; omega,
    by have := (hf m hm).2; simp [Ino.init]; omega, by have := (hf m hm).2; simp [Ino.init]; omega⟩) ha hl hw
    (fun m hm => by have := (hf m hm).2; omega)
  obtain ⟨out, g1, g2⟩ := C75_arduino_partial (outb := outb) hp.ok hk h2
  obtain ⟨c1, c2⟩ := carryAll_get h5
  refine ⟨y, hs, h1, h3, h4, ?_, h6⟩
  rw [g1]
  refine oneEach_map g2 (by rw [List.length_map]; exact c1) ?_
  rintro i p q m hp' hq' ⟨ha, hdt⟩
  rw [List.getElem?_map, Option.map_eq_some_iff] at hp'
  obtain ⟨f, hf, rfl⟩ := hp'
  obtain ⟨-, f1, f2⟩ := c2 i f q hf hq'
  simp only [payload, hk.noLen, hk.noCtr, List.drop_zero, Nat.add_zero] at f1 f2
  exact ⟨ha, by rw [hdt]; exact f1, by rw [hdt]; exact f2⟩

/-- `Waits`, to be computed. -/
def Spec.waits (cfg : Cfg) : InoIrq → Nat → List Slice → Bool
  | _, _, [] => true
  | x, n, t :: ts =>
    (match t with
      | .msg _ => x.ino.s.tx.length == n
      | .cpu _ => true
      | .app _ _ => x.pc == .idle) &&
    match x.loopStep cfg t.op with
    | .ok y => waits cfg y (n + (arrived [t]).length) ts
    | .error _ => true

theorem waits_sound {cfg : Cfg} : ∀ (ts : List Slice) (x : InoIrq) (n : Nat), waits cfg x n ts = true → Waits cfg x n ts
  | [], _, _, _ => trivial
  | t :: ts, x, n, h => by
    simp only [waits, Bool.and_eq_true] at h
    refine ⟨?_, ?_⟩
    · cases t with
      | msg m => simpa using h.1
      | cpu e => trivial
      | app e h' => simpa using h.1
    · intro y hy
      rw [hy] at h
      exact waits_sound ts y _ h.2

/-- CONNECT; the sketch writes a variable before the program looks at the message; SET_MTA, with a call of `Xcp_MainFunction`;
UPLOAD, which finds what the sketch wrote. -/
def Ex.sketch : List Slice :=
  let cpu := Slice.cpu Ex.env
  [.app Ex.env .main, .msg ⟨0x300, false, false, [0xFF, 0]⟩, .app Ex.env (.write 0x1235 0x99)] ++ List.replicate 6 cpu ++
  [.app Ex.env (.event 0), cpu, .msg ⟨0x300, false, false, [0xF6, 0, 0, 0, 0x34, 0x12, 0, 0]⟩] ++ List.replicate 12 cpu ++
  [.app Ex.env .main, .msg ⟨0x300, false, false, [0xF5, 3]⟩, cpu, cpu]

example : Waits Ex.canPlain ⟨Ino.init Ex.canPlain Ex.mem, .idle⟩ 0 Ex.sketch := waits_sound _ _ _ (by decide +kernel)

example : (arrived Ex.sketch).map (·.data) = (Req.connect 0 :: [.setMta 0 0x1234, .upload 3]).map Req.bytes ∧
    doings Ex.sketch = [.main, .write 0x1235 0x99, .event 0, .main] ∧
    ∀ m ∈ arrived Ex.sketch, m.rtr = false ∧ m.data.length ≤ Ex.canPlain.maxCto := by decide +kernel

/-- On the bus. -/
example : (InoIrq.loopRun Ex.canPlain ⟨Ino.init Ex.canPlain Ex.mem, .idle⟩ (Ex.sketch.map Slice.op ++ List.replicate 12 (.cpu Ex.env))).toOption.map
      (fun y => y.ino.s.tx.filterMap fun f => inoSend 0x301 f.bytes) =
    some [⟨0x301, false, false, [0xFF, 0x15, 0x80, 8, 8, 0, 1, 1]⟩, ⟨0x301, false, false, [0xFF]⟩, ⟨0x301, false, false, [0xFF, 0x34, 0x99, 0x36]⟩] := by
  decide +kernel

/-- A tool that does not wait for the answer to its SET_MTA does not get what it asked for (C108). -/
example : waits Ex.canPlain ⟨Ino.init Ex.canPlain Ex.mem, .idle⟩ 0
    ([.msg ⟨0x300, false, false, [0xFF, 0]⟩, .cpu Ex.env, .msg ⟨0x300, false, false, [0xF5, 3]⟩]) = false := by decide +kernel

end Xcp
