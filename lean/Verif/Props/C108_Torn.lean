import Verif.Model.InoIrq
import Verif.Props.C66_Arduino
/-
C108: a message that arrives while the Arduino program is handling another does not change what is executed.

True if the program makes `n + 4` steps after each message of `n` bytes (`C108_atomic`), and if the message
arrives after the copy (`C108_late`).  A message that arrives earlier spoils the one before it: it is lost
(`C108_fails_lost`), the new one is executed twice (`C108_fails_twice`), or the slave executes a packet that consists of
the beginning of one and the end of the other, which nobody sent (`C108_fails_torn`).
-/
set_option autoImplicit false
namespace Xcp
open Spec

/-- Steps of the program, one in each of the environments. -/
def Spec.cpus (es : List Env) : List IrqOp := es.map .cpu

/-- A message with data, neither too long for `XcpTl_Buffer` nor for the buffer of the slave. -/
def Spec.InoFits (x : Ino) (m : CanMsg) : Prop :=
  m.rtr = false ∧ m.data ≠ [] ∧ m.data.length < 256 ∧ m.data.length ≤ x.ctoIn.length ∧ m.data.length ≤ x.buf.length

theorem InoIrq.run_append (cfg : Cfg) : ∀ (a b : List IrqOp) (x : InoIrq), x.run cfg (a ++ b) = (x.run cfg a >>= fun y => y.run cfg b)
  | [], _, _ => rfl
  | o :: a, b, x => by
    simp only [List.cons_append, InoIrq.run]
    cases x.step cfg o with
    | error f => rfl
    | ok y => exact InoIrq.run_append cfg a b y

/-- The copy loop. -/
theorem copy_run (cfg : Cfg) : ∀ (es : List Env) (x : Ino) (i n : Nat), i + es.length ≤ n → n ≤ x.buf.length → i + es.length ≤ x.ctoIn.length →
    InoIrq.run cfg ⟨x, .copying i n⟩ (cpus es) =
      .ok ⟨{ x with ctoIn := x.ctoIn.take i ++ (x.buf.drop i).take es.length ++ x.ctoIn.drop (i + es.length) }, .copying (i + es.length) n⟩
  | [], x, i, n, _, _, _ => by simp [cpus, InoIrq.run]
  | e :: es, x, i, n, h, hb, hc => by
    simp only [List.length_cons] at h hc
    simp only [cpus, List.map_cons, InoIrq.run, InoIrq.step, InoIrq.cpu]
    rw [if_pos (by omega), List.getElem?_eq_getElem (by omega)]
    simp only []
    rw [if_neg (by omega), ok_bind]
    have ih := copy_run cfg es { x with ctoIn := x.ctoIn.set i x.buf[i] } (i + 1) n (by omega) hb (by simp; omega)
    refine ih.trans ?_
    have hl : i < x.ctoIn.length := by omega
    have hlb : i < x.buf.length := by omega
    have e1 : (x.ctoIn.set i x.buf[i]).take (i + 1) = x.ctoIn.take i ++ [x.buf[i]] := by
      rw [List.set_eq_take_append_cons_drop, if_pos hl, List.take_append, List.length_take, Nat.min_eq_left (by omega)]
      simp [List.take_take]
    have e2 : (x.ctoIn.set i x.buf[i]).drop (i + 1 + es.length) = x.ctoIn.drop (i + (es.length + 1)) := by
      rw [List.drop_set_of_lt (by omega)]
      congr 1; omega
    have e3 : (x.buf.drop i).take (es.length + 1) = x.buf[i] :: (x.buf.drop (i + 1)).take es.length := by
      rw [List.drop_eq_getElem_cons hlb, List.take_succ_cons]
    simp only [List.length_cons, e1, e2, e3]
    rw [show i + 1 + es.length = i + (es.length + 1) by omega]
    simp

/-- Outside of the main function, with no message: nothing happens. -/
theorem idle_run (cfg : Cfg) : ∀ (es : List Env) (x : Ino), x.flag = false → InoIrq.run cfg ⟨x, .idle⟩ (cpus es) = .ok ⟨x, .idle⟩
  | [], _, _ => rfl
  | e :: es, x, h => by
    simp only [cpus, List.map_cons, InoIrq.run, InoIrq.step, InoIrq.cpu, h, Bool.false_eq_true, if_false, ok_bind]
    exact idle_run cfg es x h

theorem receive_fits {x : Ino} {m : CanMsg} (h : InoFits x m) :
    x.receive m = .ok { x with buf := storeAt x.buf 0 m.data, dlc := m.data.length, flag := true } := by
  obtain ⟨h1, h2, h3, h4, h5⟩ := h
  unfold Ino.receive
  rw [if_neg (by simp [h1]), if_neg (by omega), Nat.mod_eq_of_lt h3]

/-- The first `k + 3` steps after a message: the flag is cleared, and `k` bytes are copied. -/
theorem begin_run {cfg : Cfg} {x : Ino} (hf : x.flag = true) (hd : x.dlc ≠ 0) (hb : x.dlc ≤ x.buf.length) (hc : x.dlc ≤ x.ctoIn.length)
    (e1 e2 e3 : Env) (es : List Env) (hk : es.length ≤ x.dlc) :
    InoIrq.run cfg ⟨x, .idle⟩ (cpus (e1 :: e2 :: e3 :: es)) =
      .ok ⟨{ x with flag := false, ctoIn := x.buf.take es.length ++ x.ctoIn.drop es.length }, .copying es.length x.dlc⟩ := by
  have hd' : (x.dlc == 0) = false := by simpa using hd
  simp only [cpus, List.map_cons, InoIrq.run, InoIrq.step, InoIrq.cpu, hf, if_true, ok_bind, hd', Bool.and_false, Bool.false_eq_true, if_false]
  refine (copy_run cfg es { x with flag := false } 0 x.dlc (by omega) hb (by simpa using Nat.le_trans hk hc)).trans ?_
  simp

/-- The rest of the copy, and the command. -/
theorem finish_run {cfg : Cfg} {x : Ino} {i n : Nat} (hb : n ≤ x.buf.length) (hc : n ≤ x.ctoIn.length) (es : List Env) (hk : i + es.length = n)
    (e : Env) (ops : List IrqOp) :
    InoIrq.run cfg ⟨x, .copying i n⟩ (cpus es ++ .cpu e :: ops) =
      (Xcp.step cfg e x.s (.cmd ⟨x.ctoLen, x.ctoIn.take i ++ (x.buf.take n).drop i ++ x.ctoIn.drop n⟩) >>= fun s =>
        InoIrq.run cfg ⟨{ x with s, ctoIn := x.ctoIn.take i ++ (x.buf.take n).drop i ++ x.ctoIn.drop n }, .idle⟩ ops) := by
  rw [InoIrq.run_append, copy_run cfg es x i n (by omega) hb (by omega), ok_bind]
  have : (x.buf.drop i).take es.length = (x.buf.take n).drop i := by
    rw [List.drop_take]; congr 1; omega
  simp only [InoIrq.run, InoIrq.step, InoIrq.cpu, hk, Nat.lt_irrefl, if_false, this]
  cases Xcp.step cfg e x.s (.cmd ⟨x.ctoLen, x.ctoIn.take i ++ (x.buf.take n).drop i ++ x.ctoIn.drop n⟩) <;> rfl

/-- A message, followed by steps of the program in the environments `es`. -/
structure Spec.Burst where
  m  : CanMsg
  es : List Env

/-- The history of these. -/
def Spec.bursts (bs : List Burst) : List IrqOp := bs.flatMap fun b => .irq b.m :: cpus b.es

/-- There are enough steps after the message to handle it: four, and one for each byte. -/
def Spec.Burst.Long (b : Burst) : Prop := b.m.data.length + 4 ≤ b.es.length

/-- The environment in which the message is executed. -/
def Spec.Burst.env (b : Burst) : Option Env := b.es[b.m.data.length + 3]?

/-- Without an interrupt in between, the steps of the program are one call of the main function. -/
theorem C108_atomic {cfg : Cfg} {x : Ino} {m : CanMsg} (hm : InoFits x m) (e1 e2 e3 e : Env) (es rest : List Env)
    (hl : es.length = m.data.length) :
    InoIrq.run cfg ⟨x, .idle⟩ (.irq m :: cpus (e1 :: e2 :: e3 :: (es ++ e :: rest))) =
      (Ino.run cfg x [.receive m, .main e]).map (⟨·, .idle⟩) := by
  have hr := receive_main (cfg := cfg) e hm
  have hrun : Ino.run cfg x [.receive m, .main e] = (x.receive m >>= Ino.main cfg e) := by
    simp only [Ino.run, Ino.step]
    cases x.receive m with
    | error f => rfl
    | ok y => simp only [ok_bind]; cases y.main cfg e <;> rfl
  rw [hrun, hr]
  have hrf := receive_fits hm
  obtain ⟨h1, h2, h3, h4, h5⟩ := hm
  have hne : m.data.length ≠ 0 := by simpa using h2
  have hbl : (storeAt x.buf 0 m.data).length = x.buf.length := storeAt_length (by omega)
  have hsplit : cpus (e1 :: e2 :: e3 :: (es ++ e :: rest)) = cpus (e1 :: e2 :: e3 :: []) ++ (cpus es ++ .cpu e :: cpus rest) := by
    simp [cpus]
  rw [InoIrq.run, InoIrq.step]
  simp only [hrf, ok_bind, pure, Except.pure]
  rw [hsplit, InoIrq.run_append, begin_run rfl hne (by simp only [hbl]; omega) h4 e1 e2 e3 [] (by simp), ok_bind,
    finish_run (by simp only [hbl]; omega) (by simpa using h4) es (by simp [hl]) e]
  have ec : ((storeAt x.buf 0 m.data).take m.data.length) = m.data := by simp [storeAt]
  simp only [List.length_nil, List.take_zero, List.nil_append, List.drop_zero, ec]
  cases hs : Xcp.step cfg e x.s (.cmd ⟨x.ctoLen, m.data ++ x.ctoIn.drop m.data.length⟩) with
  | error f => rfl
  | ok s' =>
    simp only [ok_bind]
    rw [idle_run cfg rest _ rfl]
    rfl

/-- An interrupt after the copy is the same as one after the command. -/
theorem C108_late {cfg : Cfg} {x : Ino} {m : CanMsg} (hm : InoFits x m) (n : Nat) (e : Env) (ops : List IrqOp) :
    InoIrq.run cfg ⟨x, .copying n n⟩ (.irq m :: .cpu e :: ops) = InoIrq.run cfg ⟨x, .copying n n⟩ (.cpu e :: .irq m :: ops) := by
  have h := receive_fits hm
  simp only [InoIrq.run, InoIrq.step, h, ok_bind, pure, Except.pure, InoIrq.cpu, Nat.lt_irrefl, if_false]
  cases Xcp.step cfg e x.s (.cmd ⟨x.ctoLen, x.ctoIn⟩) with
  | error f => rfl
  | ok s' =>
    have h' := receive_fits (x := { x with s := s' }) hm
    simp only [ok_bind, h']

/-- The calls of the main function the history amounts to. -/
def Spec.calls (bs : List Burst) : List InoOp :=
  bs.flatMap fun b => match b.env with
    | some e => [.receive b.m, .main e]
    | none => [.receive b.m]

/-- With enough steps after each message the program behaves as if it were not interrupted at all. -/
theorem C108_calls {cfg : Cfg} : ∀ (bs : List Burst) (x : Ino), (∀ b ∈ bs, b.Long ∧ InoFits x b.m) →
    InoIrq.run cfg ⟨x, .idle⟩ (bursts bs) = (Ino.run cfg x (calls bs)).map (⟨·, .idle⟩)
  | [], _, _ => rfl
  | b :: bs, x, h => by
    obtain ⟨hl, hf⟩ := h b List.mem_cons_self
    obtain ⟨m, es⟩ := b
    unfold Burst.Long at hl
    simp only [] at hl hf
    match es, hl with
    | e1 :: e2 :: e3 :: r, hl =>
      simp only [List.length_cons] at hl
      have hlt : m.data.length < r.length := by omega
      have hr : r = r.take m.data.length ++ r[m.data.length] :: r.drop (m.data.length + 1) := by
        rw [← List.drop_eq_getElem_cons hlt, List.take_append_drop]
      have henv : Burst.env ⟨m, e1 :: e2 :: e3 :: r⟩ = some r[m.data.length] := by
        simp only [Burst.env, List.getElem?_cons_succ]
        exact List.getElem?_eq_getElem hlt
      have hat := C108_atomic (cfg := cfg) hf e1 e2 e3 r[m.data.length] (r.take m.data.length) (r.drop (m.data.length + 1)) (by simp; omega)
      rw [← hr] at hat
      have hcalls : calls (⟨m, e1 :: e2 :: e3 :: r⟩ :: bs) = [.receive m, .main r[m.data.length]] ++ calls bs := by
        simp [calls, henv]
      have happ : ∀ (a b : List InoOp) (y : Ino), y.run cfg (a ++ b) = (y.run cfg a >>= fun z => z.run cfg b) := by
        intro a b
        induction a with
        | nil => intro y; rfl
        | cons o a ih =>
          intro y
          simp only [List.cons_append, Ino.run]
          cases y.step cfg o with
          | error f => rfl
          | ok z => exact ih z
      have hb : bursts (⟨m, e1 :: e2 :: e3 :: r⟩ :: bs) = (.irq m :: cpus (e1 :: e2 :: e3 :: r)) ++ bursts bs := by simp [bursts]
      rw [hb, InoIrq.run_append, hat, hcalls, happ]
      have hrm := receive_main (cfg := cfg) r[m.data.length] hf
      cases hx : x.run cfg [.receive m, .main r[m.data.length]] with
      | error f => rfl
      | ok y =>
        have hrun : Ino.run cfg x [.receive m, .main r[m.data.length]] = (x.receive m >>= Ino.main cfg r[m.data.length]) := by
          simp only [Ino.run, Ino.step]
          cases x.receive m with
          | error f => rfl
          | ok y => simp only [ok_bind]; cases y.main cfg r[m.data.length] <;> rfl
        rw [hrun, hrm] at hx
        have hy : y.ctoIn.length = x.ctoIn.length ∧ y.buf.length = x.buf.length := by
          obtain ⟨h1, h2, h3, h4, h5⟩ := hf
          cases hs : Xcp.step cfg r[m.data.length] x.s (.cmd ⟨x.ctoLen, m.data ++ x.ctoIn.drop m.data.length⟩) with
          | error f => simp [hs, error_bind] at hx
          | ok s' =>
            simp only [hs, ok_bind, Except.ok.injEq] at hx
            subst hx
            refine ⟨by simp; omega, storeAt_length (by omega)⟩
        have ih := C108_calls (cfg := cfg) bs y (by
          intro b hb
          obtain ⟨h1, h2⟩ := h b (List.mem_cons_of_mem _ hb)
          refine ⟨h1, ?_⟩
          unfold InoFits at h2 ⊢
          rw [hy.1, hy.2]
          exact h2)
        exact ih

/-- C108, partial: if each message of `n` bytes is followed by at least `n + 4` steps of the program, the slave executes
exactly the messages, in order, each one intact. -/
theorem C108_spaced_partial {cfg : Cfg} (bs : List Burst) (x : Ino) (hx : x.flag = false) (h : ∀ b ∈ bs, b.Long ∧ InoFits x b.m) :
    ∃ (es : List Env) (old : List (List UInt8)), es.map some = bs.map Burst.env ∧ old.length = bs.length ∧
      (InoIrq.run cfg ⟨x, .idle⟩ (bursts bs)).map (fun y => y.ino.s) =
        run cfg x.s (List.zipWith (fun (b : Burst × Env) r => (b.2, .cmd ⟨x.ctoLen, b.1.m.data ++ r⟩)) (bs.zip es) old) := by
  have hes : ∃ es : List Env, es.map some = bs.map Burst.env ∧ Polled (calls bs) ∧
      polledMsgs (calls bs) = (bs.zip es).map (fun b => (b.2, b.1.m)) := by
    clear hx
    induction bs with
    | nil => exact ⟨[], rfl, trivial, rfl⟩
    | cons b bs ih =>
      obtain ⟨es, h1, h2, h3⟩ := ih (fun b hb => h b (List.mem_cons_of_mem _ hb))
      have hl := (h b List.mem_cons_self).1
      unfold Burst.Long at hl
      obtain ⟨e, he⟩ : ∃ e, b.env = some e := ⟨b.es[b.m.data.length + 3], List.getElem?_eq_getElem (by omega)⟩
      have hc : calls (b :: bs) = .receive b.m :: .main e :: calls bs := by simp [calls, he]
      refine ⟨e :: es, by simp [h1, he], ?_, ?_⟩
      · rw [hc]; simpa only [Polled] using h2
      · rw [hc]; simp only [polledMsgs, h3, List.zip_cons_cons, List.map_cons]
  obtain ⟨es, h1, h2, h3⟩ := hes
  obtain ⟨old, h4, h5⟩ := C66_polled_partial (cfg := cfg) (calls bs) x hx h2 (by
    intro k hk
    rw [h3] at hk
    obtain ⟨b, hb, rfl⟩ := List.mem_map.mp hk
    exact (h b.1 (List.of_mem_zip hb).1).2)
  have hlen : es.length = bs.length := by simpa using congrArg List.length h1
  refine ⟨es, old, h1, by rw [h4, h3]; simp [hlen], ?_⟩
  rw [C108_calls bs x h]
  have hmap : ((Ino.run cfg x (calls bs)).map (fun y => (⟨y, .idle⟩ : InoIrq))).map (fun y => y.ino.s) = (Ino.run cfg x (calls bs)).map Ino.s := by
    cases Ino.run cfg x (calls bs) <;> rfl
  rw [hmap, h5, h3, List.zipWith_map_left]

/-- The first message, and then the second over the beginning of it: what `XcpTl_Buffer` begins with. -/
def Spec.overlaid (m m' : CanMsg) : List UInt8 := m'.data ++ m.data.drop m'.data.length

/-- The first `k` bytes of one message, and the rest of what `XcpTl_Buffer` begins with after the other. -/
def Spec.torn (k : Nat) (m m' : CanMsg) : List UInt8 := m.data.take k ++ ((overlaid m m').take m.data.length).drop k

/-- A message that arrives when `k` bytes of the one before it are copied: the slave executes a packet made of the
first `k` bytes of the one and the rest of the other, and then the second message (here followed by enough
steps). -/
theorem C108_fails_torn {cfg : Cfg} {x : Ino} {m m' : CanMsg} (hm : InoFits x m) (hm' : InoFits x m') (e1 e2 e3 e : Env) (es es' : List Env)
    (hl : es.length + es'.length = m.data.length) (ops : List IrqOp) :
    InoIrq.run cfg ⟨x, .idle⟩ (.irq m :: cpus (e1 :: e2 :: e3 :: es) ++ .irq m' :: (cpus es' ++ .cpu e :: ops)) =
      (Xcp.step cfg e x.s (.cmd ⟨x.ctoLen, torn es.length m m' ++ x.ctoIn.drop m.data.length⟩) >>= fun s =>
        InoIrq.run cfg ⟨{ x with s, ctoIn := torn es.length m m' ++ x.ctoIn.drop m.data.length, buf := storeAt (storeAt x.buf 0 m.data) 0 m'.data, dlc := m'.data.length, flag := true }, .idle⟩ ops) := by
  have hrf := receive_fits hm
  obtain ⟨h1, h2, h3, h4, h5⟩ := hm
  obtain ⟨h1', h2', h3', h4', h5'⟩ := hm'
  have hne : m.data.length ≠ 0 := by simpa using h2
  have hbl : (storeAt x.buf 0 m.data).length = x.buf.length := storeAt_length (by omega)
  have hbl' : (storeAt (storeAt x.buf 0 m.data) 0 m'.data).length = x.buf.length := by rw [storeAt_length (by omega), hbl]
  have hcl : ((storeAt x.buf 0 m.data).take es.length ++ x.ctoIn.drop es.length).length = x.ctoIn.length := by
    simp [hbl]; omega
  have hrf' := receive_fits (x := { x with flag := false, buf := storeAt x.buf 0 m.data, dlc := m.data.length, ctoIn := (storeAt x.buf 0 m.data).take es.length ++ x.ctoIn.drop es.length }) (m := m')
    ⟨h1', h2', h3', by simp only [hcl]; exact h4', by simp only [hbl]; exact h5'⟩
  rw [List.cons_append, InoIrq.run, InoIrq.step]
  simp only [hrf, ok_bind, pure, Except.pure]
  rw [InoIrq.run_append, begin_run rfl hne (by simp only [hbl]; omega) h4 e1 e2 e3 es (by simp only []; omega), ok_bind]
  rw [InoIrq.run, InoIrq.step]
  simp only [hrf', ok_bind, pure, Except.pure]
  rw [finish_run (by simp only [hbl']; omega) (by simp only [hcl]; omega) es' hl e]
  have hk : es.length ≤ m.data.length := by omega
  have a1 : ((storeAt x.buf 0 m.data).take es.length ++ x.ctoIn.drop es.length).take es.length = m.data.take es.length := by
    rw [List.take_append_of_le_length (by simp [hbl]; omega), List.take_take, Nat.min_self]
    simp only [storeAt, List.take_zero, List.nil_append]
    rw [List.take_append_of_le_length hk]
  have a2 : ((storeAt x.buf 0 m.data).take es.length ++ x.ctoIn.drop es.length).drop m.data.length = x.ctoIn.drop m.data.length := by
    rw [List.drop_append, List.length_take, hbl, Nat.min_eq_left (by omega), List.drop_eq_nil_of_le (by simp [hbl]; omega),
      List.nil_append, List.drop_drop]
    congr 1; omega
  have a3 : (storeAt (storeAt x.buf 0 m.data) 0 m'.data).take m.data.length = (overlaid m m').take m.data.length := by
    simp only [storeAt, List.take_zero, List.nil_append, overlaid, Nat.zero_add, List.drop_append, ← List.append_assoc]
    rw [List.take_append_of_le_length]
    simp
    omega
  simp only [a1, a2, a3, torn]

/-- The message in `XcpTl_Buffer` is executed from the idle state, in `n + 4` steps. -/
theorem pending_run {cfg : Cfg} {x : Ino} {m : CanMsg} (hm : InoFits x m) (hf : x.flag = true) (hd : x.dlc = m.data.length)
    (hb : x.buf.take m.data.length = m.data) (e1 e2 e3 e : Env) (es : List Env) (hl : es.length = m.data.length) :
    InoIrq.run cfg ⟨x, .idle⟩ (cpus (e1 :: e2 :: e3 :: es) ++ [.cpu e]) =
      (Xcp.step cfg e x.s (.cmd ⟨x.ctoLen, m.data ++ x.ctoIn.drop m.data.length⟩)).map fun s =>
        ⟨{ x with s, ctoIn := m.data ++ x.ctoIn.drop m.data.length, flag := false }, .idle⟩ := by
  obtain ⟨h1, h2, h3, h4, h5⟩ := hm
  have hne : m.data.length ≠ 0 := by simpa using h2
  have hsplit : cpus (e1 :: e2 :: e3 :: es) ++ [.cpu e] = cpus (e1 :: e2 :: e3 :: []) ++ (cpus es ++ .cpu e :: []) := by
    simp [cpus]
  rw [hsplit, InoIrq.run_append, begin_run hf (by omega) (by omega) (by omega) e1 e2 e3 [] (by simp), ok_bind,
    finish_run (by simp only []; omega) (by simp only [List.length_nil, List.take_zero, List.nil_append, List.drop_zero]; omega) es (by simp [hl, hd]) e]
  simp only [List.length_nil, List.take_zero, List.nil_append, List.drop_zero, hd, hb]
  cases Xcp.step cfg e x.s (.cmd ⟨x.ctoLen, m.data ++ x.ctoIn.drop m.data.length⟩) <;> rfl

/-- A message that arrives between the test of the flag and its reset: the one before it is lost, and nothing tells. -/
theorem C108_fails_lost {cfg : Cfg} {x : Ino} {m m' : CanMsg} (hm : InoFits x m) (hm' : InoFits x m') (e1 e2 e3 e : Env) (es : List Env)
    (hl : es.length = m'.data.length) :
    (InoIrq.run cfg ⟨x, .idle⟩ (.irq m :: .cpu e1 :: .irq m' :: (cpus (e2 :: e3 :: es) ++ [.cpu e]))).map (fun y => (y.ino.s, y.ino.flag, y.pc)) =
      (Xcp.step cfg e x.s (.cmd ⟨x.ctoLen, m'.data ++ x.ctoIn.drop m'.data.length⟩)).map fun s => (s, false, .idle) := by
  have hrf := receive_fits hm
  have h5 := hm.2.2.2.2
  have hbl : (storeAt x.buf 0 m.data).length = x.buf.length := storeAt_length (by omega)
  have hm2 : InoFits { x with buf := storeAt x.buf 0 m.data, dlc := m.data.length, flag := true } m' := by
    unfold InoFits at hm' ⊢
    simp only [hbl]
    exact hm'
  have hrf' := receive_fits hm2
  have key := pending_run (cfg := cfg) (x := { x with buf := storeAt (storeAt x.buf 0 m.data) 0 m'.data, dlc := m'.data.length, flag := true })
    (m := m') (by
      unfold InoFits at hm' ⊢
      simp only [storeAt_length (buf := storeAt x.buf 0 m.data) (off := 0) (bs := m'.data) (by have := hm'.2.2.2.2; omega), hbl]
      exact hm') rfl rfl (by simp [storeAt]) e1 e2 e3 e es hl
  have hstart : InoIrq.run cfg ⟨x, .idle⟩ (.irq m :: .cpu e1 :: .irq m' :: (cpus (e2 :: e3 :: es) ++ [.cpu e])) =
      InoIrq.run cfg ⟨{ x with buf := storeAt (storeAt x.buf 0 m.data) 0 m'.data, dlc := m'.data.length, flag := true }, .idle⟩
        (cpus (e1 :: e2 :: e3 :: es) ++ [.cpu e]) := by
    simp only [cpus, List.map_cons, List.cons_append]
    rw [InoIrq.run, InoIrq.step]
    simp only [hrf, ok_bind, pure, Except.pure]
    rw [InoIrq.run, InoIrq.step, InoIrq.cpu]
    simp only [if_true, ok_bind]
    rw [InoIrq.run, InoIrq.step]
    simp only [hrf', ok_bind, pure, Except.pure]
    conv => rhs; rw [InoIrq.run, InoIrq.step, InoIrq.cpu]
    simp only [if_true, ok_bind]
  rw [hstart, key]
  cases Xcp.step cfg e x.s (.cmd ⟨x.ctoLen, m'.data ++ x.ctoIn.drop m'.data.length⟩) <;> rfl

/-- A message that arrives between the reset of the flag and the copy: the one before it is lost, and the new one is
executed twice. -/
theorem C108_fails_twice {cfg : Cfg} {x : Ino} {m m' : CanMsg} (hm : InoFits x m) (hm' : InoFits x m') (e1 e2 e3 e f1 f2 f3 f : Env)
    (es fs : List Env) (hl : es.length = m'.data.length) (hl' : fs.length = m'.data.length) :
    (InoIrq.run cfg ⟨x, .idle⟩ (.irq m :: .cpu e1 :: .cpu e2 :: .irq m' :: (cpus (e3 :: es) ++ .cpu e ::
        (cpus (f1 :: f2 :: f3 :: fs) ++ [.cpu f])))).map (fun y => y.ino.s) =
      run cfg x.s [(e, .cmd ⟨x.ctoLen, m'.data ++ x.ctoIn.drop m'.data.length⟩), (f, .cmd ⟨x.ctoLen, m'.data ++ x.ctoIn.drop m'.data.length⟩)] := by
  have hrf := receive_fits hm
  have h5 := hm.2.2.2.2
  have hbl : (storeAt x.buf 0 m.data).length = x.buf.length := storeAt_length (by omega)
  have hm2 : InoFits { x with buf := storeAt x.buf 0 m.data, dlc := m.data.length, flag := false } m' := by
    unfold InoFits at hm' ⊢
    simp only [hbl]
    exact hm'
  have hrf' := receive_fits hm2
  obtain ⟨h1', h2', h3', h4', h5'⟩ := hm'
  have hne : (m'.data.length == 0) = false := by simpa using h2'
  have hbl' : (storeAt (storeAt x.buf 0 m.data) 0 m'.data).length = x.buf.length := by rw [storeAt_length (by omega), hbl]
  simp only [cpus, List.map_cons, List.cons_append]
  rw [InoIrq.run, InoIrq.step]
  simp only [hrf, ok_bind, pure, Except.pure]
  rw [InoIrq.run, InoIrq.step, InoIrq.cpu]
  simp only [if_true, ok_bind]
  rw [InoIrq.run, InoIrq.step, InoIrq.cpu]
  simp only [ok_bind]
  rw [InoIrq.run, InoIrq.step]
  simp only [hrf', ok_bind, pure, Except.pure]
  rw [InoIrq.run, InoIrq.step, InoIrq.cpu]
  simp only [hne, Bool.and_false, Bool.false_eq_true, if_false, ok_bind]
  have hfin := finish_run (cfg := cfg) (x := { x with buf := storeAt (storeAt x.buf 0 m.data) 0 m'.data, dlc := m'.data.length, flag := true })
    (i := 0) (n := m'.data.length) (by simp only [hbl']; omega) h4' es (by omega) e (cpus (f1 :: f2 :: f3 :: fs) ++ [.cpu f])
  simp only [cpus, List.map_cons, List.cons_append] at hfin
  rw [hfin]
  have hb : (storeAt (storeAt x.buf 0 m.data) 0 m'.data).take m'.data.length = m'.data := by simp [storeAt]
  simp only [List.take_zero, List.nil_append, List.drop_zero, hb]
  simp only [run]
  cases hs : Xcp.step cfg e x.s (.cmd ⟨x.ctoLen, m'.data ++ x.ctoIn.drop m'.data.length⟩) with
  | error f => rfl
  | ok s' =>
    simp only [ok_bind]
    have hp := pending_run (cfg := cfg) (x := { x with s := s', ctoIn := m'.data ++ x.ctoIn.drop m'.data.length, buf := storeAt (storeAt x.buf 0 m.data) 0 m'.data, dlc := m'.data.length, flag := true })
      (m := m') ⟨h1', h2', h3', by simp, by simp only [hbl']; exact h5'⟩ rfl rfl hb f1 f2 f3 f fs hl'
    simp only [cpus, List.map_cons, List.cons_append] at hp
    rw [hp]
    have hd : (m'.data ++ x.ctoIn.drop m'.data.length).drop m'.data.length = x.ctoIn.drop m'.data.length := by simp
    simp only [hd]
    cases Xcp.step cfg f s' (.cmd ⟨x.ctoLen, m'.data ++ x.ctoIn.drop m'.data.length⟩) <;> rfl

/-- CONNECT and then SET_MTA to 0x11223344 and SET_MTA to 0x55667788, each handled in time: both are executed. The second
arrives when six bytes of the first are copied: the address 0x11227788 is set, which nobody asked for, and the
program goes on to execute the second. -/
example :
    let es := fun n => List.replicate n Ex.env
    let start : List IrqOp := .irq ⟨0x300, false, false, [0xFF, 0]⟩ :: cpus (es 6)
    let a : CanMsg := ⟨0x300, false, false, [0xF6, 0, 0, 0, 0x11, 0x22, 0x33, 0x44]⟩
    let b : CanMsg := ⟨0x300, false, false, [0xF6, 0, 0, 0, 0x55, 0x66, 0x77, 0x88]⟩
    let cfg := { Ex.can with motorola := true }
    let obs := fun ops => (InoIrq.run cfg ⟨Ino.init cfg Ex.mem, .idle⟩ ops).toOption.map fun y => (y.ino.s.mta.addr, y.ino.flag, y.pc)
    obs (start ++ .irq a :: cpus (es 12)) = some (0x11223344, false, .idle) ∧
    obs (start ++ .irq a :: cpus (es 12) ++ .irq b :: cpus (es 12)) = some (0x55667788, false, .idle) ∧
    obs (start ++ .irq a :: cpus (es 9) ++ .irq b :: cpus (es 3)) = some (0x11227788, true, .idle) := by
  refine ⟨?_, ?_, ?_⟩ <;> decide +kernel

/-- A message longer than the command buffer (but not than `XcpTl_Buffer`) is copied beyond the end of the command buffer: the program gets to
the first byte behind it. -/
theorem C108_fails_long {cfg : Cfg} {x : Ino} {m : CanMsg} (hr : m.rtr = false) (hb : m.data.length ≤ x.buf.length)
    (hd : m.data.length < 256) (h0 : m.data ≠ []) (hl : x.ctoIn.length < m.data.length) (e1 e2 e3 e : Env) (es : List Env)
    (hes : es.length = x.ctoIn.length) (ops : List IrqOp) :
    InoIrq.run cfg ⟨x, .idle⟩ (.irq m :: (cpus (e1 :: e2 :: e3 :: es) ++ .cpu e :: ops)) = .error .bufOob := by
  have hrec : x.receive m = .ok { x with buf := storeAt x.buf 0 m.data, dlc := m.data.length, flag := true } := by
    unfold Ino.receive
    rw [if_neg (by simp [hr]), if_neg (by omega), Nat.mod_eq_of_lt hd]
  have hd0 : (m.data.length == 0) = false := by simpa using h0
  have hbl : (storeAt x.buf 0 m.data).length = x.buf.length := by simp [storeAt]; omega
  have hstart : InoIrq.step cfg ⟨x, .idle⟩ (.irq m) = .ok ⟨{ x with buf := storeAt x.buf 0 m.data, dlc := m.data.length, flag := true }, .idle⟩ := by
    simp only [InoIrq.step, hrec, ok_bind]; rfl
  rw [InoIrq.run, hstart, ok_bind, InoIrq.run_append]
  simp only [cpus, List.map_cons, InoIrq.run, InoIrq.step, InoIrq.cpu, if_true, ok_bind, hd0, Bool.and_false, Bool.false_eq_true, if_false]
  have hc := copy_run cfg es { x with buf := storeAt x.buf 0 m.data, dlc := m.data.length, flag := false } 0 m.data.length (by omega)
    (by simp only [hbl]; exact hb) (by simp only []; omega)
  simp only [cpus] at hc
  rw [hc]
  simp only [ok_bind, Nat.zero_add]
  rw [if_pos (by omega), List.getElem?_eq_getElem (by simp only [hbl]; omega)]
  simp only []
  rw [if_pos (by simp only [List.take_zero, List.nil_append, List.drop_zero, List.length_append, List.length_take, List.length_drop, hbl]; omega)]
  rfl

/-- Twelve bytes (CAN FD) with a command buffer of 8. -/
example : (Ino.init Ex.can Ex.mem).ctoIn.length = 8 ∧
    (InoIrq.run Ex.can ⟨Ino.init Ex.can Ex.mem, .idle⟩ (.irq ⟨0x300, false, false, List.replicate 12 0⟩ :: cpus (List.replicate 11 Ex.env))).toOption.isSome = true ∧
    (InoIrq.run Ex.can ⟨Ino.init Ex.can Ex.mem, .idle⟩ (.irq ⟨0x300, false, false, List.replicate 12 0⟩ :: cpus (List.replicate 12 Ex.env))).toOption.isSome = false := by
  decide +kernel

end Xcp
