import Verif.Props.C57_Received
import Verif.Props.C08_Unknown
import Verif.Props.C47_Serial
import Verif.Props.C63_Can
import Verif.Props.C85_Udp
import Verif.Props.C86_Live
import Verif.Props.C93_WindowsSessions
/-
C94: the transport layers are transparent: what happens is what happens when each packet is handed to the slave alone in its
buffer.

Proved for complete packets on all transports.  False for packets that are too short: the rest is taken from earlier packets.
-/
set_option autoImplicit false
namespace Xcp
open Spec

/-- The packet alone in its buffer. -/
def Spec.alone (p : List UInt8) : Pdu := ⟨p.length, p⟩

/-- The packet has all bytes that its command needs, and fits. -/
def Spec.Whole (cfg : Cfg) (p : List UInt8) : Prop := Complete cfg (alone p) ∧ p.length ≤ cfg.maxCto

/-- Whatever remains of earlier packets behind it, a whole packet does what it does alone. -/
theorem alone_step {cfg : Cfg} (hc : cfg.Ok) {env : Env} (hk : KeyOnly env) {p : List UInt8} (hp : Whole cfg p) (s : St) {q : Pdu}
    (hl : q.len = p.length) (hq : q.len ≤ q.buf.length) (hr : received q = p) :
    step cfg env s (.cmd q) = step cfg env s (.cmd (alone p)) := by
  refine (C57_complete_partial hc hk hp.1 hl hq ?_).symm
  rw [hr]
  simp [received, alone]

/-! ### What has been sent stays sent -/

/-- Frames are only added. -/
def Adds (s s' : St) : Prop := ∃ fs, s'.tx = s.tx ++ fs

theorem Adds.refl (s : St) : Adds s s := ⟨[], by simp⟩

theorem Adds.trans {a b c : St} (h : Adds a b) (h' : Adds b c) : Adds a c := by
  obtain ⟨fs, h⟩ := h
  obtain ⟨gs, h'⟩ := h'
  exact ⟨fs ++ gs, by rw [h', h, List.append_assoc]⟩

theorem Spec.Ctos.adds {s s' : St} (h : Ctos s s') : Adds s s' := by
  obtain ⟨fs, h, -⟩ := h
  exact ⟨fs, h⟩

theorem transmit_adds {cfg : Cfg} : ∀ (fuel : Nat) {s s' : St}, transmit cfg fuel s = .ok s' → Adds s s'
  | 0, s, s', h => by cases h; exact .refl _
  | fuel + 1, s, s', h => by
    rw [transmit] at h
    split at h
    · cases h; exact .refl _
    · cases hd : s.daq.queue.dequeue cfg with
      | error f => rw [hd] at h; cases h
      | ok r =>
        rw [hd] at h
        exact Adds.trans ⟨_, by rw [emit_tx]⟩ (transmit_adds fuel h)

theorem trigger_adds {cfg : Cfg} {env : Env} {s s' : St} {ev : Nat} (h : triggerEvent cfg env s ev = .ok s') : Adds s s' := by
  unfold triggerEvent at h
  split at h
  · cases h; exact .refl _
  · split at h
    · cases h; exact .refl _
    · cases h1 : getFirstPid cfg s.daq (s.daq.listForEvent ev) with
      | error f => simp only [h1] at h; cases h
      | ok r =>
        simp only [h1, ok_bind] at h
        split at h
        · cases h; exact .refl _
        · cases h2 : s.daq.ent cfg (s.daq.listForEvent ev) with
          | error f => rw [h2] at h; cases h
          | ok l =>
            simp only [h2, ok_bind] at h
            cases h3 : (List.range l.num).foldlM (sampleList cfg env s (s.daq.listForEvent ev)) (r.2, s.daq.queue) with
            | error f => rw [h3] at h; cases h
            | ok q =>
              simp only [h3, ok_bind] at h
              obtain ⟨fs, e⟩ := transmit_adds _ h
              exact ⟨fs, e⟩

theorem step_adds {cfg : Cfg} {env : Env} {s s' : St} {op : Op} (h : step cfg env s op = .ok s') : Adds s s' := by
  cases op with
  | cmd p => exact Ctos.adds (cmd_ctos env p s' h)
  | main => exact Ctos.adds (main_eff env s' h).ctos
  | trigger ev =>
    simp only [step] at h
    split at h
    · exact trigger_adds h
    · cases h; exact .refl _
  | eventPkt c d => exact Ctos.adds (special_eff s' h).ctos
  | servPkt c d => exact Ctos.adds (special_eff s' h).ctos
  | appWrite a b => cases h; exact .refl _
  | apiDisconnect =>
    cases h
    refine ⟨[], ?_⟩
    simp only [apiDisconnect, defaultResourceProtection]
    repeat' split
    all_goals simp

theorem run_adds {cfg : Cfg} : ∀ {h : List (Env × Op)} {s s' : St}, run cfg s h = .ok s' → Adds s s'
  | [], s, s', h => by cases h; exact .refl _
  | (env, op) :: es, s, s', h => by
    simp only [run] at h
    cases hs : step cfg env s op with
    | error f => rw [hs] at h; cases h
    | ok t => rw [hs] at h; exact (step_adds hs).trans (run_adds h)

/-! ### Windows -/

/-- What a tool and the program around the slave do: a packet (with its counter) is sent, something happens on the side of the slave. -/
inductive Spec.Deed where
  | packet (ctr : UInt16) (p : List UInt8)
  | app (op : Op)

/-- As it happens on Windows, with the tool at address `c`. -/
def Spec.Deed.event (c : Nat) : Deed → IocpEv
  | .packet ctr p => .recv c (framed ctr p)
  | .app op => .app op

/-- As it happens without transport layer. -/
def Spec.Deed.op : Deed → Op
  | .packet _ p => .cmd (alone p)
  | .app op => op

/-- Packets are whole, and the application does not pass packets to the slave itself. -/
def Spec.Deed.Fair (cfg : Cfg) : Deed → Prop
  | .packet _ p => Whole cfg p
  | .app op => ∀ p, op ≠ .cmd p

/-- The tool at `c` is the only one. -/
structure Lone (cfg : Cfg) (tcp : Bool) (c : Nat) (x : Iocp) : Prop where
  serving : Serving cfg tcp c x
  mine : x.xcpConnected = true → x.connectionAddr = c
  dest : x.currentAddr = c

theorem lone_app {cfg : Cfg} {tcp : Bool} {c : Nat} {x : Iocp} (h : Lone cfg tcp c x) {env : Env} {op : Op} {s : St}
    (hs : step cfg env x.s op = .ok s) :
    ∃ y, x.ev cfg env (.app op) = .ok y ∧ Lone cfg tcp c y ∧ y.s = s ∧ y.out = x.out ++ (s.tx.drop x.s.tx.length).map fun f => (c, f) := by
  have hd : x.dest = c := by
    unfold Iocp.dest
    cases tcp with
    | false => rw [h.serving.prot]; exact h.dest
    | true => rw [h.serving.prot]; exact (h.serving.sock rfl).1
  refine ⟨_, by simp only [Iocp.ev, hs, ok_bind]; rfl, ?_⟩
  split
  · exact ⟨⟨⟨h.serving.prot, h.serving.pend, h.serving.sock, h.serving.buf⟩, nofun, h.dest⟩, rfl, by simp only [Iocp.acceptor, Iocp.connection, Iocp.took, hd]⟩
  · exact ⟨⟨⟨h.serving.prot, h.serving.pend, h.serving.sock, h.serving.buf⟩, h.mine, h.dest⟩, rfl, by simp only [Iocp.acceptor, Iocp.connection, Iocp.took, hd]⟩

theorem winNext_mine {cfg : Cfg} {env : Env} {c : Nat} {x : Iocp} (bs : List UInt8) (s : St)
    (hx : x.xcpConnected = true → x.connectionAddr = c) :
    ((winNext cfg env c x bs s).xcpConnected = true → (winNext cfg env c x bs s).connectionAddr = c) ∧
      (winNext cfg env c x bs s).currentAddr = c := by
  have hcur : ((x.filled c bs).took s).currentAddr = c := rfl
  have hr : ∀ y : Iocp, y.triggerRecv.acceptor.currentAddr = y.currentAddr := by
    intro y
    unfold Iocp.triggerRecv
    repeat' split
    all_goals rfl
  unfold winNext
  rw [(rearm_keeps _).1, (rearm_keeps _).2, hr]
  rcases connectionCall cfg env x.s (winPdu cfg x.buf bs) with _ | _ | _
  · exact ⟨hx, hcur⟩
  · exact ⟨nofun, hcur⟩
  · exact ⟨fun _ => hcur, hcur⟩

theorem lone_packet {cfg : Cfg} (hc : cfg.Ok) (hl : cfg.lenSize = 2) (hn : cfg.ctrSize = 2) {tcp : Bool} {c : Nat} {x : Iocp}
    (hS : Serving cfg tcp c x) (hx : x.xcpConnected = true → x.connectionAddr = c) {env : Env} (hk : KeyOnly env) (ctr : UInt16)
    {p : List UInt8} (hp : Whole cfg p) :
    (x.ev cfg env (.recv c (framed ctr p)) = step cfg env x.s (.cmd (alone p)) >>= fun s => .ok (winNext cfg env c x (framed ctr p) s)) ∧
    ∀ s, Lone cfg tcp c (winNext cfg env c x (framed ctr p) s) ∧ (winNext cfg env c x (framed ctr p) s).s = s ∧
      (winNext cfg env c x (framed ctr p) s).out = x.out ++ (s.tx.drop x.s.tx.length).map fun f => (c, f) := by
  have h9 := hc.cto_hi
  have hle : p.length ≤ cfg.maxCto := hp.2
  have hcap : (framed ctr p).length ≤ commBufLen cfg := by rw [framed_length', commBufLen]; omega
  have hne : framed ctr p ≠ [] := by simp [framed]
  have hor : x.xcpConnected = false ∨ c = x.connectionAddr := by
    cases h : x.xcpConnected with
    | false => exact Or.inl rfl
    | true => exact Or.inr (hx h).symm
  have hw := winPdu_framed (cfg := cfg) hl hn ctr (p := p) (by omega) [] x.buf
  simp only [List.append_nil] at hw
  refine ⟨?_, fun s => ?_⟩
  · rw [serving_own hS env hne hcap hor, alone_step hc hk hp]
    · rw [hw]
    · rw [hw]; simp
    · rw [hw]; simp [received]
  · obtain ⟨g1, g2, -, g4⟩ := winNext_serving hS env hcap s
    obtain ⟨k1, k2⟩ := winNext_mine (env := env) (framed ctr p) s hx
    exact ⟨⟨g1, k1, k2⟩, g2, g4⟩

theorem lone_run {cfg : Cfg} (hc : cfg.Ok) (hl : cfg.lenSize = 2) (hn : cfg.ctrSize = 2) {tcp : Bool} {c : Nat} :
    ∀ (h : List (Env × Deed)) {x : Iocp}, Lone cfg tcp c x → (∀ d ∈ h, KeyOnly d.1 ∧ d.2.Fair cfg) →
    (x.run cfg (h.map fun d => (d.1, d.2.event c))).map (fun y => (y.s, y.out)) =
      (run cfg x.s (h.map fun d => (d.1, d.2.op))).map fun s => (s, x.out ++ (framesOf x.s s).map fun f => (c, f))
  | [], x, _, _ => by simp [Iocp.run, run, Except.map, framesOf]
  | (env, d) :: h, x, hL, hf => by
    have hf' : ∀ d ∈ h, KeyOnly d.1 ∧ d.2.Fair cfg := fun d hd => hf d (List.mem_cons_of_mem _ hd)
    have key : (∃ f, x.ev cfg env (d.event c) = .error f ∧ step cfg env x.s d.op = .error f) ∨
        ∃ y s, x.ev cfg env (d.event c) = .ok y ∧ step cfg env x.s d.op = .ok s ∧ Lone cfg tcp c y ∧ y.s = s ∧
          y.out = x.out ++ (framesOf x.s s).map fun f => (c, f) := by
      obtain ⟨hk, hd⟩ := hf (env, d) (List.mem_cons_self ..)
      cases d with
      | packet ctr p =>
        obtain ⟨h1, h2⟩ := lone_packet hc hl hn hL.serving hL.mine hk ctr hd
        simp only [Deed.event, Deed.op]
        rw [h1]
        cases step cfg env x.s (.cmd (alone p)) with
        | error f => exact Or.inl ⟨f, rfl, rfl⟩
        | ok s => exact Or.inr ⟨_, s, rfl, rfl, (h2 s).1, (h2 s).2.1, (h2 s).2.2⟩
      | app op =>
        simp only [Deed.event, Deed.op]
        cases hs : step cfg env x.s op with
        | error f => exact Or.inl ⟨f, by simp only [Iocp.ev, hs]; rfl, rfl⟩
        | ok s =>
          obtain ⟨y, h1, h2, h3, h4⟩ := lone_app hL hs
          exact Or.inr ⟨y, s, h1, rfl, h2, h3, h4⟩
    simp only [List.map_cons, Iocp.run, run]
    rcases key with ⟨f, h1, h2⟩ | ⟨y, s, h1, h2, h3, h4, h5⟩
    · rw [h1, h2]; rfl
    · rw [h1, h2]
      simp only [ok_bind]
      rw [lone_run hc hl hn h h3 hf', h4]
      cases hr : run cfg s (h.map fun d => (d.1, d.2.op)) with
      | error f => rfl
      | ok t =>
        simp only [Except.map, h5, Except.ok.injEq, Prod.mk.injEq, true_and]
        obtain ⟨fs, e1⟩ := step_adds h2
        obtain ⟨gs, e2⟩ := run_adds hr
        simp [framesOf, e1, e2]

/-- C94 on Windows, UDP and TCP: a tool that sends whole packets (one in each datagram or segment) and beginning with a packet; the
main function, events, writes of the application, packets sent by it and disconnecting in between.  The slave is in the state in
which it is without transport layer, and the tool gets everything it sends. -/
theorem C94_windows_partial {cfg : Cfg} (hc : cfg.Ok) (hl : cfg.lenSize = 2) (hn : cfg.ctrSize = 2) (tcp : Bool) (c : Nat) (mem : Mem)
    {env : Env} {ctr : UInt16} {p : List UInt8} {h : List (Env × Deed)} (hf : ∀ d ∈ (env, Deed.packet ctr p) :: h, KeyOnly d.1 ∧ d.2.Fair cfg) :
    ((Iocp.init cfg mem tcp).run cfg (opening tcp env c ++ ((env, Deed.packet ctr p) :: h).map fun d => (d.1, d.2.event c))).map (fun x => (x.s, x.out)) =
      (run cfg (St.init cfg mem) (((env, Deed.packet ctr p) :: h).map fun d => (d.1, d.2.op))).map fun s => (s, s.tx.map fun f => (c, f)) := by
  obtain ⟨x, h1, hS, hs, hx, ho⟩ := win_open cfg mem tcp env c (((env, Deed.packet ctr p) :: h).map fun d => (d.1, d.2.event c))
  rw [h1]
  obtain ⟨hk, hw⟩ := hf _ (List.mem_cons_self ..)
  obtain ⟨g1, g2⟩ := lone_packet hc hl hn hS (by rw [hx]; nofun) hk ctr hw
  simp only [List.map_cons, Iocp.run, run]
  rw [show (Deed.packet ctr p).event c = .recv c (framed ctr p) from rfl, show (Deed.packet ctr p).op = .cmd (alone p) from rfl, g1, hs]
  cases hs1 : step cfg env (St.init cfg mem) (.cmd (alone p)) with
  | error f => rfl
  | ok s =>
    simp only [ok_bind]
    obtain ⟨k1, k2, k3⟩ := g2 s
    have := lone_run hc hl hn h k1 (fun d hd => hf d (List.mem_cons_of_mem _ hd))
    rw [this, k2, k3, ho, hs]
    cases hr : run cfg s (h.map fun d => (d.1, d.2.op)) with
    | error f => rfl
    | ok t =>
      obtain ⟨gs, e2⟩ := run_adds hr
      simp [Except.map, framesOf, e2, St.init]

/-! ### Linux and serial line -/

/-- The packets of a history. -/
def Spec.packets : List (Env × Deed) → List (UInt16 × List UInt8)
  | [] => []
  | (_, .packet ctr p) :: h => (ctr, p) :: packets h
  | (_, .app _) :: h => packets h

/-- The history of the slave when the transport layer hands it these packets. -/
def Spec.carried : List (Env × Deed) → List Pdu → List (Env × Op)
  | [], _ => []
  | (env, .app op) :: h, qs => (env, op) :: carried h qs
  | (env, .packet _ _) :: h, q :: qs => (env, .cmd q) :: carried h qs
  | (_, .packet _ _) :: h, [] => carried h []

/-- These packets hold these contents. -/
def Holding : List Pdu → List (List UInt8) → Prop
  | [], [] => True
  | q :: qs, p :: ps => (q.len = p.length ∧ q.len ≤ q.buf.length ∧ received q = p) ∧ Holding qs ps
  | _, _ => False

theorem held_inBuffer : ∀ (ps : List (List UInt8)) (buf : List UInt8), Holding (inBuffer buf ps) ps
  | [], _ => trivial
  | p :: ps, buf => ⟨⟨rfl, by simp, by simp [received]⟩, held_inBuffer ps _⟩

theorem held_delivered : ∀ {qs : List Pdu} {ps : List (List UInt8)}, qs.map delivered = ps → qs.map Pdu.len = ps.map List.length → Holding qs ps
  | [], [], _, _ => trivial
  | [], _ :: _, h, _ => by simp at h
  | _ :: _, [], h, _ => by simp at h
  | q :: qs, p :: ps, h, h' => by
    simp only [List.map_cons, List.cons.injEq] at h h'
    refine ⟨⟨h'.1, ?_, h.1⟩, held_delivered h.2 h'.2⟩
    have := congrArg List.length h.1
    simp only [delivered, List.length_take] at this
    omega

theorem held_run {cfg : Cfg} (hc : cfg.Ok) : ∀ (h : List (Env × Deed)) (qs : List Pdu), Holding qs ((packets h).map Prod.snd) →
    (∀ d ∈ h, KeyOnly d.1 ∧ d.2.Fair cfg) → ∀ s, run cfg s (carried h qs) = run cfg s (h.map fun d => (d.1, d.2.op))
  | [], qs, _, _, s => by cases qs <;> rfl
  | (env, .app op) :: h, qs, hq, hf, s => by
    simp only [carried, List.map_cons, run, Deed.op]
    apply Except.bind_congr'
    intro t _
    exact held_run hc h qs hq (fun d hd => hf d (List.mem_cons_of_mem _ hd)) t
  | (env, .packet ctr p) :: h, [], hq, _, _ => hq.elim
  | (env, .packet ctr p) :: h, q :: qs, hq, hf, s => by
    obtain ⟨⟨h1, h2, h3⟩, h4⟩ := hq
    obtain ⟨hk, hw⟩ := hf (env, .packet ctr p) (List.mem_cons_self ..)
    have e : (Deed.packet ctr p).op = .cmd (alone p) := rfl
    simp only [carried, List.map_cons, run, e]
    rw [alone_step hc hk hw s h1 h2 h3]
    apply Except.bind_congr'
    intro t _
    exact held_run hc h qs h4 (fun d hd => hf d (List.mem_cons_of_mem _ hd)) t

theorem fair_packets {cfg : Cfg} : ∀ {h : List (Env × Deed)}, (∀ d ∈ h, KeyOnly d.1 ∧ d.2.Fair cfg) → ∀ p ∈ packets h, Whole cfg p.2
  | [], _, _, hp => by cases hp
  | (_, .app _) :: h, hf, p, hp => fair_packets (fun d hd => hf d (List.mem_cons_of_mem _ hd)) p hp
  | (env, .packet ctr q) :: h, hf, p, hp => by
    rcases List.mem_cons.mp hp with rfl | hp
    · exact (hf (env, .packet ctr q) (List.mem_cons_self ..)).2
    · exact fair_packets (fun d hd => hf d (List.mem_cons_of_mem _ hd)) p hp

/-- C94 on the serial line: the receiver hands the packets to the slave, and whatever happens between them, it happens as without
transport layer. -/
theorem C94_serial_partial {cfg : Cfg} (hc : cfg.Ok) (hl : cfg.lenSize = 2) (hn : cfg.ctrSize = 2) {h : List (Env × Deed)} (hf : ∀ d ∈ h, KeyOnly d.1 ∧ d.2.Fair cfg)
    {ts : List (UInt32 × UInt8)} (ht : ts.map Prod.snd = stream (packets h)) :
    ∃ r qs, (Rcv.init (commBufLen cfg)).feedAll ts = .ok (r, qs) ∧ qs.length = (packets h).length ∧
      ∀ s, run cfg s (carried h qs) = run cfg s (h.map fun d => (d.1, d.2.op)) := by
  have h9 := hc.cto_hi
  obtain ⟨r, qs, g1, g2, g3⟩ := C47_packets_partial (buflen := commBufLen cfg) (packets h) ts
    (by
      intro cp hcp
      have := (fair_packets hf cp hcp).2
      simp only [commBufLen]
      omega) ht
  refine ⟨r, qs, g1, by simpa using congrArg List.length g3, held_run hc h qs (held_delivered g2 ?_) hf⟩
  rw [g3, List.map_map]
  rfl

/-- What happens around the packets of a client on Linux. -/
def Spec.woven (w : World) : Nat → List (UInt16 × List UInt8) → List (Env × Deed)
  | _, [] => []
  | n, p :: ps => (w.apps n).map (fun o => (o.1, .app o.2)) ++ (w.env n, .packet p.1 p.2) :: woven w (n + 1) ps

theorem woven_op (w : World) (n : Nat) (p : UInt16 × List UInt8) (ps : List (UInt16 × List UInt8)) :
    (woven w n (p :: ps)).map (fun d => (d.1, d.2.op)) =
      w.apps n ++ (w.env n, .cmd (alone p.2)) :: (woven w (n + 1) ps).map fun d => (d.1, d.2.op) := by
  simp [woven, Function.comp_def, Deed.op]

theorem framesOf_trans {s t u : St} (h : Adds s t) (h' : Adds t u) : framesOf s u = framesOf s t ++ framesOf t u := by
  obtain ⟨fs, h⟩ := h
  obtain ⟨gs, h'⟩ := h'
  simp [framesOf, h, h']

theorem toSender_alone {cfg : Cfg} (hc : cfg.Ok) {w : World} (hk : ∀ n, KeyOnly (w.env n)) {c : Nat} :
    ∀ (ps : List (UInt16 × List UInt8)) (qs : List Pdu) (n : Nat) (s : St), Holding qs (ps.map Prod.snd) → (∀ p ∈ ps, Whole cfg p.2) →
    toSender cfg w n s (qs.map fun q => (c, q)) =
      (run cfg s ((woven w n ps).map fun d => (d.1, d.2.op))).map fun u => (u, (framesOf s u).map fun f => (.socket c, f))
  | [], [], n, s, _, _ => by simp [toSender, woven, run, Except.map, framesOf]
  | [], _ :: _, _, _, h, _ => h.elim
  | _ :: _, [], _, _, h, _ => h.elim
  | p :: ps, q :: qs, n, s, ⟨⟨h1, h2, h3⟩, h4⟩, hw => by
    rw [woven_op, run_append]
    simp only [List.map_cons, toSender]
    cases hr : run cfg s (w.apps n) with
    | error f => rfl
    | ok t =>
      simp only [ok_bind, run]
      rw [alone_step hc (hk n) (hw p (List.mem_cons_self ..)) t h1 h2 h3]
      cases hs : step cfg (w.env n) t (.cmd (alone p.2)) with
      | error f => rfl
      | ok u =>
        simp only [ok_bind]
        rw [toSender_alone hc hk ps qs (n + 1) u h4 (fun p hp => hw p (List.mem_cons_of_mem _ hp))]
        cases hv : run cfg u ((woven w (n + 1) ps).map fun d => (d.1, d.2.op)) with
        | error f => rfl
        | ok v =>
          simp only [Except.map, ok_bind, pure, Except.pure, Except.ok.injEq, Prod.mk.injEq, true_and]
          rw [framesOf_trans ((run_adds hr).trans (step_adds hs)) (run_adds hv), framesOf_trans (run_adds hr) (step_adds hs)]
          simp

/-- C94 on Linux with TCP: one client that splits no header. -/
theorem C94_tcp_partial {cfg : Cfg} (hc : cfg.Ok) (hl : cfg.lenSize + cfg.ctrSize ≤ 4) {w : World} (hk : ∀ n, KeyOnly (w.env n)) (mem : Mem)
    {junk : List UInt8} (hj : junk.length = 8) {ps : List (UInt16 × List UInt8)} (hw : ∀ p ∈ ps, Whole cfg p.2) {segs : List (List UInt8)}
    (hseg : Segments segs (stream ps)) (hh : HeadersIntact ps segs) :
    ((Link.init cfg mem true junk).serve cfg w [segs.map .data]).map (fun y => (y.s, y.out)) =
      (run cfg (St.init cfg mem) ((woven w 0 ps).map fun d => (d.1, d.2.op))).map fun s => (s, s.tx.map fun f => (.socket 1, f)) := by
  have hne : ∀ p ∈ ps, p.2 ≠ [] := by
    intro p hp h
    have := (hw p hp).1.1
    simp [alone, h] at this
  have := C84_clients_partial hc.cto_hi hl w mem hj [⟨w.env 0, ps, segs⟩] (by
    intro c h
    rw [List.mem_singleton.mp h]
    refine ⟨fun cp hcp => ⟨hne cp hcp, ?_⟩, hseg, hh⟩
    have := (hw cp hcp).2
    omega)
  simp only [List.map_cons, List.map_nil, List.flatMap_cons, List.flatMap_nil, List.append_nil] at this
  rw [this]
  have hz : ∀ (ps : List (UInt16 × List UInt8)) (qs : List Pdu), Holding qs (ps.map Prod.snd) →
      (ps.map fun _ => 1).zip qs = qs.map fun q => (1, q) := by
    intro ps
    induction ps with
    | nil => intro qs h; cases qs <;> first | rfl | exact h.elim
    | cons p ps ih => intro qs h; cases qs with
      | nil => exact h.elim
      | cons q qs => simp [ih qs h.2]
  have hheld := held_inBuffer (ps.map Prod.snd) (List.replicate (cfg.maxCto + cfg.lenSize + cfg.ctrSize) 0)
  have hsn : senders 0 [(⟨w.env 0, ps, segs⟩ : Client)] = ps.map fun _ => 1 := by simp [senders]
  rw [hsn, hz ps _ hheld, toSender_alone hc hk ps _ 0 _ hheld hw]
  cases run cfg (St.init cfg mem) ((woven w 0 ps).map fun d => (d.1, d.2.op)) with
  | error f => rfl
  | ok s => simp [Except.map, framesOf, St.init]

theorem toMaster_alone {cfg : Cfg} (hc : cfg.Ok) {w : World} (hk : ∀ n, KeyOnly (w.env n)) {a : List UInt8} :
    ∀ (ps : List (UInt16 × List UInt8)) (qs : List Pdu) (n : Nat) (s : St), Holding qs (ps.map Prod.snd) → (∀ p ∈ ps, Whole cfg p.2) →
    toMaster cfg w n s a (qs.map fun q => (a, q)) =
      (run cfg s ((woven w n ps).map fun d => (d.1, d.2.op))).map fun u => (u, (framesOf s u).map fun f => (.addr a, f))
  | [], [], n, s, _, _ => by simp [toMaster, woven, run, Except.map, framesOf]
  | [], _ :: _, _, _, h, _ => h.elim
  | _ :: _, [], _, _, h, _ => h.elim
  | p :: ps, q :: qs, n, s, ⟨⟨h1, h2, h3⟩, h4⟩, hw => by
    rw [woven_op, run_append]
    simp only [List.map_cons, toMaster, ite_self]
    cases hr : run cfg s (w.apps n) with
    | error f => rfl
    | ok t =>
      simp only [ok_bind, run]
      rw [alone_step hc (hk n) (hw p (List.mem_cons_self ..)) t h1 h2 h3]
      cases hs : step cfg (w.env n) t (.cmd (alone p.2)) with
      | error f => rfl
      | ok u =>
        simp only [ok_bind]
        rw [toMaster_alone hc hk ps qs (n + 1) u h4 (fun p hp => hw p (List.mem_cons_of_mem _ hp))]
        cases hv : run cfg u ((woven w (n + 1) ps).map fun d => (d.1, d.2.op)) with
        | error f => rfl
        | ok v =>
          simp only [Except.map, ok_bind, pure, Except.pure, Except.ok.injEq, Prod.mk.injEq, true_and]
          rw [framesOf_trans ((run_adds hr).trans (step_adds hs)) (run_adds hv), framesOf_trans (run_adds hr) (step_adds hs)]
          simp

/-- C94 on Linux with UDP: one client with an IPv4 address that sends header and data in two datagrams, and CONNECT first, before anything
else happens. -/
theorem C94_udp_partial {cfg : Cfg} (hc : cfg.Ok) (hl : cfg.lenSize + cfg.ctrSize ≤ 4) {w : World} (hk : ∀ n, KeyOnly (w.env n)) (h0 : w.apps 0 = [])
    (mem : Mem) {junk : List UInt8} (hj : junk.length = 8) (port : UInt16) (ip : UInt8 × UInt8 × UInt8 × UInt8) {ctr : UInt16} {mode : UInt8}
    {ps : List (UInt16 × List UInt8)} (hw : ∀ p ∈ (ctr, [0xFF, mode]) :: ps, Whole cfg p.2) :
    ((Link.init cfg mem false junk).hear cfg w
        (((ctr, [0xFF, mode]) :: ps).flatMap fun p => Split.dgrams ⟨v4 port ip, v4 port ip, p.1, p.2⟩)).map (fun y => (y.s, y.out)) =
      (run cfg (St.init cfg mem) ((woven w 0 ((ctr, [0xFF, mode]) :: ps)).map fun d => (d.1, d.2.op))).map
        fun s => (s, s.tx.map fun f => (.addr (storage (v4 port ip)), f)) := by
  have hne : ∀ p ∈ (ctr, [0xFF, mode]) :: ps, p.2 ≠ [] := by
    intro p hp h
    have := (hw p hp).1.1
    simp [alone, h] at this
  have := C85_udp_partial hc.cto_hi hl w mem hj (((ctr, [0xFF, mode]) :: ps).map fun p => (⟨v4 port ip, v4 port ip, p.1, p.2⟩ : Split)) (by
    intro q hq
    obtain ⟨p, hp, rfl⟩ := List.mem_map.mp hq
    refine ⟨hne p hp, ?_⟩
    have := (hw p hp).2
    show p.2.length ≤ _
    omega) (by
    intro q hq
    obtain ⟨p, hp, rfl⟩ := List.mem_map.mp hq
    exact ⟨⟨_, _, rfl⟩, _, _, rfl⟩)
  rw [List.flatMap_map] at this
  rw [this]
  have hz : ∀ (ps : List (UInt16 × List UInt8)) (qs : List Pdu), Holding qs (ps.map Prod.snd) →
      (ps.map fun _ => storage (v4 port ip)).zip qs = qs.map fun q => (storage (v4 port ip), q) := by
    intro ps
    induction ps with
    | nil => intro qs h; cases qs <;> first | rfl | exact h.elim
    | cons p ps ih => intro qs h; cases qs with
      | nil => exact h.elim
      | cons q qs => simp [ih qs h.2]
  rw [List.map_map, List.map_map]
  have hheld := held_inBuffer (((ctr, [0xFF, mode]) :: ps).map Prod.snd) (List.replicate (cfg.maxCto + cfg.lenSize + cfg.ctrSize) 0)
  have e1 : ((fun q : Split => storage q.sender) ∘ fun p : UInt16 × List UInt8 => (⟨v4 port ip, v4 port ip, p.1, p.2⟩ : Split)) =
    fun _ => storage (v4 port ip) := rfl
  have e2 : (Split.packet ∘ fun p : UInt16 × List UInt8 => (⟨v4 port ip, v4 port ip, p.1, p.2⟩ : Split)) = Prod.snd := rfl
  rw [e1, e2, hz _ _ hheld]
  -- the first packet makes the client the master
  simp only [List.map_cons, inBuffer] at hheld ⊢
  rw [toMaster, woven_op, run_append, h0]
  simp only [run, ok_bind]
  have hcond : (([0xFF, mode] : List UInt8) ++ (List.replicate (cfg.maxCto + cfg.lenSize + cfg.ctrSize) 0).drop ([0xFF, mode] : List UInt8).length).head? = some 0xFF ∧
      ¬ ((St.init cfg mem).connected = true ∧ (St.init cfg mem).busy = true) := ⟨rfl, by simp [St.init]⟩
  rw [alone_step hc (hk 0) (hw _ (List.mem_cons_self ..)) _ hheld.1.1 hheld.1.2.1 hheld.1.2.2]
  cases hs : step cfg (w.env 0) (St.init cfg mem) (.cmd (alone [0xFF, mode])) with
  | error f => rfl
  | ok u =>
    simp only [ok_bind, if_pos hcond]
    rw [toMaster_alone hc hk ps _ 1 u hheld.2 (fun p hp => hw p (List.mem_cons_of_mem _ hp))]
    cases hv : run cfg u ((woven w (0 + 1) ps).map fun d => (d.1, d.2.op)) with
    | error f => rfl
    | ok v =>
      simp only [Except.map, ok_bind, pure, Except.pure, Except.ok.injEq, Prod.mk.injEq, true_and]
      obtain ⟨fs, k1⟩ := step_adds hs
      obtain ⟨gs, k2⟩ := run_adds hv
      simp [framesOf, k1, k2, St.init]

/-- C94 on Linux with CAN: the messages addressed to the slave, whatever else is on the bus. -/
theorem C94_can_partial {cfg : Cfg} (hc : cfg.Ok) {inb bc : UInt32} (hi : inb.toNat < 2 ^ 11) (hb : bc.toNat < 2 ^ 11) : ∀ (ms : List (Env × CanMsg))
    (x : CanSys), (∀ m ∈ ms, MsgOk m.2 ∧ m.2.ext = false ∧ m.2.rtr = false) → cfg.maxCto ≤ x.buf.length →
    (∀ m ∈ ms, (Addressed inb m.2 ∨ Addressed bc m.2) → m.2.data ≠ [] → KeyOnly m.1 ∧ Whole cfg m.2.data) →
    (socketRun cfg inb bc x ms).map CanSys.s =
      run cfg x.s ((ms.filter fun m => decide ((Addressed inb m.2 ∨ Addressed bc m.2) ∧ m.2.data ≠ [])).map fun m => (m.1, .cmd (alone m.2.data)))
  | [], x, _, _, _ => rfl
  | m :: ms, x, hm, hl, hw => by
    obtain ⟨hok, he, hr⟩ := hm m List.mem_cons_self
    have hm' : ∀ m ∈ ms, MsgOk m.2 ∧ m.2.ext = false ∧ m.2.rtr = false := fun k hk => hm k (List.mem_cons_of_mem _ hk)
    have hw' : ∀ m ∈ ms, (Addressed inb m.2 ∨ Addressed bc m.2) → m.2.data ≠ [] → KeyOnly m.1 ∧ Whole cfg m.2.data :=
      fun k hk => hw k (List.mem_cons_of_mem _ hk)
    have hp := C63_socket_partial hi hb hok he hr
    unfold socketRun socketRx
    by_cases ha : (Addressed inb m.2 ∨ Addressed bc m.2) ∧ m.2.data ≠ []
    · rw [List.filter_cons_of_pos (by simpa using ha)]
      obtain ⟨hk, hwh⟩ := hw m List.mem_cons_self ha.1 ha.2
      have hd : ¬ m.2.data.length = 0 := by simpa using ha.2
      have hle : m.2.data.length ≤ cfg.maxCto := hwh.2
      rw [if_pos (hp.mpr ha.1), if_neg hd, if_neg (by omega)]
      have hlen : (storeAt x.buf 0 m.2.data).length = x.buf.length := by simp [storeAt]; omega
      simp only [List.map_cons, run]
      rw [alone_step hc hk hwh x.s rfl (by simp only [hlen]; omega) (by simp [received, storeAt])]
      cases hs : step cfg m.1 x.s (.cmd (alone m.2.data)) with
      | error f => rfl
      | ok s' =>
        simp only [ok_bind, pure_eq_ok]
        exact C94_can_partial hc hi hb ms ⟨s', storeAt x.buf 0 m.2.data⟩ hm' (by rw [hlen]; exact hl) hw'
    · rw [List.filter_cons_of_neg (by simpa using ha)]
      by_cases h1 : socketPass inb bc m.2 = true
      · have h0 : m.2.data = [] := Classical.not_not.mp fun h => ha ⟨hp.mp h1, h⟩
        rw [if_pos h1, if_pos (by simp [h0])]
        exact C94_can_partial hc hi hb ms x hm' hl hw'
      · rw [if_neg h1]
        exact C94_can_partial hc hi hb ms x hm' hl hw'

/-! ### Calibration and measurement over the network -/

theorem complete_append {cfg : Cfg} {p : List UInt8} (h : Complete cfg (alone p)) (b : List UInt8) : Complete cfg (alone (p ++ b)) := by
  obtain ⟨h1, h2, h3⟩ := h
  simp only [alone] at h1 h2 h3
  refine ⟨by simp [alone]; omega, by simp [alone], fun c hc hs => ?_⟩
  have hc' : code ⟨p.length, p⟩ = some (cmdCode c) := by
    simp only [code, alone] at hc ⊢
    rwa [List.getElem?_append_left (by omega)] at hc
  obtain ⟨h4, h5⟩ := h3 c hc' hs
  simp only [alone, List.length_append]
  refine ⟨?_, fun h => by have := h5 h; omega⟩
  by_cases hl : 2 ≤ p.length
  · rw [List.getElem?_append_left (by omega)]
    omega
  · have h6 : needed cfg c 255 = 1 := Classical.not_not.mp fun h => hl (h5 h)
    have : ∀ n, needed cfg c n = 1 := by
      intro n
      cases c <;> simp only [needed] at h6 ⊢ <;> omega
    rw [this]
    omega

theorem complete_of {cfg : Cfg} {p : List UInt8} {c : Cmd} {rest : List UInt8} (hp : p = cmdCode c :: rest) (hn : needed cfg c ((p[1]?.getD 0).toNat) ≤ p.length)
    (h2 : needed cfg c 255 ≠ 1 → 2 ≤ p.length) : Complete cfg (alone p) := by
  refine ⟨by rw [hp]; simp [alone], by simp [alone], fun c' hc _ => ?_⟩
  have : c' = c := by
    simp only [code, alone, hp, List.getElem?_cons_zero, Option.some.injEq] at hc
    exact (cmdCode_inj hc).symm
  rw [this]
  exact ⟨hn, h2⟩

theorem legal_complete {cfg : Cfg} (hp : Plain cfg) {r : Remote} {q : Req} (h : Legal cfg r q) : Complete cfg (alone q.bytes) := by
  have h8 := hp.ok.cto_lo
  have h9 := hp.ok.cto_hi
  cases q
  case other c =>
    refine ⟨by simp [alone, Req.bytes], by simp [alone], fun c' hc hs => ?_⟩
    simp only [code, alone, Req.bytes, List.getElem?_cons_zero, Option.some.injEq] at hc
    have : c' = c := (cmdCode_inj hc).symm
    simp only [Legal] at h
    rw [this, h] at hs
    cases hs
  case download data =>
    simp only [Legal] at h
    refine complete_of (c := .download) rfl ?_ (by simp [Req.bytes])
    simp only [needed, Req.bytes, List.cons_append, List.nil_append, List.getElem?_cons_succ, List.getElem?_cons_zero, Option.getD_some, List.length_cons]
    have : (UInt8.ofNat data.length).toNat = data.length := by simp; omega
    omega
  case downloadMax data =>
    simp only [Legal] at h
    refine complete_of (c := .downloadMax) rfl ?_ ?_
    · simp only [needed, Req.bytes, List.length_cons]; omega
    · simp only [needed, Req.bytes, List.length_cons]; omega
  case shortDownload ext addr data =>
    simp only [Legal] at h
    refine complete_of (c := .shortDownload) rfl ?_ (by simp [Req.bytes])
    simp only [needed, Req.bytes, List.cons_append, List.nil_append, List.getElem?_cons_succ, List.getElem?_cons_zero, Option.getD_some, List.length_cons,
      List.length_append, enc_four]
    have : (UInt8.ofNat data.length).toNat = data.length := by simp; omega
    simp only [Bool.false_eq_true, if_false, List.length_cons, List.length_nil]
    omega
  case connect mode => exact complete_of (c := .connect) rfl (by simp [needed, Req.bytes]) (by simp [Req.bytes])
  case getStatus => exact complete_of (c := .getStatus) rfl (by simp [needed, Req.bytes]) (by simp [needed])
  case synch => exact complete_of (c := .synch) rfl (by simp [needed, Req.bytes]) (by simp [needed])
  case getId f => exact complete_of (c := .getId) rfl (by simp [needed, Req.bytes]) (by simp [Req.bytes])
  case setMta e a => exact complete_of (c := .setMta) rfl (by simp [needed, Req.bytes, enc_four]) (by simp [Req.bytes])
  case upload n => exact complete_of (c := .upload) rfl (by simp [needed, Req.bytes]) (by simp [Req.bytes])
  case shortUpload n e a => exact complete_of (c := .shortUpload) rfl (by simp [needed, Req.bytes, enc_four]) (by simp [Req.bytes])
  case getCommModeInfo => exact complete_of (c := .getCommModeInfo) rfl (by simp [needed, Req.bytes]) (by simp [needed])
  case modifyBits s ma mx => exact complete_of (c := .modifyBits) rfl (by simp [needed, Req.bytes, enc]) (by simp [Req.bytes])
  case buildChecksum n => exact complete_of (c := .buildChecksum) rfl (by simp [needed, Req.bytes, enc_four]) (by simp [Req.bytes])

theorem setup_complete {cfg : Cfg} (p : Plan) : ∀ b ∈ p.setup false, Complete cfg (alone b) := by
  intro b hb
  simp only [Plan.setup, Plan.reserve, Plan.fill, Plan.assign, Plan.select, List.mem_append, List.mem_cons, List.mem_map, List.mem_flatMap,
    List.not_mem_nil, or_false] at hb
  rcases hb with ((((((rfl | rfl) | ⟨x, -, rfl⟩) | ⟨x, -, rfl⟩) | ⟨x, -, (rfl | ⟨e, -, rfl⟩)⟩) | ⟨x, -, rfl⟩) | ⟨x, -, rfl⟩) | rfl
  · exact complete_of (c := .freeDaq) rfl (by simp [needed]) (by simp [needed])
  · exact complete_of (c := .allocDaq) rfl (by simp [needed, enc]) (by simp)
  · exact complete_of (c := .allocOdt) rfl (by simp [needed, enc]) (by simp)
  · exact complete_of (c := .allocOdtEntry) rfl (by simp [needed, enc]) (by simp)
  · exact complete_of (c := .setDaqPtr) rfl (by simp [needed, enc]) (by simp)
  · exact complete_of (c := .writeDaq) rfl (by simp [needed, enc_four]) (by simp)
  · exact complete_of (c := .setDaqListMode) rfl (by simp [needed, enc]) (by simp)
  · exact complete_of (c := .startStopDaqList) rfl (by simp [needed, enc]) (by simp)
  · exact complete_of (c := .startStopSynch) rfl (by simp [needed]) (by simp)

/-- Every packet of a history is complete. -/
def Completed (cfg : Cfg) (h : List (Env × Op)) : Prop := ∀ env q, (env, .cmd q) ∈ h → Complete cfg (alone q.buf)

theorem Completed.append {cfg : Cfg} {a b : List (Env × Op)} (h : Completed cfg a) (h' : Completed cfg b) : Completed cfg (a ++ b) :=
  fun env q hq => (List.mem_append.mp hq).elim (h env q) (h' env q)

theorem completed_ops {cfg : Cfg} (hp : Plain cfg) {k : About} : ∀ (hs : List (Around × Happening)) {r : Remote}, AllLegal cfg k r (hs.map (·.2)) →
    Completed cfg (ops hs)
  | [], _, _ => fun _ _ h => by cases h
  | x :: hs, r, hl => by
    intro env q hq
    rcases List.mem_cons.mp hq with h | h
    · obtain ⟨a, x⟩ := x
      cases x with
      | request q' =>
        simp only [Happening.op, Prod.mk.injEq, Op.cmd.injEq] at h
        rw [h.2]
        exact complete_append (legal_complete hp (hl.1 q' rfl)) _
      | write a b => simp [Happening.op] at h
      | main => simp [Happening.op] at h
      | event ev => simp [Happening.op] at h
    · exact completed_ops hp hs hl.2 env q h

theorem completed_setup {cfg : Cfg} : ∀ {ps : List (Env × Pdu)} {bs : List (List UInt8)}, Begin ps bs → (∀ b ∈ bs, Complete cfg (alone b)) →
    Completed cfg (ps.map fun p => (p.1, .cmd p.2))
  | [], _, _, _ => fun _ _ h => by cases h
  | _ :: _, [], h, _ => h.elim
  | p :: ps, b :: bs, h, hb => by
    intro env q hq
    rcases List.mem_cons.mp hq with h' | h'
    · simp only [Prod.mk.injEq, Op.cmd.injEq] at h'
      obtain ⟨t, ht⟩ := h.1
      rw [h'.2, ← ht]
      exact complete_append (hb b (List.mem_cons_self ..)) t
    · exact completed_setup h.2 (fun b' hb' => hb b' (List.mem_cons_of_mem _ hb')) env q h'

theorem completed_turns {cfg : Cfg} (hp : Plain cfg) {k : About} : ∀ (xs : List Turn) {r : Remote}, AllFine cfg k r xs →
    Completed cfg (xs.flatMap Turn.ops)
  | [], _, _ => fun _ _ h => by cases h
  | x :: xs, r, ⟨h1, h2⟩ => by
    rw [List.flatMap_cons]
    refine Completed.append ?_ (completed_turns hp xs h2)
    refine (((completed_setup h1.setup (setup_complete _)).append (completed_ops hp _ h1.legal)).append ?_).append (completed_ops hp _ h1.after)
    intro env q hq
    rw [List.mem_singleton, Prod.mk.injEq, Op.cmd.injEq] at hq
    obtain ⟨t, ht⟩ := h1.stop
    rw [hq.2, ← ht]
    exact complete_append (complete_of (c := .startStopSynch) rfl (by simp [needed]) (by simp)) t

/-- The contents of the packet. -/
def Spec.Said.bytes : Said → List UInt8
  | .answer bs => bs
  | .sample bs => bs

theorem says_payloads {cfg : Cfg} (hm : cfg.maxDlc = false) : ∀ {fs : List Frame} {xs : List Said}, Says cfg fs xs → fs.map (payload cfg) = xs.map Said.bytes
  | [], [], _ => rfl
  | [], _ :: _, h => h.elim
  | _ :: _, [], h => h.elim
  | f :: fs, .answer bs :: xs, ⟨⟨_, h1, h2⟩, h⟩ => by
    simp only [hm, Bool.false_eq_true, if_false] at h2
    rw [List.map_cons, says_payloads hm h, List.map_cons]
    congr 1
    rw [Said.bytes, ← h1, ← h2, List.take_length]
  | f :: fs, .sample bs :: xs, ⟨⟨_, h1⟩, h⟩ => by
    rw [List.map_cons, says_payloads hm h, List.map_cons, h1]
    rfl

theorem completed_live {cfg : Cfg} (hp : Plain cfg) {k : About} {a : Around} {mode : UInt8} {hs : List (Around × Happening)} {xs : List Turn} {mem : Mem}
    (hleg : AllLegal cfg k ⟨mem, 0, 0, true⟩ (hs.map (·.2))) (hf : AllFine cfg k (Remote.final k ⟨mem, 0, 0, true⟩ (hs.map (·.2))) xs) :
    Completed cfg (ops ((a, .request (.connect mode)) :: hs) ++ xs.flatMap Turn.ops) := by
  refine (completed_ops hp (k := k) (r := ⟨mem, 0, 0, true⟩) _ ?_).append (completed_turns hp xs hf)
  refine ⟨?_, ?_⟩
  · intro q hq
    cases hq
    trivial
  · have : Remote.after k ⟨mem, 0, 0, true⟩ (.request (.connect mode)) = ⟨mem, 0, 0, true⟩ := by simp [Remote.after, Remote.next]
    rw [this]
    exact hleg

/-- C94 for sessions as in C86, on Windows with UDP or TCP: what the tool gets, byte for byte, are the answers of the remote memory and the
samples of its measurements, in numbered frames.  (For at most four packets with samples, see C83.) -/
theorem C94_live_partial {cfg : Cfg} (hp : Plain cfg) (ho : OffersDaq cfg) (hl : cfg.lenSize = 2) (hn : cfg.ctrSize = 2) (hm : cfg.maxDlc = false)
    {k : About} {a : Around} {mode : UInt8} {hs : List (Around × Happening)} {xs : List Turn}
    (hd : Describes k cfg (a.env :: hs.map (·.1.env) ++ xs.flatMap Turn.envs)) {mem : Mem}
    (hleg : AllLegal cfg k ⟨mem, 0, 0, true⟩ (hs.map (·.2))) (hf : AllFine cfg k (Remote.final k ⟨mem, 0, 0, true⟩ (hs.map (·.2))) xs) (hcnt : total xs ≤ 4)
    {h : List (Env × Deed)} (hh : h.map (fun d => (d.1, d.2.op)) = ops ((a, .request (.connect mode)) :: hs) ++ xs.flatMap Turn.ops)
    (hfit : ∀ d ∈ h, KeyOnly d.1 ∧ match d.2 with
      | .packet _ p => p.length ≤ cfg.maxCto
      | .app op => ∀ p, op ≠ .cmd p) (tcp : Bool) (c : Nat) :
    ∃ x, (Iocp.init cfg mem tcp).run cfg (opening tcp a.env c ++ h.map fun d => (d.1, d.2.event c)) = .ok x ∧
      x.out.map (fun f => (f.1, f.2.bytes)) =
        (numbered (((Remote.answers k ⟨mem, 0, 0, true⟩ (.request (.connect mode) :: hs.map (·.2))).map Said.answer ++
          rounds k (stampSize cfg) (Remote.final k ⟨mem, 0, 0, true⟩ (hs.map (·.2))) (xs.map Turn.round)).map Said.bytes)).map
            (fun f => (c, framed f.1 f.2)) ∧
      x.s.mem = ((xs.map Turn.round).foldl (fun r x => x.final k r) (Remote.final k ⟨mem, 0, 0, true⟩ (hs.map (·.2)))).mem := by
  have hcomp := completed_live hp (a := a) (mode := mode) hleg hf
  have hfair : ∀ d ∈ h, KeyOnly d.1 ∧ d.2.Fair cfg := by
    intro d hd'
    obtain ⟨h1, h2⟩ := hfit d hd'
    refine ⟨h1, ?_⟩
    have hmem : (d.1, d.2.op) ∈ ops ((a, .request (.connect mode)) :: hs) ++ xs.flatMap Turn.ops := by
      rw [← hh]
      exact List.mem_map.mpr ⟨d, hd', rfl⟩
    obtain ⟨env, d⟩ := d
    cases d with
    | packet ctr p => exact ⟨hcomp env (alone p) hmem, h2⟩
    | app op => exact h2
  obtain ⟨s, g1, g2, g3⟩ := C86_calibration_partial hp ho (mode := mode) hd hleg hf hcnt
  match h, hh, hfit, hfair with
  | [], hh, _, _ => simp [ops] at hh
  | (env, .app op) :: h, hh, hfit, _ =>
    simp only [List.map_cons, ops, List.cons_append, List.cons.injEq, Prod.mk.injEq] at hh
    exact absurd hh.1.2 ((hfit (env, .app op) (List.mem_cons_self ..)).2 _)
  | (env, .packet ctr p) :: h, hh, _, hfair =>
    have henv : env = a.env := by
      simp only [List.map_cons, ops, List.cons_append, List.cons.injEq, Prod.mk.injEq] at hh
      exact hh.1.1
    subst henv
    have hwin := C94_windows_partial hp.ok hl hn tcp c mem hfair
    rw [hh, g1] at hwin
    simp only [Except.map] at hwin
    split at hwin
    · cases hwin
    · next x hx =>
      simp only [Except.ok.injEq, Prod.mk.injEq] at hwin
      refine ⟨x, hx, ?_, by rw [hwin.1]; exact g3⟩
      have hw := wire_payloads hp.ok hl hn g1
      rw [says_payloads hm g2] at hw
      rw [hwin.2]
      have := congrArg (List.map fun b => (c, b)) hw
      simp only [List.map_map, Function.comp_def] at this ⊢
      exact this

theorem woven_mem {w : World} {p : UInt16 × List UInt8} : ∀ {ps : List (UInt16 × List UInt8)} {n : Nat}, p ∈ ps →
    ∃ env, (env, .cmd (alone p.2)) ∈ (woven w n ps).map fun d => (d.1, d.2.op)
  | q :: ps, n, h => by
    rw [woven_op]
    rcases List.mem_cons.mp h with rfl | h
    · exact ⟨_, List.mem_append_right _ (List.mem_cons_self ..)⟩
    · obtain ⟨env, h⟩ := woven_mem (n := n + 1) h
      exact ⟨env, List.mem_append_right _ (List.mem_cons_of_mem _ h)⟩

/-- The same on Linux with TCP, with a client that splits no header. -/
theorem C94_live_tcp_partial {cfg : Cfg} (hp : Plain cfg) (ho : OffersDaq cfg) (hl : cfg.lenSize = 2) (hn : cfg.ctrSize = 2) (hm : cfg.maxDlc = false)
    {k : About} {a : Around} {mode : UInt8} {hs : List (Around × Happening)} {xs : List Turn}
    (hd : Describes k cfg (a.env :: hs.map (·.1.env) ++ xs.flatMap Turn.envs)) {mem : Mem}
    (hleg : AllLegal cfg k ⟨mem, 0, 0, true⟩ (hs.map (·.2))) (hf : AllFine cfg k (Remote.final k ⟨mem, 0, 0, true⟩ (hs.map (·.2))) xs) (hcnt : total xs ≤ 4)
    {w : World} (hk : ∀ n, KeyOnly (w.env n)) {ps : List (UInt16 × List UInt8)} (hps : ∀ p ∈ ps, p.2.length ≤ cfg.maxCto)
    (hh : (woven w 0 ps).map (fun d => (d.1, d.2.op)) = ops ((a, .request (.connect mode)) :: hs) ++ xs.flatMap Turn.ops)
    {segs : List (List UInt8)} (hseg : Segments segs (stream ps)) (hi : HeadersIntact ps segs) {junk : List UInt8} (hj : junk.length = 8) :
    ∃ x, (Link.init cfg mem true junk).serve cfg w [segs.map .data] = .ok x ∧
      x.out.map (fun f => (f.1, f.2.bytes)) =
        (numbered (((Remote.answers k ⟨mem, 0, 0, true⟩ (.request (.connect mode) :: hs.map (·.2))).map Said.answer ++
          rounds k (stampSize cfg) (Remote.final k ⟨mem, 0, 0, true⟩ (hs.map (·.2))) (xs.map Turn.round)).map Said.bytes)).map
            (fun f => (.socket 1, framed f.1 f.2)) ∧
      x.s.mem = ((xs.map Turn.round).foldl (fun r x => x.final k r) (Remote.final k ⟨mem, 0, 0, true⟩ (hs.map (·.2)))).mem := by
  have hcomp := completed_live hp (a := a) (mode := mode) hleg hf
  obtain ⟨s, g1, g2, g3⟩ := C86_calibration_partial hp ho (mode := mode) hd hleg hf hcnt
  have hwhole : ∀ p ∈ ps, Whole cfg p.2 := by
    intro p hp'
    obtain ⟨env, h⟩ := woven_mem (w := w) (n := 0) hp'
    rw [hh] at h
    exact ⟨hcomp env _ h, hps p hp'⟩
  have ht := C94_tcp_partial hp.ok (by omega) hk mem hj hwhole hseg hi
  rw [hh, g1] at ht
  simp only [Except.map] at ht
  split at ht
  · cases ht
  · next x hx =>
    simp only [Except.ok.injEq, Prod.mk.injEq] at ht
    refine ⟨x, hx, ?_, by rw [ht.1]; exact g3⟩
    have hw := wire_payloads hp.ok hl hn g1
    rw [says_payloads hm g2] at hw
    rw [ht.2]
    have := congrArg (List.map fun b => (Dest.socket 1, b)) hw
    simp only [List.map_map, Function.comp_def] at this ⊢
    exact this

/-! ### Examples and short packets -/

/-- CONNECT, the measurement of C86 with calibration, and the end of the session, on Windows. -/
def Ex.deeds : List (Env × Deed) :=
  (Ex.env, .packet 0 [0xFF, 0]) :: Ex.turn.ops.map fun o => (o.1, match o.2 with
    | .cmd p => .packet 5 (received p)
    | op => .app op)

example : (Ex.deeds.map fun d => match d.2 with
      | .packet _ p => p.length
      | .app _ => 0) = [2, 1, 4, 5, 6, 6, 8, 8, 4, 2, 0, 8, 3, 0, 1, 2, 0, 8] := by decide +kernel

/-- The samples go to the tool. -/
example : ((Iocp.init Ex.simPlain Ex.mem true).run Ex.simPlain (opening true Ex.env 3 ++ Ex.deeds.map fun d => (d.1, d.2.event 3))).toOption.map
      (fun x => x.out.map fun f => (f.1, f.2.bytes.drop 2)) =
    some ((3, [0, 0, 0xFF, 0x15, 0x80, 64, 64, 0, 1, 1]) :: ((List.range 7).map fun i => (3, [UInt8.ofNat (i + 1), 0, 0xFF])) ++
      [(3, [8, 0, 0xFF, 0, 0, 0, 0, 0, 0, 0]), (3, [9, 0, 0xFF]), (3, [10, 0, 0, 0x10, 0x11]), (3, [11, 0, 0xFF]), (3, [12, 0, 0xFF]),
       (3, [13, 0, 0, 0x10, 0xAA]), (3, [14, 0, 0xFE, 0]), (3, [15, 0, 0xFF]), (3, [16, 0, 0xFF, 0x10, 0xAA])]) := by decide +kernel

/-- A packet that is whole, and one that is not. -/
example : Whole Ex.simPlain [0xF5, 2] ∧ ¬ Whole Ex.simPlain [0xF5] := by
  refine ⟨⟨complete_of (c := .upload) rfl (by decide) (by decide), by decide⟩, fun h => ?_⟩
  have := (h.1.2.2 .upload rfl (by decide)).1
  revert this
  decide

/-- C94 in full: whatever non-empty packets a tool sends, the slave answers them as if they were handed to it alone. -/
def Spec.Transparent (cfg : Cfg) : Prop :=
  ∀ (mem : Mem) (env : Env) (c : Nat) (ps : List (UInt16 × List UInt8)), KeyOnly env → (∀ p ∈ ps, p.2 ≠ [] ∧ p.2.length ≤ cfg.maxCto) →
    ((Iocp.init cfg mem false).run cfg (ps.map fun p => (env, .recv c (framed p.1 p.2)))).map (fun x => x.s.tx.map Frame.bytes) =
      (run cfg (St.init cfg mem) (ps.map fun p => (env, .cmd (alone p.2)))).map fun s => s.tx.map Frame.bytes

/-- CONNECT, UPLOAD of two bytes, UPLOAD cut behind its first byte. -/
def Ex.cut : List (UInt16 × List UInt8) := [(0, [0xFF, 0]), (1, [0xF5, 2]), (2, [0xF5])]

/-- C94 is false: UPLOAD without a count is answered with as many bytes as the UPLOAD before it, whose count is still in the receive buffer.  (Alone
in its buffer, the slave reads behind the packet.) -/
theorem C94_fails : ¬ Transparent Ex.simPlain := by
  intro h
  have := h Ex.mem Ex.env 1 Ex.cut env_keyOnly (by decide)
  have hl : (((Iocp.init Ex.simPlain Ex.mem false).run Ex.simPlain (Ex.cut.map fun p =>
      (Ex.env, .recv 1 (framed p.1 p.2)))).map fun x => x.s.tx.map Frame.bytes).toOption.map (fun l => l.map List.length) = some [12, 7, 7] := by
    decide +kernel
  have hr : ((run Ex.simPlain (St.init Ex.simPlain Ex.mem) (Ex.cut.map fun p =>
      ((Ex.env, .cmd (alone p.2)) : Env × Op))).map fun s => s.tx.map Frame.bytes).toOption.map (fun l => l.map List.length) = none := by decide +kernel
  rw [this, hr] at hl
  cases hl

end Xcp
