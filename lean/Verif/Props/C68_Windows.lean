import Verif.Model.Iocp
import Verif.Proofs.Effects
import Verif.Proofs.Answer
import Verif.Proofs.Busy
import Verif.Proofs.Bits
import Verif.Proofs.Eth
import Verif.Model.Example
/-
C68: on Windows only the connected master controls the slave, and its data go to that master.

Proved: a datagram from another address does not reach the slave, one from the master is executed
and answered to it.  False: the next frames go to whoever sent the last datagram, even an ignored one;
an empty datagram from anybody ends the session; after DISCONNECT everybody is obeyed without
CONNECT; a datagram that does not fit the buffer ends all reception; a second TCP client takes over the
connection; the end of one TCP connection ends the session on another.
-/
set_option autoImplicit false
namespace Xcp
open Spec

/-- C68 in full (UDP): while a master is connected, what arrives from another address changes neither the slave nor
where frames go to, and the slave goes on receiving. -/
def Spec.OneMaster (cfg : Cfg) : Prop :=
  ∀ (mem : Mem) (h : List (Env × IocpEv)) (x y : Iocp) (env : Env) (c : Nat) (bs : List UInt8),
    (Iocp.init cfg mem false).run cfg h = .ok x → x.xcpConnected = true → c ≠ x.connectionAddr →
    x.ev cfg env (.recv c bs) = .ok y →
    y.s = x.s ∧ y.xcpConnected = true ∧ y.connectionAddr = x.connectionAddr ∧ y.dest = x.dest ∧ y.pending = x.pending

/-- The state in which `XcpTl_Feed` is called. -/
def Iocp.filled (x : Iocp) (c : Nat) (bs : List UInt8) : Iocp :=
  { x with pending := [], currentAddr := c, buf := storeAt x.buf 0 bs, opAccept := false }

theorem udp_recv {cfg : Cfg} {x : Iocp} (env : Env) {c : Nat} {bs : List UInt8} (ht : x.tcp = false)
    (hp : x.pending = [0]) (h0 : bs ≠ []) (hl : bs.length ≤ x.buf.length) :
    x.ev cfg env (.recv c bs) = ((x.filled c bs).feed cfg env bs.length >>= fun y => .ok y.triggerRecv.acceptor) := by
  have hb : bs.length ≠ 0 := fun h => h0 (List.length_eq_zero_iff.mp h)
  obtain ⟨s, tcp, buf, ca, cur, cs, xc, sc, oa, pend, acc, out⟩ := x
  simp only at ht hp hl
  subst ht hp
  simp only [Iocp.ev, Iocp.sock, Iocp.complete, Bool.false_eq_true, if_false, List.mem_singleton, if_true, List.erase_cons_head, Iocp.filled]
  rw [if_neg (by omega)]
  cases oa
  · rw [if_neg (by decide), if_neg hb]
    rfl
  · rw [if_pos rfl]
    rfl

/-- What arrives on UDP from somebody who is not the connected master, not empty and not too long, is ignored. -/
theorem C68_foreign_partial {cfg : Cfg} {x : Iocp} (env : Env) {c : Nat} {bs : List UInt8} (ht : x.tcp = false)
    (hx : x.xcpConnected = true) (hc : c ≠ x.connectionAddr) (hp : x.pending = [0]) (h0 : bs ≠ []) (hl : bs.length ≤ x.buf.length) :
    ∃ y, x.ev cfg env (.recv c bs) = .ok y ∧ y.s = x.s ∧ y.out = x.out ∧ y.xcpConnected = true ∧
      y.connectionAddr = x.connectionAddr ∧ y.pending = [0] := by
  have hf : (x.filled c bs).feed cfg env bs.length = .ok (x.filled c bs) := by
    unfold Iocp.feed
    rw [if_pos (List.length_pos_iff.mpr h0), if_neg]
    simp only [Iocp.filled, hx]
    simpa using Ne.symm hc
  rw [udp_recv env ht hp h0 hl, hf]
  refine ⟨(x.filled c bs).triggerRecv.acceptor, rfl, ?_⟩
  simp only [Iocp.triggerRecv, Iocp.filled, ht, Iocp.acceptor]
  exact ⟨rfl, rfl, hx, rfl, rfl⟩

/-- The length in the header. -/
theorem iocpLen_header {cfg : Cfg} {ctr payload rest : List UInt8}
    (hn : cfg.lenSize = 2 ∧ payload.length < 65536 ∨ cfg.lenSize = 1 ∧ payload.length < 128) :
    iocpLen cfg (leBytes cfg.lenSize payload.length ++ ctr ++ payload ++ rest) = payload.length := by
  have h2 : ∀ n, leBytes 2 n = [UInt8.ofNat n, UInt8.ofNat (n / 256)] := by
    intro n; simp [leBytes, List.range, List.range.loop]
  have h1 : ∀ n, leBytes 1 n = [UInt8.ofNat n] := by
    intro n; simp [leBytes, List.range, List.range.loop]
  rcases hn with ⟨h, hl⟩ | ⟨h, hl⟩
  · simp only [iocpLen, h, headerWord, h2, List.cons_append, List.nil_append, List.getD_cons_zero, List.getD_cons_succ,
      UInt8.toNat_ofNat']
    rw [if_neg (by decide)]
    omega
  · simp only [iocpLen, h, h1, List.cons_append, List.nil_append, List.getD_cons_zero, UInt8.toNat_ofNat']
    rw [if_pos trivial, if_pos (by omega)]
    omega

/-- A packet in front of other bytes. -/
theorem filled_feed {cfg : Cfg} {x : Iocp} (env : Env) {c : Nat} {ctr payload more : List UInt8} {s : St}
    (hx : x.xcpConnected = false ∨ c = x.connectionAddr)
    (hn : cfg.lenSize = 2 ∧ payload.length < 65536 ∨ cfg.lenSize = 1 ∧ payload.length < 128)
    (hctr : ctr.length = cfg.ctrSize)
    (hs : step cfg env x.s (.cmd ⟨payload.length, payload ++ more ++ x.buf.drop (cfg.lenSize + cfg.ctrSize + payload.length + more.length)⟩) = .ok s) :
    (x.filled c (leBytes cfg.lenSize payload.length ++ ctr ++ payload ++ more)).feed cfg env (leBytes cfg.lenSize payload.length ++ ctr ++ payload ++ more).length =
      .ok (((x.filled c (leBytes cfg.lenSize payload.length ++ ctr ++ payload ++ more)).took s).connection
        (connectionCall cfg env x.s
          ⟨payload.length, payload ++ more ++ x.buf.drop (cfg.lenSize + cfg.ctrSize + payload.length + more.length)⟩)) := by
  have hln : cfg.lenSize ≠ 0 := by omega
  have hlen : (leBytes cfg.lenSize payload.length ++ ctr ++ payload ++ more).length = cfg.lenSize + cfg.ctrSize + payload.length + more.length := by
    simp [hctr, leBytes]; omega
  generalize hbs : leBytes cfg.lenSize payload.length ++ ctr ++ payload ++ more = bs at hlen
  have h0 : bs ≠ [] := by
    intro h; rw [h] at hlen; simp at hlen; omega
  have hst : storeAt x.buf 0 bs = leBytes cfg.lenSize payload.length ++ ctr ++ payload ++ (more ++ x.buf.drop bs.length) := by
    rw [← List.append_assoc, hbs]; simp [storeAt]
  have hd : (storeAt x.buf 0 bs).drop (cfg.lenSize + cfg.ctrSize) =
      payload ++ more ++ x.buf.drop (cfg.lenSize + cfg.ctrSize + payload.length + more.length) := by
    rw [hst, List.append_assoc, List.drop_left' (by simp [hctr, leBytes]), hlen, ← List.append_assoc]
  have hil : iocpLen cfg (storeAt x.buf 0 bs) = payload.length := by
    rw [hst]; exact iocpLen_header hn
  unfold Iocp.feed
  rw [if_pos (List.length_pos_iff.mpr h0), if_pos]
  · show (do let s ← step cfg env x.s (.cmd ⟨iocpLen cfg (storeAt x.buf 0 bs), (storeAt x.buf 0 bs).drop (cfg.lenSize + cfg.ctrSize)⟩)
             return ((x.filled c bs).took s).connection (connectionCall cfg env x.s
               ⟨iocpLen cfg (storeAt x.buf 0 bs), (storeAt x.buf 0 bs).drop (cfg.lenSize + cfg.ctrSize)⟩) : Except Fault Iocp) = _
    rw [hil, hd, hs]
    rfl
  · simp only [Iocp.filled]
    rcases hx with h | h
    · simp [h]
    · simp [h]

theorem own_eq {cfg : Cfg} {x : Iocp} (env : Env) {c : Nat} {ctr payload : List UInt8} {s : St} (ht : x.tcp = false)
    (hx : x.xcpConnected = false ∨ c = x.connectionAddr) (hp : x.pending = [0])
    (hn : cfg.lenSize = 2 ∧ payload.length < 65536 ∨ cfg.lenSize = 1 ∧ payload.length < 128)
    (hctr : ctr.length = cfg.ctrSize) (hl : cfg.lenSize + cfg.ctrSize + payload.length ≤ x.buf.length)
    (hs : step cfg env x.s (.cmd ⟨payload.length, payload ++ x.buf.drop (cfg.lenSize + cfg.ctrSize + payload.length)⟩) = .ok s) :
    x.ev cfg env (.recv c (leBytes cfg.lenSize payload.length ++ ctr ++ payload)) =
      .ok (((x.filled c (leBytes cfg.lenSize payload.length ++ ctr ++ payload)).took s).connection
        (connectionCall cfg env x.s
          ⟨payload.length, payload ++ x.buf.drop (cfg.lenSize + cfg.ctrSize + payload.length)⟩)).triggerRecv.acceptor ∧
    (storeAt x.buf 0 (leBytes cfg.lenSize payload.length ++ ctr ++ payload)).length = x.buf.length := by
  have hln : cfg.lenSize ≠ 0 := by omega
  have hlen : (leBytes cfg.lenSize payload.length ++ ctr ++ payload).length = cfg.lenSize + cfg.ctrSize + payload.length := by
    simp [hctr, leBytes]; omega
  have h0 : leBytes cfg.lenSize payload.length ++ ctr ++ payload ≠ [] := by
    intro h; rw [h] at hlen; simp at hlen; omega
  refine ⟨?_, storeAt_length (by omega)⟩
  have hf := filled_feed (more := []) env (c := c) hx hn hctr (by simpa using hs)
  simp only [List.append_nil, List.length_nil, Nat.add_zero] at hf
  rw [udp_recv env ht hp h0 (by omega), hf]
  rfl

/-- A packet, with its header, that arrives in one datagram from the connected master, or from anybody while there is none,
is executed, and everything the slave sends meanwhile is sent to this address.  The buffer behind the packet holds
bytes of earlier datagrams.  The length field has two bytes, or one and the packet at most 127. -/
theorem C68_own {cfg : Cfg} {x : Iocp} (env : Env) {c : Nat} {ctr payload : List UInt8} {s : St} (ht : x.tcp = false)
    (hx : x.xcpConnected = false ∨ c = x.connectionAddr) (hp : x.pending = [0])
    (hn : cfg.lenSize = 2 ∧ payload.length < 65536 ∨ cfg.lenSize = 1 ∧ payload.length < 128)
    (hctr : ctr.length = cfg.ctrSize) (hl : cfg.lenSize + cfg.ctrSize + payload.length ≤ x.buf.length)
    (hs : step cfg env x.s (.cmd ⟨payload.length, payload ++ x.buf.drop (cfg.lenSize + cfg.ctrSize + payload.length)⟩) = .ok s) :
    ∃ y, x.ev cfg env (.recv c (leBytes cfg.lenSize payload.length ++ ctr ++ payload)) = .ok y ∧ y.s = s ∧
      y.out = x.out ++ (s.tx.drop x.s.tx.length).map (fun f => (c, f)) ∧ y.pending = [0] ∧ y.tcp = false ∧
      y.buf.length = x.buf.length := by
  obtain ⟨he, hb⟩ := own_eq env ht hx hp hn hctr hl hs
  rw [he]
  refine ⟨_, rfl, ?_⟩
  generalize connectionCall cfg env x.s _ = k
  rcases k with _ | _ | _ <;>
    simp only [Iocp.connection, Iocp.triggerRecv, Iocp.filled, Iocp.took, Iocp.dest, ht, Iocp.acceptor] <;>
    exact ⟨rfl, rfl, rfl, rfl, hb⟩

/-- A CONNECT that is executed makes its sender the connected master. -/
theorem C68_connect {cfg : Cfg} {x : Iocp} (env : Env) {c : Nat} {ctr rest : List UInt8} {s : St} (ht : x.tcp = false)
    (hx : x.xcpConnected = false ∨ c = x.connectionAddr) (hp : x.pending = [0]) (hb : x.s.busy = false)
    (hn : cfg.lenSize = 2 ∧ (0xFF :: rest).length < 65536 ∨ cfg.lenSize = 1 ∧ (0xFF :: rest).length < 128)
    (hctr : ctr.length = cfg.ctrSize) (hl : cfg.lenSize + cfg.ctrSize + (0xFF :: rest).length ≤ x.buf.length)
    (hs : step cfg env x.s (.cmd ⟨(0xFF :: rest).length, 0xFF :: rest ++ x.buf.drop (cfg.lenSize + cfg.ctrSize + (0xFF :: rest).length)⟩)
      = .ok s) :
    ∃ y, x.ev cfg env (.recv c (leBytes cfg.lenSize (0xFF :: rest).length ++ ctr ++ 0xFF :: rest)) = .ok y ∧
      y.xcpConnected = true ∧ y.connectionAddr = c := by
  obtain ⟨he, _⟩ := own_eq env ht hx hp hn hctr hl hs
  rw [he]
  refine ⟨_, rfl, ?_⟩
  have hk : connectionCall cfg env x.s
      ⟨(0xFF :: rest).length, 0xFF :: rest ++ x.buf.drop (cfg.lenSize + cfg.ctrSize + (0xFF :: rest).length)⟩ = some true := by
    simp [connectionCall, hb]
  rw [hk]
  simp only [Iocp.connection, Iocp.triggerRecv, Iocp.filled, Iocp.took, Iocp.dest, ht, Iocp.acceptor]
  exact ⟨rfl, rfl⟩

/-- Once connected, the slave stays connected. -/
theorem step_connected {cfg : Cfg} (env : Env) (op : Op) {s : St} (hc : s.connected = true) :
    Post (step cfg env s op) (fun s' => s'.connected = true) := by
  cases op with
  | cmd p =>
    refine Post.cmd (fun s' h _ => h.connected.trans hc) (fun _ s' h _ _ => h) ?_
    intro c _
    cases c
    all_goals unfold_handlers
    all_goals post
    all_goals simp [hc]
  | main => exact (main_eff env).mono fun s' h => h.connected.trans hc
  | trigger ev =>
    exact Post.ite (fun _ => (trigger_eff env _).mono fun s' h => h.connected.trans hc) fun _ => Post.ok hc
  | eventPkt code data => exact special_eff.mono fun s' h => h.1.connected.trans hc
  | servPkt code data => exact special_eff.mono fun s' h => h.1.connected.trans hc
  | appWrite a b => exact Post.ok hc
  | apiDisconnect => exact Post.ok (by simp [hc])

/-- A saved connection means that the slave is connected. -/
def Iocp.Session (x : Iocp) : Prop := x.xcpConnected = true → x.s.connected = true

theorem connectionCall_saves {cfg : Cfg} (env : Env) {s : St} {p : Pdu} (h : connectionCall cfg env s p = some true) :
    Post (step cfg env s (.cmd p)) (fun s' => s'.connected = true) := by
  cases hc : s.connected with
  | true => exact step_connected env _ hc
  | false =>
    have hh : p.buf.head? = some 0xFF := by
      unfold connectionCall at h
      split at h
      · cases h
      · split at h
        · assumption
        · repeat' split at h
          all_goals cases h
    intro s' hs'
    obtain ⟨n, buf⟩ := p
    cases buf with
    | nil => cases hh
    | cons b buf =>
      simp only [List.head?_cons, Option.some.injEq] at hh
      subst hh
      simp only [step, dispatch, Pdu.byte, List.getElem?_cons_zero, hc, ok_bind] at hs'
      cases hs'
      rfl

theorem session_feed {cfg : Cfg} (env : Env) (n : Nat) {x : Iocp} (h : x.Session) : Post (x.feed cfg env n) Iocp.Session := by
  unfold Iocp.feed
  refine Post.ite (fun _ => Post.ite (fun _ => ?_) fun _ => Post.ok h) fun _ => Post.ok h
  apply Post.bindAny
  intro s hs
  apply Post.pure
  cases hk : connectionCall cfg env x.s ⟨iocpLen cfg x.buf, x.buf.drop (cfg.lenSize + cfg.ctrSize)⟩ with
  | none => exact fun hx => step_connected env _ (h hx) s hs
  | some b =>
    cases b
    · intro hx; cases hx
    · exact fun _ => connectionCall_saves env hk s hs

theorem session_rearm {x : Iocp} (h : x.Session) : x.triggerRecv.acceptor.Session := by
  unfold Iocp.triggerRecv
  repeat' split
  all_goals exact h

theorem session_ev {cfg : Cfg} (env : Env) (e : IocpEv) {x : Iocp} (h : x.Session) : Post (x.ev cfg env e) Iocp.Session := by
  cases e with
  | connect c =>
    exact Post.ite (fun _ => Post.ok (session_rearm h)) fun _ => Post.ok h
  | recv c bs =>
    refine Post.ite (fun _ => ?_) fun _ => Post.ok h
    refine Post.ite (fun _ => Post.ok h) fun _ => ?_
    unfold Iocp.complete
    refine Post.ite (fun _ => ?_) fun _ => ?_
    · refine Post.bind ((session_feed env _ ?_).mono fun y hy => Post.pure (session_rearm hy))
      exact h
    · refine Post.bind ((session_feed env _ ?_).mono fun y hy => Post.pure (session_rearm hy))
      split
      · intro hx; cases hx
      · exact h
  | sent =>
    refine Post.ite (fun _ => ?_) fun _ => Post.ok h
    apply Post.bindAny
    intro s hs
    apply Post.pure
    intro hx
    have : Post (uploadSingleBlock cfg env x.s) (fun s' => s'.connected = true) := by
      have hc : x.s.connected = true := h hx
      unfold uploadSingleBlock
      post
      all_goals simp [hc]
    exact this s hs
  | app op =>
    apply Post.bindAny
    intro s hs
    apply Post.pure
    by_cases ho : op = .apiDisconnect
    · rw [if_pos ho]; intro hx; cases hx
    · rw [if_neg ho]; exact fun hx => step_connected env _ (h hx) s hs

/-- In every history of every configuration, UDP or TCP: when the transport layer has a connected master, the slave has
executed CONNECT. -/
theorem C68_session {cfg : Cfg} {mem : Mem} {tcp : Bool} (h : List (Env × IocpEv)) {y : Iocp}
    (hy : (Iocp.init cfg mem tcp).run cfg h = .ok y) : y.xcpConnected = true → y.s.connected = true := by
  have : ∀ (h : List (Env × IocpEv)) (x : Iocp), x.Session → Post (x.run cfg h) Iocp.Session := by
    intro h
    induction h with
    | nil => exact fun x hx => Post.ok hx
    | cons e h ih => exact fun x hx => Post.bind ((session_ev e.1 e.2 hx).mono fun y hy => ih y hy)
  exact this h _ (by intro hx; cases hx) y hy

/-- The operations of the application in a history. -/
def Spec.apps : List (Env × IocpEv) → List (Env × Op)
  | [] => []
  | (env, .app op) :: h => (env, op) :: apps h
  | _ :: h => apps h

theorem deaf_run {cfg : Cfg} (hb : cfg.slaveBlock = false) (h : List (Env × IocpEv)) : ∀ x : Iocp, x.tcp = false → x.pending = [] →
    (x.run cfg h).map Iocp.s = run cfg x.s (apps h) := by
  induction h with
  | nil => intros; rfl
  | cons e h ih =>
    intro x ht hp
    obtain ⟨env, e⟩ := e
    cases e with
    | connect c =>
      have : x.ev cfg env (.connect c) = .ok x := by simp [Iocp.ev, ht]
      rw [Iocp.run, this]
      exact ih x ht hp
    | recv c bs =>
      have : x.ev cfg env (.recv c bs) = .ok x := by simp [Iocp.ev, hp]
      rw [Iocp.run, this]
      exact ih x ht hp
    | sent =>
      have : x.ev cfg env .sent = .ok x := by simp [Iocp.ev, hb]
      rw [Iocp.run, this]
      exact ih x ht hp
    | app op =>
      simp only [Iocp.run, Iocp.ev, apps, run]
      cases hs : step cfg env x.s op with
      | error f => rfl
      | ok s =>
        simp only [ok_bind, pure_eq_ok]
        rw [ih]
        · split <;> rfl
        · split <;> exact ht
        · split <;> exact hp

/-- C68 is false: after one datagram that is longer than the receive buffer, from anybody, the slave never receives
anything again (UDP, no block mode): whatever arrives, the slave only does what the application asks for. -/
theorem C68_fails_deaf {cfg : Cfg} (hb : cfg.slaveBlock = false) {x : Iocp} (env : Env) {c : Nat} {bs : List UInt8}
    (ht : x.tcp = false) (hp : x.pending = [0]) (hl : x.buf.length < bs.length) (h : List (Env × IocpEv)) :
    (x.run cfg ((env, .recv c bs) :: h)).map Iocp.s = run cfg x.s (apps h) := by
  have : x.ev cfg env (.recv c bs) = .ok { x with pending := [], currentAddr := c } := by
    simp [Iocp.ev, Iocp.sock, ht, hp, hl]
  rw [Iocp.run, this]
  exact deaf_run hb h _ ht rfl

/-- C68 is false for length fields of one byte: a packet of 128 bytes or more of the master is executed with a length that is 65280 too large. -/
theorem C68_fails_length {cfg : Cfg} {x : Iocp} (env : Env) {c : Nat} {ctr payload : List UInt8}
    (hx : x.xcpConnected = false ∨ c = x.connectionAddr) (hn : cfg.lenSize = 1 ∧ 128 ≤ payload.length ∧ payload.length < 256)
    (hctr : ctr.length = cfg.ctrSize) :
    (x.filled c (leBytes cfg.lenSize payload.length ++ ctr ++ payload)).feed cfg env (leBytes cfg.lenSize payload.length ++ ctr ++ payload).length =
      (step cfg env x.s (.cmd ⟨payload.length + 65280, payload ++ x.buf.drop (cfg.lenSize + cfg.ctrSize + payload.length)⟩)).map fun s =>
        ((x.filled c (leBytes cfg.lenSize payload.length ++ ctr ++ payload)).took s).connection
          (connectionCall cfg env x.s
            ⟨payload.length + 65280, payload ++ x.buf.drop (cfg.lenSize + cfg.ctrSize + payload.length)⟩) := by
  obtain ⟨h1, h2, h3⟩ := hn
  have hlen : (leBytes cfg.lenSize payload.length ++ ctr ++ payload).length = cfg.lenSize + cfg.ctrSize + payload.length := by
    simp [hctr, leBytes]; omega
  have hil : iocpLen cfg (storeAt x.buf 0 (leBytes cfg.lenSize payload.length ++ ctr ++ payload)) = payload.length + 65280 := by
    have e : leBytes 1 payload.length = [UInt8.ofNat payload.length] := by simp [leBytes, List.range, List.range.loop]
    simp only [iocpLen, storeAt, h1, e, List.take_zero, List.nil_append, List.cons_append, List.getD_cons_zero, UInt8.toNat_ofNat']
    rw [if_pos trivial, if_neg (by omega)]
    omega
  have hd : (storeAt x.buf 0 (leBytes cfg.lenSize payload.length ++ ctr ++ payload)).drop (cfg.lenSize + cfg.ctrSize) =
      payload ++ x.buf.drop (cfg.lenSize + cfg.ctrSize + payload.length) := by
    simp only [storeAt, List.take_zero, List.nil_append, Nat.zero_add, hlen]
    rw [List.append_assoc, List.append_assoc, ← List.append_assoc, List.drop_left' (by simp [hctr, leBytes])]
  generalize hbs : leBytes cfg.lenSize payload.length ++ ctr ++ payload = bs at *
  unfold Iocp.feed
  rw [if_pos (by omega), if_pos]
  · show (do let s ← step cfg env x.s (.cmd ⟨iocpLen cfg (storeAt x.buf 0 bs), (storeAt x.buf 0 bs).drop (cfg.lenSize + cfg.ctrSize)⟩)
             return ((x.filled c bs).took s).connection (connectionCall cfg env x.s
               ⟨iocpLen cfg (storeAt x.buf 0 bs), (storeAt x.buf 0 bs).drop (cfg.lenSize + cfg.ctrSize)⟩) : Except Fault Iocp) = _
    rw [hil, hd]
    cases step cfg env x.s (.cmd ⟨payload.length + 65280, payload ++ x.buf.drop (cfg.lenSize + cfg.ctrSize + payload.length)⟩) <;> rfl
  · simp only [Iocp.filled]
    rcases hx with h | h
    · simp [h]
    · simp [h]

/-- A datagram with a packet in it. -/
def Ex.dg (c : Nat) (bs : List UInt8) : Env × IocpEv := (Ex.env, .recv c ([UInt8.ofNat bs.length, 0, 0, 0] ++ bs))

/-- What can be seen of the end of a history: is a master connected, who, who gets the next frame, is the acquisition
running, and the frames sent, without headers, with their destinations. -/
structure Ex.Seen where
  connected : Bool
  master : Nat
  next : Nat
  running : Bool
  frames : List (Nat × List UInt8)
deriving DecidableEq

/-- The end of a history. -/
def Ex.iocp (cfg : Cfg) (tcp : Bool) (h : List (Env × IocpEv)) : Option Ex.Seen :=
  ((Iocp.init cfg Ex.mem tcp).run cfg h).toOption.map fun x =>
    ⟨x.xcpConnected, x.connectionAddr, x.dest, x.s.daq.running, x.out.map fun f => (f.1, f.2.bytes.drop 4)⟩

/-- Master 1 connects and reads; 2 is ignored; after the DISCONNECT of 1 master 2 can connect. -/
example :
    Ex.iocp Ex.sim false [Ex.dg 1 [0xFF, 0], Ex.dg 1 [0xF4, 2, 0, 0, 0x10, 0, 0, 0], Ex.dg 2 [0xF4, 2, 0, 0, 0x20, 0, 0, 0]] =
      some ⟨true, 1, 2, false, [(1, [0xFF, 0x15, 0x80, 64, 64, 0, 1, 1]), (1, [0xFF, 0x10, 0x11])]⟩ ∧
    Ex.iocp Ex.sim false [Ex.dg 1 [0xFF, 0], Ex.dg 1 [0xFE], Ex.dg 2 [0xFF, 0]] =
      some ⟨true, 2, 2, false, [(1, [0xFF, 0x15, 0x80, 64, 64, 0, 1, 1]), (1, [0xFF]), (2, [0xFF, 0x15, 0x80, 64, 64, 0, 1, 1])]⟩ ∧
    Ex.iocp Ex.sec false [Ex.dg 1 [0xFF, 0], Ex.dg 1 [0xF8, 0, 4], Ex.dg 1 [0xF7, 4, 9, 9, 9, 9], Ex.dg 2 [0xFD]] =
      some ⟨false, 1, 2, false, [(1, [0xFF, 0x15, 0x80, 64, 64, 0, 1, 1]), (1, [0xFF, 4, 1, 2, 3, 4]), (1, [0xFE, 0x25]), (2, [0xFF, 0, 0x1D, 0, 0, 0])]⟩ := by
  refine ⟨?_, ?_, ?_⟩ <;> decide +kernel

/-- A running acquisition of master 1. -/
def Ex.acquiring (f : List UInt8 → Env × IocpEv) : List (Env × IocpEv) :=
  [[0xFF, 0], [0xD6], [0xD5, 0, 1, 0], [0xD4, 0, 0, 0, 1], [0xD3, 0, 0, 0, 0, 1], [0xE2, 0, 0, 0, 0, 0], [0xE1, 0xFF, 2, 0, 0x10, 0, 0, 0],
   [0xE0, 0, 0, 0, 0, 0, 1, 0], [0xDE, 2, 0, 0], [0xDD, 1]].map f

/-- C68 is false: a stranger sends an arbitrary datagram, which is ignored, and gets the measurement data of the master from
then on. -/
theorem C68_fails_redirect :
    (Ex.iocp Ex.sim false (Ex.acquiring (Ex.dg 1) ++ [(Ex.env, .app (.trigger 0)), Ex.dg 7 [0], (Ex.env, .app (.trigger 0))])).map
      (fun r => r.frames.drop 10) = some [(1, [0, 0x10, 0x11]), (7, [0, 0x10, 0x11])] := by
  decide +kernel

/-- C68 is false: an empty datagram from a stranger ends the session and the acquisition of the master. -/
theorem C68_fails_empty :
    (Ex.iocp Ex.sim false (Ex.acquiring (Ex.dg 1) ++ [(Ex.env, .recv 7 [])])).map (fun r => (r.connected, r.running)) = some (false, false) ∧
    (Ex.iocp Ex.sim false (Ex.acquiring (Ex.dg 1))).map (fun r => (r.connected, r.running)) = some (true, true) := by
  refine ⟨?_, ?_⟩ <;> decide +kernel

/-- C68 is false: after the DISCONNECT of the master a stranger's commands are executed without CONNECT. -/
theorem C68_fails_disconnect :
    (Ex.iocp Ex.sim false [Ex.dg 1 [0xFF, 0], Ex.dg 1 [0xFE], Ex.dg 7 [0xF4, 2, 0, 0, 0x10, 0, 0, 0]]).map (fun r => r.frames.drop 2) =
      some [(7, [0xFF, 0x10, 0x11])] := by
  decide +kernel

/-- C68 is false: a second TCP client that connects during the session of the first gets its measurement data, and the
commands of the first one are no longer executed. -/
theorem C68_fails_second_client :
    (Ex.iocp Ex.sim true ([(Ex.env, .connect 1)] ++ Ex.acquiring (Ex.dg 1) ++ [(Ex.env, .connect 2), (Ex.env, .app (.trigger 0))])).map
      (fun r => r.frames.drop 10) = some [(2, [0, 0x10, 0x11])] ∧
    (Ex.iocp Ex.sim true ([(Ex.env, .connect 1)] ++ Ex.acquiring (Ex.dg 1) ++ [(Ex.env, .connect 2), Ex.dg 1 [0xFE]])).map
      (fun r => (r.connected, r.running, r.frames.length)) = some (true, true, 10) := by
  refine ⟨?_, ?_⟩ <;> decide +kernel

/-- During a session at most one more TCP client is accepted: a client that connects after it changes nothing. -/
theorem C68_one_more {cfg : Cfg} {x : Iocp} (hx : x.xcpConnected = true) (env : Env) (d e : Nat) {y : Iocp}
    (hy : x.ev cfg env (.connect d) = .ok y) (hd : x.tcp = true) : y.ev cfg env (.connect e) = .ok y := by
  simp only [Iocp.ev] at hy
  split at hy
  · cases hy
    simp [Iocp.ev, Iocp.triggerRecv, Iocp.acceptor, hx, hd]
  · next h =>
    cases hy
    simp only [Iocp.ev]
    rw [if_neg h]

/-- Client 2 connects during the session of client 1, client 3 is not accepted. -/
example : (Ex.iocp Ex.sim true ([(Ex.env, .connect 1)] ++ Ex.acquiring (Ex.dg 1) ++ [(Ex.env, .connect 2), (Ex.env, .connect 3), (Ex.env, .app (.trigger 0))])).map
      (fun r => r.frames.drop 10) = some [(2, [0, 0x10, 0x11])] := by
  decide +kernel

/-- After a TCP client closed its connection, nothing is received from it until it connects again. -/
theorem C68_closed {cfg : Cfg} {x : Iocp} (ht : x.tcp = true) (ho : x.opAccept = false) (hp : x.connectedSock ∈ x.pending) (env : Env) {y : Iocp}
    (hy : x.ev cfg env (.recv x.connectedSock []) = .ok y) (env' : Env) (bs : List UInt8) :
    y.xcpConnected = false ∧ y.ev cfg env' (.recv x.connectedSock bs) = .ok y := by
  have hs : x.sock x.connectedSock = x.connectedSock := by simp [Iocp.sock, ht]
  simp only [Iocp.ev, hs, hp, ↓reduceIte, List.length_nil, Nat.not_lt_zero, Iocp.complete, ho, Iocp.feed, ht, Bool.false_eq_true] at hy
  simp only [bind, Except.bind, pure, Except.pure] at hy
  cases hy
  refine ⟨by simp [Iocp.acceptor, Iocp.triggerRecv], ?_⟩
  simp [Iocp.acceptor, Iocp.triggerRecv, Iocp.ev, Iocp.sock]

/-- Client 1 closes the connection during its acquisition. -/
example : (Ex.iocp Ex.sim true ([(Ex.env, .connect 1)] ++ Ex.acquiring (Ex.dg 1) ++ [(Ex.env, .recv 1 []), Ex.dg 1 [0xFF, 0]])).map
      (fun r => (r.connected, r.running, r.frames.length)) = some (false, false, 10) := by
  decide +kernel

/-- C68 is false: client 1 connects and does nothing, client 2 connects and acquires data.  When client 1 closes its connection, the session of
client 2 ends, and its socket is closed: what it sends is not received any more. -/
theorem C68_fails_close :
    (Ex.iocp Ex.sim true ([(Ex.env, .connect 1), (Ex.env, .connect 2)] ++ Ex.acquiring (Ex.dg 2))).map (fun r => (r.connected, r.running, r.frames.length)) =
      some (true, true, 10) ∧
    (Ex.iocp Ex.sim true ([(Ex.env, .connect 1), (Ex.env, .connect 2)] ++ Ex.acquiring (Ex.dg 2) ++ [(Ex.env, .recv 1 []), Ex.dg 2 [0xFF, 0]])).map
      (fun r => (r.connected, r.running, r.frames.length)) = some (false, false, 10) := by
  refine ⟨?_, ?_⟩ <;> decide +kernel

/-- The full statement is false. -/
theorem C68_fails : ¬ OneMaster Ex.sim := by
  intro h
  have hd : ∃ x y, (Iocp.init Ex.sim Ex.mem false).run Ex.sim [Ex.dg 1 [0xFF, 0]] = .ok x ∧ x.xcpConnected = true ∧
      7 ≠ x.connectionAddr ∧ x.ev Ex.sim Ex.env (.recv 7 []) = .ok y ∧ y.xcpConnected = false := by
    refine ⟨_, _, rfl, rfl, by decide, rfl, rfl⟩
  obtain ⟨x, y, h1, h2, h3, h4, h5⟩ := hd
  have := (h _ _ _ _ _ _ _ h1 h2 h3 h4).2.1
  rw [h5] at this
  cases this

end Xcp
