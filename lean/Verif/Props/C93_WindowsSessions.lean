import Verif.Props.C68_Windows
import Verif.Props.C80_EndToEnd
/-
C93: on Windows a tool gets the answers of the remote memory, however its packets are cut into pieces.

Proved: with one packet in each datagram or TCP segment, and whatever else arrives from other addresses after CONNECT.
False: what follows a packet in the same datagram or segment is dropped, and the rest of a packet that arrives later is
taken for another packet.
-/
set_option autoImplicit false
namespace Xcp
open Spec

/-- C93 in full: what the slave sends to a TCP client does not depend on how the client's packets are cut into pieces. -/
def Spec.AnyPieces (cfg : Cfg) : Prop :=
  ∀ (mem : Mem) (env : Env) (c : Nat) (ps : List (UInt16 × List UInt8)) (segs : List (List UInt8)),
    (∀ p ∈ ps, p.2 ≠ [] ∧ p.2.length ≤ cfg.maxCto) → Segments segs (stream ps) → (∀ b ∈ segs, b.length ≤ commBufLen cfg) →
    ((Iocp.init cfg mem true).run cfg ((env, .connect c) :: segs.map fun b => (env, .recv c b))).map (fun x => x.s.tx.map Frame.bytes) =
    ((Iocp.init cfg mem true).run cfg ((env, .connect c) :: ps.map fun p => (env, .recv c (framed p.1 p.2)))).map (fun x => x.s.tx.map Frame.bytes)

/-- What arrives from an address. -/
def Spec.cameFrom (c : Nat) : List (Env × IocpEv) → List (Env × List UInt8)
  | [] => []
  | (env, .recv d bs) :: es => if d = c then (env, bs) :: cameFrom c es else cameFrom c es
  | _ :: es => cameFrom c es

/-- Something arrives that is neither empty nor too long, or something has been sent. -/
def Spec.Usual (n : Nat) : IocpEv → Prop
  | .recv _ bs => bs ≠ [] ∧ bs.length ≤ n
  | .sent => True
  | _ => False

/-- The transport layer waits for data from the tool at `c`. -/
structure Serving (cfg : Cfg) (tcp : Bool) (c : Nat) (x : Iocp) : Prop where
  prot : x.tcp = tcp
  pend : x.pending = [if tcp then c else 0]
  sock : tcp = true → x.connectedSock = c ∧ x.currentAddr = c ∧ x.socketConnected = true ∧ x.opAccept = false
  buf : x.buf.length = commBufLen cfg

/-- The packet that is handed to the slave. -/
def winPdu (cfg : Cfg) (buf bs : List UInt8) : Pdu := ⟨iocpLen cfg (storeAt buf 0 bs), (storeAt buf 0 bs).drop (cfg.lenSize + cfg.ctrSize)⟩

theorem serving_recv {cfg : Cfg} {tcp : Bool} {c : Nat} {x : Iocp} (h : Serving cfg tcp c x) (env : Env) {bs : List UInt8} (h0 : bs ≠ [])
    (hl : bs.length ≤ commBufLen cfg) :
    x.ev cfg env (.recv c bs) = ((x.filled c bs).feed cfg env bs.length >>= fun y => .ok y.triggerRecv.acceptor) := by
  cases tcp with
  | false => exact udp_recv env h.prot h.pend h0 (by rw [h.buf]; exact hl)
  | true =>
    have hb : bs.length ≠ 0 := fun h => h0 (List.length_eq_zero_iff.mp h)
    obtain ⟨h1, h2, h3, h4⟩ := h
    obtain ⟨g1, g2, g3, g4⟩ := h3 rfl
    obtain ⟨s, tcp, buf, ca, cur, cs, xc, sc, oa, pend, acc, out⟩ := x
    simp only at h1 h2 g1 g2 g3 g4 h4
    subst h1 h2 g1 g2 g3 g4
    simp only [Iocp.ev, Iocp.sock, Iocp.complete, if_true, List.mem_singleton, List.erase_cons_head, Iocp.filled]
    rw [if_neg (by omega), if_neg (by decide), if_neg hb]
    rfl

/-- The state after a packet of the tool. -/
def winNext (cfg : Cfg) (env : Env) (c : Nat) (x : Iocp) (bs : List UInt8) (s : St) : Iocp :=
  (((x.filled c bs).took s).connection (connectionCall cfg env x.s (winPdu cfg x.buf bs))).triggerRecv.acceptor

theorem serving_own {cfg : Cfg} {tcp : Bool} {c : Nat} {x : Iocp} (h : Serving cfg tcp c x) (env : Env) {bs : List UInt8} (h0 : bs ≠ [])
    (hl : bs.length ≤ commBufLen cfg) (hx : x.xcpConnected = false ∨ c = x.connectionAddr) :
    x.ev cfg env (.recv c bs) = (step cfg env x.s (.cmd (winPdu cfg x.buf bs)) >>= fun s => .ok (winNext cfg env c x bs s)) := by
  rw [serving_recv h env h0 hl]
  have : (x.filled c bs).feed cfg env bs.length = (step cfg env x.s (.cmd (winPdu cfg x.buf bs)) >>= fun s =>
      .ok (((x.filled c bs).took s).connection (connectionCall cfg env x.s (winPdu cfg x.buf bs)))) := by
    unfold Iocp.feed
    rw [if_pos (List.length_pos_iff.mpr h0), if_pos]
    · rfl
    · simp only [Iocp.filled]
      rcases hx with h | h
      · simp [h]
      · simp [h]
  rw [this]
  cases step cfg env x.s (.cmd (winPdu cfg x.buf bs)) <;> rfl

theorem winNext_serving {cfg : Cfg} {tcp : Bool} {c : Nat} {x : Iocp} (h : Serving cfg tcp c x) (env : Env) {bs : List UInt8}
    (hl : bs.length ≤ commBufLen cfg) (s : St) :
    Serving cfg tcp c (winNext cfg env c x bs s) ∧ (winNext cfg env c x bs s).s = s ∧
      (winNext cfg env c x bs s).buf = storeAt x.buf 0 bs ∧
      (winNext cfg env c x bs s).out = x.out ++ (s.tx.drop x.s.tx.length).map fun f => (c, f) := by
  have hb : (storeAt x.buf 0 bs).length = commBufLen cfg := by
    rw [storeAt_length (by rw [h.buf]; omega), h.buf]
  unfold winNext
  generalize connectionCall cfg env x.s _ = k
  obtain ⟨h1, h2, h3, h4⟩ := h
  cases tcp with
  | false =>
    rcases k with _ | _ | _ <;>
      simp only [Iocp.connection, Iocp.triggerRecv, Iocp.filled, Iocp.took, Iocp.dest, h1, Iocp.acceptor] <;>
      exact ⟨⟨rfl, rfl, nofun, hb⟩, rfl, rfl, rfl⟩
  | true =>
    obtain ⟨g1, g2, g3, g4⟩ := h3 rfl
    rcases k with _ | _ | _ <;>
      simp only [Iocp.connection, Iocp.triggerRecv, Iocp.filled, Iocp.took, Iocp.dest, h1, g1, g3, if_true, Iocp.acceptor] <;>
      exact ⟨⟨rfl, rfl, fun _ => ⟨rfl, rfl, rfl, rfl⟩, hb⟩, trivial, trivial, trivial⟩

theorem serving_foreign {cfg : Cfg} {tcp : Bool} {c d : Nat} {x : Iocp} (h : Serving cfg tcp c x) (env : Env) {bs : List UInt8} (h0 : bs ≠ [])
    (hl : bs.length ≤ commBufLen cfg) (hx : x.xcpConnected = true) (hc : x.connectionAddr = c) (hd : d ≠ c) :
    ∃ y, x.ev cfg env (.recv d bs) = .ok y ∧ Serving cfg tcp c y ∧ y.s = x.s ∧ y.out = x.out ∧ y.xcpConnected = true ∧ y.connectionAddr = c ∧
      y.buf = if tcp then x.buf else storeAt x.buf 0 bs := by
  cases tcp with
  | true =>
    refine ⟨x, ?_, h, rfl, rfl, hx, hc, rfl⟩
    simp only [Iocp.ev]
    rw [if_neg]
    simp [Iocp.sock, h.prot, h.pend, hd]
  | false =>
    have hf : (x.filled d bs).feed cfg env bs.length = .ok (x.filled d bs) := by
      unfold Iocp.feed
      rw [if_pos (List.length_pos_iff.mpr h0), if_neg]
      simp only [Iocp.filled, hx, hc]
      simpa using Ne.symm hd
    rw [udp_recv env h.prot h.pend h0 (by rw [h.buf]; exact hl), hf]
    refine ⟨(x.filled d bs).triggerRecv.acceptor, rfl, ?_⟩
    have hb : (storeAt x.buf 0 bs).length = commBufLen cfg := by
      rw [storeAt_length (by rw [h.buf]; omega), h.buf]
    simp only [Iocp.triggerRecv, Iocp.filled, h.prot, Iocp.acceptor]
    exact ⟨⟨rfl, rfl, nofun, hb⟩, rfl, rfl, hx, hc, rfl⟩

/-- The packets handed to the slave. -/
def winPdus (cfg : Cfg) (tcp : Bool) (c : Nat) : List UInt8 → List (Env × IocpEv) → List (Env × Pdu)
  | _, [] => []
  | buf, (env, .recv d bs) :: es =>
    if d = c then (env, winPdu cfg buf bs) :: winPdus cfg tcp c (storeAt buf 0 bs) es
    else winPdus cfg tcp c (if tcp then buf else storeAt buf 0 bs) es
  | buf, _ :: es => winPdus cfg tcp c buf es

theorem cmd_ctos {cfg : Cfg} (env : Env) {s : St} (p : Pdu) : Post (step cfg env s (.cmd p)) (Ctos s) := by
  refine Post.cmd (fun s' _ h => h) (fun _ s' _ _ h => h) fun c _ => ?_
  refine (handler_ctos env p c).mono fun s' h => ?_
  exact Ctos.trans (Ctos.of_eq (by simp)) h

/-- The packet does not end the session. -/
def KeepsOpen (cfg : Cfg) (env : Env) (bs : List UInt8) : Prop :=
  ∀ (s : St) (buf : List UInt8), connectionCall cfg env s (winPdu cfg buf bs) ≠ some false

theorem rearm_keeps (x : Iocp) :
    x.triggerRecv.acceptor.xcpConnected = x.xcpConnected ∧ x.triggerRecv.acceptor.connectionAddr = x.connectionAddr := by
  unfold Iocp.triggerRecv
  repeat' split
  all_goals exact ⟨rfl, rfl⟩

theorem winNext_keeps {cfg : Cfg} {env : Env} {c : Nat} {x : Iocp} {bs : List UInt8} (s : St) (hk : KeepsOpen cfg env bs)
    (hx : x.xcpConnected = true) (hc : x.connectionAddr = c) :
    (winNext cfg env c x bs s).xcpConnected = true ∧ (winNext cfg env c x bs s).connectionAddr = c := by
  have := hk x.s x.buf
  unfold winNext
  generalize connectionCall cfg env x.s (winPdu cfg x.buf bs) = k at this
  rcases k with _ | _ | _
  · rw [(rearm_keeps _).1, (rearm_keeps _).2]
    exact ⟨hx, hc⟩
  · exact absurd rfl this
  · rw [(rearm_keeps _).1, (rearm_keeps _).2]
    exact ⟨rfl, rfl⟩

theorem win_run {cfg : Cfg} (hb : cfg.slaveBlock = false) {tcp : Bool} {c : Nat} : ∀ (es : List (Env × IocpEv)) (x : Iocp), Serving cfg tcp c x →
    x.xcpConnected = true → x.connectionAddr = c → (∀ e ∈ es, Usual (commBufLen cfg) e.2) → (∀ e ∈ Spec.cameFrom c es, KeepsOpen cfg e.1 e.2) →
    ∀ s', run cfg x.s ((winPdus cfg tcp c x.buf es).map fun p => (p.1, .cmd p.2)) = .ok s' →
    ∃ y, x.run cfg es = .ok y ∧ y.s = s' ∧ (x.out = x.s.tx.map (fun f => (c, f)) → y.out = s'.tx.map fun f => (c, f))
  | [], x, _, _, _, _, _, s', hr => by
    cases hr
    exact ⟨x, rfl, rfl, id⟩
  | (env, e) :: es, x, hS, hx, hc, hu, hk, s', hr => by
    have hu' : ∀ e ∈ es, Usual (commBufLen cfg) e.2 := fun e he => hu e (List.mem_cons_of_mem _ he)
    have he := hu _ (List.mem_cons_self ..)
    cases e with
    | connect d => exact he.elim
    | app op => exact he.elim
    | sent =>
      have : x.ev cfg env .sent = .ok x := by simp [Iocp.ev, hb]
      rw [Iocp.run, this]
      exact win_run hb es x hS hx hc hu' hk s' hr
    | recv d bs =>
      simp only [Usual] at he
      by_cases hd : d = c
      · subst hd
        simp only [Spec.cameFrom, if_true] at hk
        simp only [winPdus, if_true, List.map_cons, run] at hr
        cases hs : step cfg env x.s (.cmd (winPdu cfg x.buf bs)) with
        | error f => rw [hs] at hr; cases hr
        | ok s =>
          rw [hs] at hr
          simp only [ok_bind] at hr
          obtain ⟨g1, g2, g3, g4⟩ := winNext_serving hS env he.2 s
          obtain ⟨k1, k2⟩ := winNext_keeps s (hk _ (List.mem_cons_self ..)) hx hc
          obtain ⟨y, y1, y2, y3⟩ := win_run hb es (winNext cfg env d x bs s) g1 k1 k2 hu' (fun e he => hk e (List.mem_cons_of_mem _ he)) s'
            (by rw [g2, g3]; exact hr)
          refine ⟨y, ?_, y2, fun ho => y3 ?_⟩
          · rw [Iocp.run, serving_own hS env he.1 he.2 (Or.inr hc.symm), hs]
            exact y1
          · obtain ⟨fs, hf, -⟩ := cmd_ctos env _ s hs
            rw [g4, g2, ho, hf]
            simp
      · simp only [Spec.cameFrom, if_neg hd] at hk
        simp only [winPdus, if_neg hd] at hr
        obtain ⟨y, g1, g2, g3, g4, g5, g6, g7⟩ := serving_foreign hS env he.1 he.2 hx hc hd
        obtain ⟨z, z1, z2, z3⟩ := win_run hb es y g2 g5 g6 hu' hk s' (by rw [g3, g7]; exact hr)
        refine ⟨z, ?_, z2, fun ho => z3 (by rw [g4, g3]; exact ho)⟩
        rw [Iocp.run, g1]
        exact z1

theorem winPdu_framed {cfg : Cfg} (hl : cfg.lenSize = 2) (hn : cfg.ctrSize = 2) (ctr : UInt16) {p : List UInt8} (hp : p.length < 65536)
    (more buf : List UInt8) : winPdu cfg buf (framed ctr p ++ more) = ⟨p.length, p ++ more ++ buf.drop (p.length + 4 + more.length)⟩ := by
  have hst : storeAt buf 0 (framed ctr p ++ more) = framed ctr p ++ (more ++ buf.drop (p.length + 4 + more.length)) := by
    simp [storeAt, framed_length']
  unfold winPdu
  rw [hst, hl, hn]
  congr 1
  · unfold iocpLen
    rw [if_neg (by omega), headerWord_framed hp]
  · rw [List.append_assoc]
    rfl

/-- A request keeps the session. -/
theorem request_keeps {cfg : Cfg} (hl : cfg.lenSize = 2) (hn : cfg.ctrSize = 2) {r : Remote} {q : Req} (hq : Legal cfg r q) (hs : q.bytes.length < 65536)
    (env : Env) (ctr : UInt16) : KeepsOpen cfg env (framed ctr q.bytes) := by
  intro s buf
  have := winPdu_framed hl hn ctr hs [] buf
  simp only [List.append_nil] at this
  rw [this]
  unfold connectionCall
  have key : ∀ b : UInt8, (q.bytes ++ buf.drop (q.bytes.length + 4 + ([] : List UInt8).length)).head? = some b → b ≠ 0xFE ∧ (b = 0xF7 → cfg.on .unlock = false) := by
    intro b hb
    cases q
    case other c =>
      simp only [Req.bytes, List.cons_append, List.head?_cons, Option.some.injEq] at hb
      simp only [Legal] at hq
      subst hb
      cases c <;> first | (simp [Cfg.supports, Cmd.group, Cmd.mandatory] at hq; done) | (simp only [cmdCode]; refine ⟨by decide, fun h => ?_⟩) 
      all_goals first | exact absurd h (by decide) | (simpa [Cfg.supports, Cmd.group, Cmd.mandatory] using hq)
    all_goals
      simp only [Req.bytes, List.cons_append, List.head?_cons, Option.some.injEq] at hb
      subst hb
      refine ⟨by decide, ?_⟩
      exact fun h => absurd h (by decide)
  repeat' split
  all_goals try (exact fun h => Option.noConfusion h)
  all_goals try (intro h; simp at h; done)
  · exact absurd rfl (key _ ‹_›).1
  · rename_i h
    simp only [Bool.and_eq_true, decide_eq_true_eq] at h
    have := (key _ h.1.1.1).2 rfl
    rw [h.1.1.2] at this
    cases this

theorem keeps_all {cfg : Cfg} (hp : Plain cfg) (hl : cfg.lenSize = 2) (hn : cfg.ctrSize = 2) {k : About} : ∀ (qs : List (UInt16 × Req)) {r : Remote},
    AllLegal cfg k r (qs.map fun q => .request q.2) → ∀ q ∈ qs, ∀ env, KeepsOpen cfg env (framed q.1 q.2.bytes)
  | [], _, _, _, h => by cases h
  | q :: qs, r, hq, x, hx => by
    simp only [List.map_cons, AllLegal] at hq
    rcases List.mem_cons.mp hx with rfl | hx
    · have h9 := hp.ok.cto_hi
      have := (legal_length hp (hq.1 _ rfl)).2
      exact fun env => request_keeps hl hn (hq.1 _ rfl) (by omega) env _
    · exact keeps_all hp hl hn qs hq.2 x hx

/-- The packets handed to the slave are those of the tool. -/
theorem winPdus_contents {cfg : Cfg} (hl : cfg.lenSize = 2) (hn : cfg.ctrSize = 2) {tcp : Bool} {c : Nat} :
    ∀ (es : List (Env × IocpEv)) (rs : List (UInt16 × List UInt8)) (buf : List UInt8), (∀ r ∈ rs, r.2.length < 65536) →
    (cameFrom c es).map Prod.snd = rs.map (fun r => framed r.1 r.2) →
    ((winPdus cfg tcp c buf es).map fun p => p.2.buf.take p.2.len) = rs.map Prod.snd ∧
      (winPdus cfg tcp c buf es).map Prod.fst = (cameFrom c es).map Prod.fst
  | [], rs, buf, _, h => by
    simp only [cameFrom, List.map_nil] at h
    have : rs = [] := List.map_eq_nil_iff.mp h.symm
    subst this
    exact ⟨rfl, rfl⟩
  | (env, e) :: es, rs, buf, hr, h => by
    cases e with
    | connect d => exact winPdus_contents hl hn es rs buf hr h
    | app op => exact winPdus_contents hl hn es rs buf hr h
    | sent => exact winPdus_contents hl hn es rs buf hr h
    | recv d bs =>
      by_cases hd : d = c
      · subst hd
        simp only [cameFrom, if_true, List.map_cons] at h
        match rs, h with
        | r :: rs, h =>
          simp only [List.map_cons, List.cons.injEq] at h
          obtain ⟨h1, h2⟩ := h
          obtain ⟨g1, g2⟩ := winPdus_contents (tcp := tcp) hl hn es rs (storeAt buf 0 bs) (fun r hr' => hr r (List.mem_cons_of_mem _ hr')) h2
          have hw := winPdu_framed hl hn r.1 (hr r (List.mem_cons_self ..)) [] buf
          simp only [List.append_nil] at hw
          rw [← h1] at hw
          simp only [winPdus, if_true, List.map_cons, cameFrom, g1, g2, hw]
          exact ⟨by simp, trivial⟩
      · simp only [cameFrom, if_neg hd] at h
        simp only [winPdus, if_neg hd, cameFrom]
        exact winPdus_contents hl hn es rs _ hr h

theorem win_first {cfg : Cfg} (hl : cfg.lenSize = 2) (hn : cfg.ctrSize = 2) {c : Nat} {x : Iocp} (hb : x.s.busy = false) (env : Env) (ctr : UInt16) (mode : UInt8) (s : St) :
    (winNext cfg env c x (framed ctr [0xFF, mode]) s).xcpConnected = true ∧ (winNext cfg env c x (framed ctr [0xFF, mode]) s).connectionAddr = c := by
  have hw := winPdu_framed hl hn ctr (p := [0xFF, mode]) (by simp) [] x.buf
  simp only [List.append_nil] at hw
  have hk : connectionCall cfg env x.s (winPdu cfg x.buf (framed ctr [0xFF, mode])) = some true := by
    rw [hw]
    simp [connectionCall, hb]
  unfold winNext
  rw [hk, (rearm_keeps _).1, (rearm_keeps _).2]
  exact ⟨rfl, rfl⟩

/-- The beginning: with TCP the tool makes a connection. -/
def Spec.opening (tcp : Bool) (env : Env) (c : Nat) : List (Env × IocpEv) := if tcp then [(env, .connect c)] else []

theorem win_open (cfg : Cfg) (mem : Mem) (tcp : Bool) (env : Env) (c : Nat) (es : List (Env × IocpEv)) :
    ∃ x, (Iocp.init cfg mem tcp).run cfg (opening tcp env c ++ es) = x.run cfg es ∧ Serving cfg tcp c x ∧ x.s = St.init cfg mem ∧
      x.xcpConnected = false ∧ x.out = [] := by
  cases tcp with
  | false => exact ⟨_, rfl, ⟨rfl, rfl, nofun, by simp [Iocp.init]⟩, rfl, rfl, rfl⟩
  | true =>
    refine ⟨_, rfl, ⟨rfl, rfl, fun _ => ⟨rfl, rfl, rfl, rfl⟩, ?_⟩, rfl, rfl, rfl⟩
    simp [Iocp.triggerRecv, Iocp.init, Iocp.acceptor]

/-- C93 with one packet in each datagram or segment: a tool on UDP or TCP that sends CONNECT first and then legal requests gets
the answers of the remote memory, in numbered frames, and nobody else gets anything, whatever arrives from other addresses after
CONNECT; the memory of the slave is the remote memory. -/
theorem C93_session_partial {cfg : Cfg} (hp : Plain cfg) (hb : cfg.slaveBlock = false) (hl : cfg.lenSize = 2) (hn : cfg.ctrSize = 2) (hm : cfg.maxDlc = false) {k : About}
    {tcp : Bool} {c : Nat} {env : Env} {ctr : UInt16} {mode : UInt8} {es : List (Env × IocpEv)} {qs : List (UInt16 × Req)}
    (hd : Describes k cfg (env :: (cameFrom c es).map Prod.fst)) (hu : ∀ e ∈ es, Usual (commBufLen cfg) e.2)
    (hq : (cameFrom c es).map Prod.snd = qs.map fun q => framed q.1 q.2.bytes) {mem : Mem}
    (hleg : AllLegal cfg k ⟨mem, 0, 0, true⟩ (qs.map fun q => .request q.2)) :
    ∃ x, (Iocp.init cfg mem tcp).run cfg (opening tcp env c ++ (env, .recv c (framed ctr (Req.connect mode).bytes)) :: es) = .ok x ∧
      x.out.map (fun f => (f.1, f.2.bytes)) =
        (numbered (Remote.answers k ⟨mem, 0, 0, true⟩ (.request (.connect mode) :: qs.map fun q => .request q.2))).map (fun a => (c, framed a.1 a.2)) ∧
      x.s.mem = (Remote.final k ⟨mem, 0, 0, true⟩ (qs.map fun q => .request q.2)).mem := by
  have h8 := hp.ok.cto_lo
  have h9 := hp.ok.cto_hi
  have eqs : (qs.map fun q => Happening.request q.2) = (qs.map Prod.snd).map .request := by simp
  obtain ⟨x, hx, hS, hs0, hnc, hout⟩ := win_open cfg mem tcp env c ((env, .recv c (framed ctr (Req.connect mode).bytes)) :: es)
  have hlen : ∀ q ∈ qs, q.2.bytes.length < 65536 := by
    intro q hq'
    have := (allLegal_length hp (qs.map Prod.snd) (by rw [← eqs]; exact hleg) q.2 (List.mem_map.mpr ⟨q, hq', rfl⟩)).2
    omega
  have hb0 : (Req.connect mode).bytes.length = 2 := rfl
  have hcap : (framed ctr (Req.connect mode).bytes).length ≤ commBufLen cfg := by
    rw [framed_length', hb0, commBufLen]; omega
  have hne : framed ctr (Req.connect mode).bytes ≠ [] := by simp [framed]
  let es0 : List (Env × IocpEv) := (env, .recv c (framed ctr (Req.connect mode).bytes)) :: es
  have hsb : cameFrom c es0 = (env, framed ctr (Req.connect mode).bytes) :: cameFrom c es := by simp [es0, cameFrom]
  obtain ⟨hc1, hc2⟩ := winPdus_contents (cfg := cfg) (tcp := tcp) (c := c) hl hn es0
    ((ctr, (Req.connect mode).bytes) :: qs.map fun q => (q.1, q.2.bytes)) x.buf
    (by
      intro r hr
      rcases List.mem_cons.mp hr with rfl | hr
      · show (Req.connect mode).bytes.length < 65536
        rw [hb0]; omega
      · obtain ⟨q, hq', rfl⟩ := List.mem_map.mp hr
        exact hlen q hq')
    (by
      rw [hsb]
      simp only [List.map_cons, hq, List.map_map]
      rfl)
  have hc1' : ((winPdus cfg tcp c x.buf es0).map fun p => p.2.buf.take p.2.len) = (Req.connect mode :: qs.map Prod.snd).map Req.bytes := by
    rw [hc1]
    simp [List.map_map, Function.comp_def]
  obtain ⟨s, k1, k2, k3⟩ := packets_session hp (k := k) (mem := mem) (mode := mode) (by rw [hc2, hsb]; exact hd) hc1' (by rw [← eqs]; exact hleg)
  have k1' := k1
  have hpd : winPdus cfg tcp c x.buf es0 = (env, winPdu cfg x.buf (framed ctr (Req.connect mode).bytes)) ::
      winPdus cfg tcp c (storeAt x.buf 0 (framed ctr (Req.connect mode).bytes)) es := by simp [es0, winPdus]
  rw [hpd] at k1'
  simp only [List.map_cons, run] at k1'
  cases hst : step cfg env (St.init cfg mem) (.cmd (winPdu cfg x.buf (framed ctr (Req.connect mode).bytes))) with
  | error f => rw [hst] at k1'; cases k1'
  | ok s1 =>
    rw [hst] at k1'
    simp only [ok_bind] at k1'
    obtain ⟨g1, g2, g3, g4⟩ := winNext_serving hS env hcap s1
    obtain ⟨f1, f2⟩ := win_first (c := c) hl hn (x := x) (by rw [hs0]; rfl) env ctr mode s1
    obtain ⟨y, y1, y2, y3⟩ := win_run hb es (winNext cfg env c x (framed ctr (Req.connect mode).bytes) s1) g1 f1 f2 hu
      (by
        intro e he
        have : e.2 ∈ (cameFrom c es).map Prod.snd := List.mem_map.mpr ⟨e, he, rfl⟩
        rw [hq] at this
        obtain ⟨q, hq1, hq2⟩ := List.mem_map.mp this
        rw [← hq2]
        exact keeps_all hp hl hn qs hleg q hq1 e.1) s (by rw [g2, g3]; exact k1')
    refine ⟨y, ?_, ?_, ?_⟩
    · rw [hx, Iocp.run, serving_own hS env hne hcap (Or.inl hnc), hs0, hst]
      exact y1
    · have ho := y3 (by
        rw [g4, g2, hout, hs0]
        simp [St.init])
      have hw := wire_frames hp.ok hl hn hm k1 k2
      rw [eqs, ho]
      have := congrArg (List.map fun b => (c, b)) hw
      simp only [List.map_map, Function.comp_def] at this ⊢
      exact this
    · rw [y2, k3, eqs]

/-- What follows a packet in the same datagram or segment is not executed: the slave only executes the first packet, and waits for the
next datagram or segment. -/
theorem C93_fails_joined {cfg : Cfg} (hl : cfg.lenSize = 2) (hn : cfg.ctrSize = 2) {tcp : Bool} {c : Nat} {x : Iocp} (h : Serving cfg tcp c x)
    (hx : x.xcpConnected = false ∨ c = x.connectionAddr) (env : Env) (ctr : UInt16) {p more : List UInt8} (hp : p.length + 4 + more.length ≤ commBufLen cfg)
    (h16 : p.length < 65536) {s : St}
    (hs : step cfg env x.s (.cmd ⟨p.length, p ++ more ++ x.buf.drop (p.length + 4 + more.length)⟩) = .ok s) :
    ∃ y, x.ev cfg env (.recv c (framed ctr p ++ more)) = .ok y ∧ y.s = s ∧ y.out = x.out ++ (s.tx.drop x.s.tx.length).map (fun f => (c, f)) ∧
      Serving cfg tcp c y := by
  have hlen : (framed ctr p ++ more).length ≤ commBufLen cfg := by rw [List.length_append, framed_length']; omega
  obtain ⟨g1, g2, -, g4⟩ := winNext_serving h env hlen s
  refine ⟨_, ?_, g2, g4, g1⟩
  rw [serving_own h env (by simp [framed]) hlen hx, winPdu_framed hl hn ctr h16, hs]
  rfl

/-- DISCONNECT of the connected tool: it is answered, and makes room for others, unless a programming sequence is active. -/
theorem C93_disconnect {cfg : Cfg} (hl : cfg.lenSize = 2) (hn : cfg.ctrSize = 2) (hs : ShortOk cfg) (h8 : 8 ≤ cfg.maxCto) {tcp : Bool} {c : Nat} {x : Iocp}
    (h : Serving cfg tcp c x) (hx : x.xcpConnected = true) (hc : x.connectionAddr = c) (hr : Ready x.s) (env : Env) (ctr : UInt16) :
    ∃ y f, x.ev cfg env (.recv c (framed ctr [0xFE])) = .ok y ∧ Serving cfg tcp c y ∧ y.out = x.out ++ [(c, f)] ∧
      Carries cfg f (if x.s.pgm = .active then [0xFE, 0x12] else [0xFF]) ∧ (y.xcpConnected = true ↔ x.s.pgm = .active) := by
  have hcap : (framed ctr [0xFE]).length ≤ commBufLen cfg := by rw [framed_length', commBufLen]; simp; omega
  have hw := winPdu_framed (cfg := cfg) hl hn ctr (p := [0xFE]) (by simp) [] x.buf
  simp only [List.append_nil] at hw
  have hk : connectionCall cfg env x.s (winPdu cfg x.buf (framed ctr [0xFE])) = if x.s.pgm = .active then none else some false := by
    rw [hw]
    simp [connectionCall, hr.conn, hr.idle]
  have key : ∃ s f, step cfg env x.s (.cmd (winPdu cfg x.buf (framed ctr [0xFE]))) = .ok s ∧ s.tx = x.s.tx ++ [f] ∧
      Carries cfg f (if x.s.pgm = .active then [0xFE, 0x12] else [0xFF]) := by
    rw [hr.stepc env .disconnect (by rw [hw]; rfl) (by simp [Cfg.supports, Cmd.group, Cmd.mandatory])]
    have hp : (bumpReceived cfg x.s).pgm = x.s.pgm := (bumpReceived_same cfg x.s).pgm
    have ht : (bumpReceived cfg x.s).tx = x.s.tx := bumpReceived_tx cfg x.s
    simp only [handler, disconnectRes, assertPgmIdle, hp]
    split
    · obtain ⟨f, k1, k2⟩ := send8_answers (bs := [0xFE, 0x12]) hs (by simp) ht
      exact ⟨_, f, rfl, k1, k2⟩
    · obtain ⟨f, k1, k2⟩ := send8_answers (bs := [0xFF]) hs (by simp) ht
      exact ⟨_, f, rfl, by rw [apiDisconnect_txlog]; exact k1, k2⟩
  obtain ⟨s, f, k1, k2, k3⟩ := key
  obtain ⟨g1, g2, -, g4⟩ := winNext_serving h env hcap s
  refine ⟨_, f, ?_, g1, by rw [g4, k2]; simp, k3, ?_⟩
  · rw [serving_own h env (by simp [framed]) hcap (Or.inr hc.symm), k1]
    rfl
  · unfold winNext
    rw [(rearm_keeps _).1, hk]
    split
    · next hp => simp [hp, Iocp.connection, Iocp.took, Iocp.filled, hx]
    · next hp => simp [hp, Iocp.connection]

/-- The slave of the examples, without slave block mode. -/
def Ex.simPlain : Cfg := { Ex.sim with slaveBlock := false }

example : Plain Ex.simPlain ∧ Ex.simPlain.lenSize = 2 ∧ Ex.simPlain.ctrSize = 2 ∧ Ex.simPlain.maxDlc = false :=
  ⟨⟨⟨by constructor <;> decide, Or.inl rfl, rfl, rfl, by decide, Or.inl rfl⟩, rfl⟩, rfl, rfl, rfl⟩

/-- CONNECT, SET_MTA and UPLOAD of client 1, with a datagram of client 2 in between. -/
example : (Ex.iocp Ex.simPlain false [Ex.dg 1 [0xFF, 0], Ex.dg 2 [0xFE], Ex.dg 1 [0xF6, 0, 0, 0, 0x34, 0x12, 0, 0], (Ex.env, .sent), Ex.dg 1 [0xF5, 2]]).map
      (fun r => r.frames) = some [(1, [0xFF, 0x15, 0x80, 64, 64, 0, 1, 1]), (1, [0xFF]), (1, [0xFF, 0x34, 0x35])] := by
  decide +kernel

/-- DISCONNECT while a programming sequence is active is refused, and a datagram of client 2 is still ignored. -/
example : (Ex.iocp Ex.simPlain false [Ex.dg 1 [0xFF, 0], Ex.dg 1 [0xD2], Ex.dg 1 [0xFE], Ex.dg 2 [0xFF, 0]]).map
      (fun r => (r.connected, r.frames.drop 2)) = some (true, [(1, [0xFE, 0x12])]) := by
  decide +kernel

/-- C93 is false.  The same in TCP segments: one for each packet; the last two in one; the last one in two, cut behind its header.  In the
second case UPLOAD is never answered.  In the third case SET_MTA is executed three times and UPLOAD not at all: each of the
two pieces is taken for a packet, with the contents that are still in the buffer. -/
theorem C93_fails_pieces :
    ((Ex.iocp Ex.simPlain true [(Ex.env, .connect 1), Ex.dg 1 [0xFF, 0], Ex.dg 1 [0xF6, 0, 0, 0, 0x34, 0x12, 0, 0], Ex.dg 1 [0xF5, 2]]).map
      (fun r => r.frames.drop 1) = some [(1, [0xFF]), (1, [0xFF, 0x34, 0x35])]) ∧
    ((Ex.iocp Ex.simPlain true [(Ex.env, .connect 1), Ex.dg 1 [0xFF, 0],
        (Ex.env, .recv 1 ([8, 0, 0, 0, 0xF6, 0, 0, 0, 0x34, 0x12, 0, 0] ++ [2, 0, 0, 0, 0xF5, 2]))]).map
      (fun r => r.frames.drop 1) = some [(1, [0xFF])]) ∧
    ((Ex.iocp Ex.simPlain true [(Ex.env, .connect 1), Ex.dg 1 [0xFF, 0], Ex.dg 1 [0xF6, 0, 0, 0, 0x34, 0x12, 0, 0],
        (Ex.env, .recv 1 [2, 0, 0, 0]), (Ex.env, .recv 1 [0xF5, 2])]).map
      (fun r => r.frames.drop 1) = some [(1, [0xFF]), (1, [0xFF]), (1, [0xFF])]) := by
  refine ⟨?_, ?_, ?_⟩ <;> decide +kernel

/-- The full statement is false: GET_STATUS in the same segment as CONNECT is not answered. -/
theorem C93_fails : ¬ AnyPieces Ex.simPlain := by
  intro h
  have := h Ex.mem Ex.env 1 [(0, [0xFF, 0]), (1, [0xFD])] [framed 0 [0xFF, 0] ++ framed 1 [0xFD]] (by decide)
    ⟨by decide, by decide⟩ (by decide)
  revert this
  have hl : (((Iocp.init Ex.simPlain Ex.mem true).run Ex.simPlain ((Ex.env, .connect 1) :: [framed 0 [0xFF, 0] ++ framed 1 [0xFD]].map fun b =>
      (Ex.env, .recv 1 b))).map fun x => x.s.tx.map Frame.bytes).toOption.map List.length = some 1 := by decide +kernel
  have hr : (((Iocp.init Ex.simPlain Ex.mem true).run Ex.simPlain ((Ex.env, .connect 1) :: [(0, [0xFF, 0]), (1, [0xFD])].map fun p =>
      (Ex.env, .recv 1 (framed p.1 p.2)))).map fun x => x.s.tx.map Frame.bytes).toOption.map List.length = some 2 := by decide +kernel
  intro he
  rw [he, hr] at hl
  cases hl

end Xcp
