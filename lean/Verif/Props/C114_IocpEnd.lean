import Verif.Model.IocpEnd
/-
C114: the end of the Ethernet transport layer with a completion port.
-/
set_option autoImplicit false
namespace Xcp

namespace Spec

/-- `XcpTl_DeInit` has returned, and the threads it waited for have ended. -/
structure CleanEnd (x : EndSys) : Prop where
  returned : x.main = .done
  acceptor : x.acc = some .ended
  worker   : x.work = .ended
  alive    : x.exited = false

/-- No client opens a connection. -/
def NoClient (es : List EndEv) : Prop := EndEv.client ∉ es

end Spec

theorem end_run_nil (x : EndSys) : x.run [] = x := rfl

theorem end_run_cons (x : EndSys) (e : EndEv) (es : List EndEv) : x.run (e :: es) = (x.step e).run es := rfl

theorem end_run_append (x : EndSys) (as bs : List EndEv) : x.run (as ++ bs) = (x.run as).run bs := List.foldl_append

/-- What is kept: `P` of a state that is kept by every allowed event holds after a history. -/
theorem end_keep (P : EndSys → Prop) (ok : EndEv → Prop) (h : ∀ x e, P x → ok e → P (x.step e)) (es : List EndEv) (x : EndSys) :
    P x → (∀ e, e ∈ es → ok e) → P (x.run es) := by
  induction es generalizing x with
  | nil => intro hx _; exact hx
  | cons e es ih =>
    intro hx he
    exact ih _ (h x e hx (he e (by simp))) fun e' h' => he e' (by simp [h'])

/-- When `XcpTl_DeInit` has returned and there is an acceptor thread, both threads have ended. -/
def Spec.Waited (x : EndSys) : Prop := x.main = .done → x.acc ≠ none → x.acc = some .ended ∧ x.work = .ended

theorem waited_step (x : EndSys) (e : EndEv) (h : Spec.Waited x) : Spec.Waited (x.step e) := by
  obtain ⟨m, a, w, q, p, s, c, ex⟩ := x
  intro hd hn
  cases ex
  case true => exact h hd hn
  cases e
  case main =>
    cases m
    case wait =>
      by_cases hc : a = none ∨ a = some .ended ∧ w = .ended
      · simp [EndSys.step, EndSys.mainStep, hc] at hn ⊢
        rcases hc with hc | hc
        · exact absurd hc hn
        · exact hc
      · simp [EndSys.step, EndSys.mainStep, hc] at hd
    case done => exact h hd hn
    all_goals simp [EndSys.step, EndSys.mainStep] at hd
  case work c' =>
    cases w <;> cases q <;> cases p <;> simp_all [EndSys.step, EndSys.workStep, Spec.Waited]
  case acc =>
    cases a with
    | none => simp_all [EndSys.step, EndSys.accStep]
    | some a => cases a <;> cases c <;> cases s <;> simp_all [EndSys.step, EndSys.accStep, Spec.Waited]
  case client =>
    cases a with
    | none => simp_all [EndSys.step]
    | some a => cases a <;> simp_all [EndSys.step, Spec.Waited]

/-- Whatever happens: if there is an acceptor thread, `XcpTl_DeInit` only returns when both threads have ended. -/
theorem C114_waits (a : AccPc) (w : WorkPc) (c : Bool) (es : List EndEv)
    (hd : ((EndSys.init (some a) w c).run es).main = .done) :
    ((EndSys.init (some a) w c).run es).acc = some .ended ∧ ((EndSys.init (some a) w c).run es).work = .ended := by
  have hk := end_keep (fun x => Spec.Waited x ∧ x.acc ≠ none) (fun _ => True) (fun x e h _ => ⟨waited_step x e h.1, by
    obtain ⟨m, a, w, q, p, s, c, ex⟩ := x
    obtain ⟨_, h⟩ := h
    cases a with
    | none => simp at h
    | some a =>
      cases ex <;> cases e <;> cases a <;> cases m <;> cases w <;> cases q <;> cases p <;> cases s <;> cases c <;>
        simp [EndSys.step, EndSys.mainStep, EndSys.workStep, EndSys.accStep]⟩) es (EndSys.init (some a) w c)
    ⟨by simp [Spec.Waited, EndSys.init], by simp [EndSys.init]⟩ (by simp)
  exact hk.1 hd hk.2

/-- Where the good case may be: `n` steps of `XcpTl_DeInit` are done. -/
structure Spec.Ending (c : Bool) (x : EndSys) : Prop where
  alive  : x.exited = false
  conn   : x.connected = c
  acc    : x.acc = some (if x.main = .post ∨ x.main = .sockets then .accept else .ended)
  sock   : x.sock = decide (x.main = .post ∨ x.main = .sockets)
  port   : x.port = decide (x.main = .post ∨ x.main = .sockets ∨ x.main = .port)
  work   : x.work = .inside ∧ x.quit = decide (x.main ≠ .post) ∧ x.main ≠ .done ∨ x.work = .ended ∧ x.quit = false ∧ x.main ≠ .post

theorem ending_step (c : Bool) (x : EndSys) (e : EndEv) (h : Spec.Ending c x) (he : e ≠ .client) : Spec.Ending c (x.step e) := by
  obtain ⟨m, a, w, q, p, s, c', ex⟩ := x
  obtain ⟨h1, h2, h3, h4, h5, h6⟩ := h
  simp only at h1 h2 h3 h4 h5 h6
  subst h1 h2
  cases e
  case client => exact absurd rfl he
  all_goals
    rcases h6 with ⟨hw, hq, hm⟩ | ⟨hw, hq, hm⟩ <;> cases m <;> simp at h3 h4 h5 hq hm <;> subst hw hq h3 h4 h5 <;>
      (constructor <;> simp [EndSys.step, EndSys.mainStep, EndSys.workStep, EndSys.accStep])

/-- The position of `XcpTl_DeInit`. -/
def Spec.endRank : EndPc → Nat
  | .post => 0
  | .sockets => 1
  | .port => 2
  | .wait => 3
  | .done => 4

theorem rank_step (c : Bool) (x : EndSys) (e : EndEv) (h : Spec.Ending c x) (he : e ≠ .client) :
    Spec.endRank x.main ≤ Spec.endRank (x.step e).main ∧ (e = .main → Spec.endRank x.main < 3 → Spec.endRank x.main < Spec.endRank (x.step e).main) := by
  obtain ⟨m, a, w, q, p, s, c', ex⟩ := x
  obtain ⟨h1, h2, h3, h4, h5, h6⟩ := h
  simp only at h1 h2 h3 h4 h5 h6
  subst h1 h2
  cases e
  case client => exact absurd rfl he
  all_goals
    rcases h6 with ⟨hw, hq, hm⟩ | ⟨hw, hq, hm⟩ <;> cases m <;> simp at h3 h4 h5 hq hm <;> subst hw hq h3 h4 h5 <;>
      simp [EndSys.step, EndSys.mainStep, EndSys.workStep, EndSys.accStep, Spec.endRank]

theorem ending_run (c : Bool) (es : List EndEv) (x : EndSys) (h : Spec.Ending c x) (hn : Spec.NoClient es) :
    Spec.Ending c (x.run es) ∧ min 3 (Spec.endRank x.main + es.count .main) ≤ Spec.endRank (x.run es).main := by
  induction es generalizing x with
  | nil => exact ⟨h, by simp [end_run_nil]; omega⟩
  | cons e es ih =>
    have he : e ≠ .client := by intro h'; subst h'; exact hn (by simp)
    have hs := ending_step c x e h he
    have hr := rank_step c x e h he
    have hi := ih _ hs (by intro h'; exact hn (by simp [h']))
    refine ⟨hi.1, ?_⟩
    rw [end_run_cons]
    have h2 := hi.2
    by_cases hm : e = .main
    · subst hm
      have := hr.2 rfl
      simp only [List.count_cons_self]
      have := hr.1
      omega
    · have hcn : (e :: es).count .main = es.count .main := List.count_cons_of_ne hm
      rw [hcn]
      have := hr.1
      omega

/-- Partial.  Full statement: when `XcpTl_DeInit` of the transport layer with a completion port is called, it returns after its threads
have ended, and the process goes on.  Proved: with TCP it does if the acceptor waits in `accept`, the worker waits for a completion, and
no client opens a connection meanwhile, whether or not the slave is connected: as soon as `XcpTl_DeInit` made three steps,
then the worker one, then `XcpTl_DeInit` one more, in any order with others.  Not so otherwise:
`C114_fails_spin`, `C114_fails_busy`, `C114_fails_exit`, `C114_fails_udp`. -/
theorem C114_ends_partial (c c' : Bool) (es₁ es₂ es₃ : List EndEv) (hn : Spec.NoClient (es₁ ++ es₂ ++ es₃))
    (h₁ : 3 ≤ es₁.count .main) (h₂ : EndEv.work c' ∈ es₂) (h₃ : EndEv.main ∈ es₃) :
    Spec.CleanEnd ((EndSys.init (some .accept) .inside c).run (es₁ ++ es₂ ++ es₃)) := by
  simp only [Spec.NoClient, List.mem_append, not_or] at hn
  obtain ⟨⟨n1, n2⟩, n3⟩ := hn
  have h0 : Spec.Ending c (EndSys.init (some .accept) .inside c) := by constructor <;> simp [EndSys.init]
  obtain ⟨a1, r1⟩ := ending_run c es₁ _ h0 n1
  rw [end_run_append, end_run_append]
  generalize (EndSys.init (some .accept) .inside c).run es₁ = x at a1 r1 ⊢
  have hx : 3 ≤ Spec.endRank x.main := by
    have h0 : Spec.endRank (EndSys.init (some .accept) .inside c).main = 0 := rfl
    omega
  -- the worker
  have a2 : Spec.Ending c (x.run es₂) ∧ 3 ≤ Spec.endRank (x.run es₂).main ∧ (x.run es₂).work = .ended := by
    obtain ⟨u, v, rfl⟩ := List.append_of_mem h₂
    have hu : Spec.NoClient u := fun h => n2 (by simp [h])
    have hv : Spec.NoClient v := fun h => n2 (by simp [h])
    obtain ⟨b1, s1⟩ := ending_run c u x a1 hu
    rw [end_run_append, end_run_cons]
    generalize x.run u = y at b1 s1 ⊢
    have hy : 3 ≤ Spec.endRank y.main := by omega
    have b2 := ending_step c y (.work c') b1 (by simp)
    have s2 := (rank_step c y (.work c') b1 (by simp)).1
    have hw : (y.step (.work c')).work = .ended := by
      obtain ⟨m, a, w, q, p, s, c', ex⟩ := y
      obtain ⟨g1, _, _, _, _, g6⟩ := b1
      simp only at g1 g6 hy
      subst g1
      rcases g6 with ⟨hw, hq, hm⟩ | ⟨hw, hq, hm⟩ <;> subst hw <;> cases m <;> simp [Spec.endRank] at hy hq hm <;> subst hq <;>
        simp [EndSys.step, EndSys.workStep]
    generalize y.step (.work c') = z at b2 s2 hw ⊢
    obtain ⟨b3, s3⟩ := ending_run c v z b2 hv
    refine ⟨b3, by omega, ?_⟩
    exact end_keep (fun z => z.work = .ended) (fun _ => True) (fun z e hz _ => by
      obtain ⟨m, a, w, q, p, s, c', ex⟩ := z
      simp only at hz
      subst hz
      cases ex
      · cases e with
        | main =>
          cases m <;> simp only [EndSys.step, EndSys.mainStep] <;> try simp
          split <;> rfl
        | work => simp [EndSys.step, EndSys.workStep]
        | acc =>
          cases a with
          | none => simp [EndSys.step, EndSys.accStep]
          | some a => cases a <;> cases c' <;> cases s <;> simp [EndSys.step, EndSys.accStep]
        | client => simp only [EndSys.step]; simp; split <;> rfl
      · simp [EndSys.step]) v z hw (by simp)
  obtain ⟨a2, r2, w2⟩ := a2
  generalize x.run es₂ = y at a2 r2 w2 ⊢
  obtain ⟨u, v, rfl⟩ := List.append_of_mem h₃
  have hu : Spec.NoClient u := fun h => n3 (by simp [h])
  have hv : Spec.NoClient v := fun h => n3 (by simp [h])
  have keepw : ∀ (z : EndSys) (es : List EndEv), z.work = .ended → (z.run es).work = .ended := fun z es hz =>
    end_keep (fun z => z.work = .ended) (fun _ => True) (fun z e hz _ => by
      obtain ⟨m, a, w, q, p, s, c', ex⟩ := z
      simp only at hz
      subst hz
      cases ex
      · cases e with
        | main =>
          cases m <;> simp only [EndSys.step, EndSys.mainStep] <;> try simp
          split <;> rfl
        | work => simp [EndSys.step, EndSys.workStep]
        | acc =>
          cases a with
          | none => simp [EndSys.step, EndSys.accStep]
          | some a => cases a <;> cases c' <;> cases s <;> simp [EndSys.step, EndSys.accStep]
        | client => simp only [EndSys.step]; simp; split <;> rfl
      · simp [EndSys.step]) es z hz (by simp)
  obtain ⟨b1, s1⟩ := ending_run c u y a2 hu
  have w3 := keepw y u w2
  rw [end_run_append, end_run_cons]
  generalize y.run u = z at b1 s1 w3 ⊢
  have hz : 3 ≤ Spec.endRank z.main := by omega
  have b2 := ending_step c z .main b1 (by simp)
  have hd : (z.step .main).main = .done := by
    obtain ⟨m, a, w, q, p, s, c', ex⟩ := z
    obtain ⟨g1, g2, g3, g4, g5, g6⟩ := b1
    simp only at g1 g3 g6 hz w3
    subst g1 w3
    cases m <;> simp [Spec.endRank] at hz g3 <;> subst g3 <;> simp [EndSys.step, EndSys.mainStep]
  obtain ⟨b3, s3⟩ := ending_run c v _ b2 hv
  have hdone : ((z.step .main).run v).main = .done := by
    have h4 : Spec.endRank (z.step .main).main = 4 := by rw [hd]; rfl
    exact end_keep (fun z => z.main = .done) (fun _ => True) (fun z e hz _ => by
      obtain ⟨m, a, w, q, p, s, c', ex⟩ := z
      simp only at hz
      subst hz
      cases ex
      · cases e with
        | main => simp [EndSys.step, EndSys.mainStep]
        | work => cases w <;> cases q <;> cases p <;> simp [EndSys.step, EndSys.workStep]
        | acc =>
          cases a with
          | none => simp [EndSys.step, EndSys.accStep]
          | some a => cases a <;> cases c' <;> cases s <;> simp [EndSys.step, EndSys.accStep]
        | client => simp only [EndSys.step]; simp; split <;> rfl
      · simp [EndSys.step]) v _ hd (by simp)
  generalize (z.step .main).run v = y at b3 hdone ⊢
  refine ⟨hdone, ?_, ?_, b3.alive⟩
  · rw [b3.acc, hdone]; simp
  · rcases b3.work with ⟨_, _, h⟩ | h
    · exact absurd hdone h
    · exact h.1

/-- A second client opened a connection while the slave is connected: the acceptor tests `xcpConnected` again and again and never
calls `accept`, so `XcpTl_DeInit` never returns, whatever happens. -/
theorem C114_fails_spin (es : List EndEv) :
    ((EndSys.init (some .test) .inside true).run es).main ≠ .done ∧ ((EndSys.init (some .test) .inside true).run es).exited = false := by
  have h := end_keep (fun x => x.acc = some .test ∧ x.connected = true ∧ x.main ≠ .done ∧ x.exited = false ∧
      (x.work = .inside ∧ (x.port = true ∨ x.quit = true) ∧ (x.main = .post ∨ x.quit = true) ∧ (x.port = true ∨ x.main = .wait) ∨ x.work = .ended))
    (fun _ => True) (fun x e h _ => by
      obtain ⟨m, a, w, q, p, s, c, ex⟩ := x
      obtain ⟨h1, h2, h3, h4, h5⟩ := h
      simp only at h1 h2 h3 h4 h5
      subst h1 h2 h4
      cases m <;> cases e <;> cases w <;> cases q <;> cases p <;>
        simp_all [EndSys.step, EndSys.mainStep, EndSys.workStep, EndSys.accStep])
    es (EndSys.init (some .test) .inside true) (by simp [EndSys.init]) (by simp)
  exact ⟨h.2.2.1, h.2.2.2.1⟩

/-- The worker is still busy with a packet when the port is closed: it never gets the quit message, prints errors for ever, and with
TCP `XcpTl_DeInit` never returns. -/
theorem C114_fails_busy (a : AccPc) (c : Bool) (es : List EndEv) :
    ((EndSys.init (some a) .busy c).run ([.main, .main, .main] ++ es)).main ≠ .done ∧
    ((EndSys.init (some a) .busy c).run ([.main, .main, .main] ++ es)).work ≠ .ended := by
  rw [end_run_append]
  have h := end_keep (fun x => x.work = .busy ∧ x.port = false ∧ x.main = .wait ∧ x.acc ≠ none) (fun _ => True) (fun x e h _ => by
      obtain ⟨m, a, w, q, p, s, c, ex⟩ := x
      obtain ⟨h1, h2, h3, h4⟩ := h
      simp only at h1 h2 h3 h4
      subst h1 h2 h3
      cases a with
      | none => exact absurd rfl h4
      | some a => cases ex <;> cases e <;> cases a <;> cases s <;> cases c <;>
          simp [EndSys.step, EndSys.mainStep, EndSys.workStep, EndSys.accStep])
    es ((EndSys.init (some a) .busy c).run [.main, .main, .main])
    (by cases a <;> simp [EndSys.init, EndSys.run, EndSys.step, EndSys.mainStep]) (by simp)
  exact ⟨by rw [h.2.2.1]; simp, by rw [h.1]; simp⟩

/-- A client opens a connection just before the socket is closed: the acceptor calls `accept` again, which fails, and the process ends
with status 1 before `XcpTl_DeInit` has returned. -/
theorem C114_fails_exit (w : WorkPc) :
    ((EndSys.init (some .accept) w false).run [.client, .main, .main, .acc]).exited = true ∧
    ((EndSys.init (some .accept) w false).run [.client, .main, .main, .acc]).main ≠ .done := by
  cases w <;> decide

/-- With UDP `XcpTl_DeInit` returns after four steps whatever the worker does: it may still be busy, and it then runs for ever. -/
theorem C114_fails_udp (w : WorkPc) (c : Bool) :
    ((EndSys.init none w c).run [.main, .main, .main, .main]).main = .done ∧
    ((EndSys.init none w c).run [.main, .main, .main, .main]).work = w ∧
    (w = .busy → ∀ es, ((EndSys.init none w c).run ([.main, .main, .main, .main] ++ es)).work = .busy) := by
  refine ⟨by cases w <;> cases c <;> decide, by cases w <;> cases c <;> decide, ?_⟩
  intro hw es
  subst hw
  rw [end_run_append]
  have h := end_keep (fun x => x.work = .busy ∧ x.port = false ∧ x.main = .done) (fun _ => True) (fun x e h _ => by
      obtain ⟨m, a, w, q, p, s, c, ex⟩ := x
      obtain ⟨h1, h2, h3⟩ := h
      simp only at h1 h2 h3
      subst h1 h2 h3
      cases a with
      | none => cases ex <;> cases e <;> simp [EndSys.step, EndSys.mainStep, EndSys.workStep, EndSys.accStep]
      | some a => cases ex <;> cases e <;> cases a <;> cases s <;> cases c <;>
          simp [EndSys.step, EndSys.mainStep, EndSys.workStep, EndSys.accStep])
    es ((EndSys.init none .busy c).run [.main, .main, .main, .main])
    (by cases c <;> decide) (by simp)
  exact h.1

/-- The slave is connected; the steps of the acceptor and of the worker come in between. -/
example : Spec.CleanEnd ((EndSys.init (some .accept) .inside true).run
    ([.acc, .main, .main, .acc, .main] ++ [.main, .work false, .work true] ++ [.acc, .main])) :=
  C114_ends_partial true false _ _ _ (by simp [Spec.NoClient]) (by decide) (by decide) (by decide)

/-- Before the worker took the quit message `XcpTl_DeInit` waits. -/
example : ((EndSys.init (some .accept) .inside true).run [.main, .main, .main, .main, .acc, .main]).main = .wait := by decide

/-- A second client during a session, then the user quits. -/
example : (EndSys.init (some .accept) .inside true).run [.client, .main, .main, .main, .work true, .main, .acc, .main] =
    { main := .wait, acc := some .test, work := .ended, quit := false, port := false, sock := false, connected := true, exited := false } := by
  decide

end Xcp
