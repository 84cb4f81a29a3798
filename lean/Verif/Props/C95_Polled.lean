import Verif.Props.C47_Serial
import Verif.Props.C94_Transparent
/-
C95: the serial receiver, polled by the main function, takes packets whose octets arrive without a pause, and after a pause begins
with a new packet.

Proved with the pause that the code waits for: longer than the time from start-up to the last octet.  False with the configured
pause of 100 ms.
-/
set_option autoImplicit false
namespace Xcp
open Spec

/-- One call of the main function: when an octet is taken, when the time is checked, the octet. -/
abbrev Spec.Poll := UInt32 × UInt32 × Option UInt8

/-- No check at `later` finds the octet taken at `last` expired. -/
def Spec.Unexpired (expired : UInt32 → UInt32 → Prop) (last : Option UInt32) (later : UInt32) : Prop := ∀ t, last = some t → ¬ expired t later

/-- The octets `bs` arrive, the one before them was taken at `last`; no check before the last of them finds the time expired. -/
inductive Spec.Arrives (expired : UInt32 → UInt32 → Prop) : Option UInt32 → List UInt8 → List Poll → Prop
  | wait {last : Option UInt32} {now later : UInt32} {bs : List UInt8} {cs : List Poll} :
      Unexpired expired last later → Arrives expired last bs cs → Arrives expired last bs ((now, later, none) :: cs)
  | octet {last : Option UInt32} {now later : UInt32} {b : UInt8} {bs : List UInt8} {cs : List Poll} :
      ¬ expired now later → Arrives expired (some now) bs cs → Arrives expired last (b :: bs) ((now, later, some b) :: cs)
  | last {last : Option UInt32} {now later : UInt32} {b : UInt8} : Arrives expired last [b] [(now, later, some b)]

/-- The octets `bs` arrive, then a check finds the time expired. -/
inductive Spec.Stops (expired : UInt32 → UInt32 → Prop) : Option UInt32 → List UInt8 → List Poll → Prop
  | wait {last : Option UInt32} {now later : UInt32} {bs : List UInt8} {cs : List Poll} :
      Unexpired expired last later → Stops expired last bs cs → Stops expired last bs ((now, later, none) :: cs)
  | octet {last : Option UInt32} {now later : UInt32} {b : UInt8} {bs : List UInt8} {cs : List Poll} :
      ¬ expired now later → Stops expired (some now) bs cs → Stops expired last (b :: bs) ((now, later, some b) :: cs)
  | pause {last now later : UInt32} : expired last later → Stops expired (some last) [] [(now, later, none)]
  | slow {last : Option UInt32} {now later : UInt32} {b : UInt8} : expired now later → Stops expired last [b] [(now, later, some b)]

/-- A history of the line: packets `good` arrive, of the packets `bad` only a part. -/
inductive Spec.Line (expired : UInt32 → UInt32 → Prop) : List (UInt16 × List UInt8) → List (UInt16 × List UInt8) → List Poll → Prop
  | nil : Line expired [] [] []
  | idle {good bad : List (UInt16 × List UInt8)} {now later : UInt32} {cs : List Poll} :
      Line expired good bad cs → Line expired good bad ((now, later, none) :: cs)
  | packet {good bad : List (UInt16 × List UInt8)} {ctr : UInt16} {p : List UInt8} {cs ds : List Poll} :
      Arrives expired none (framed ctr p) cs → Line expired good bad ds → Line expired ((ctr, p) :: good) bad (cs ++ ds)
  | broken {good bad : List (UInt16 × List UInt8)} {ctr : UInt16} {p part rest : List UInt8} {cs ds : List Poll} :
      framed ctr p = part ++ rest → rest ≠ [] → Stops expired none part cs → Line expired good bad ds → Line expired good ((ctr, p) :: bad) (cs ++ ds)

/-- C95 for a receiver with a buffer of `buflen` bytes and a pause: exactly the packets that arrive are dispatched. -/
def Spec.Resumes (buflen : Nat) (expired : UInt32 → UInt32 → Prop) : Prop :=
  ∀ (good bad : List (UInt16 × List UInt8)) (cs : List Poll), Line expired good bad cs →
    (∀ cp ∈ good ++ bad, cp.2.length + 4 ≤ buflen ∧ cp.2.length ≤ 65532) →
    ∃ r qs, (Rcv.init buflen).mainAll cs = .ok (r, qs) ∧ qs.map delivered = good.map Prod.snd ∧ qs.map Pdu.len = good.map fun cp => cp.2.length

/-- The pause that is configured, `TIMEOUT_VALUE` in src/tl/sxi/xcp_tl.c:42. -/
def Spec.After100ms (last now : UInt32) : Prop := 100 < now - last

/-- The pause that the code waits for: longer than the time from start-up to the last octet. -/
def Spec.AfterUptime (last now : UInt32) : Prop := last < now - last

/-! ### Timer and receiver -/

theorem feed_timer {r r' : Rcv} {now : UInt32} {b : UInt8} {out : Option Pdu} (h : r.feed now b = .ok (r', out)) :
    r'.timer.func = r.timer.func ∧ ((r.state = .untilLength → r.index = 1) → (r.state ≠ .idle → r.timer.running = true) → out = none →
      r'.timer.running = true ∧ r'.timer.value = now) := by
  unfold Rcv.feed at h
  split at h
  · cases h
  · cases hs : r.state with
    | idle =>
      simp only [hs] at h
      cases h
      refine ⟨rfl, fun _ _ _ => ⟨rfl, rfl⟩⟩
    | untilLength =>
      simp only [hs] at h
      by_cases hi : r.index = 1
      · simp only [hi, if_true] at h
        cases h
        refine ⟨rfl, fun _ hr _ => ⟨?_, rfl⟩⟩
        exact hr (by simp)
      · simp only [hi, if_false] at h
        cases h
        refine ⟨?_, fun hh => absurd (hh rfl) hi⟩
        split <;> rfl
    | remaining =>
      simp only [hs] at h
      split at h
      · split at h
        · cases h
          exact ⟨by split <;> rfl, fun _ _ ho => by cases ho⟩
        · cases h
          refine ⟨by split <;> rfl, fun _ hr _ => ?_⟩
          have := hr (by simp)
          split <;> exact ⟨this, rfl⟩
      · split at h
        · cases h
          exact ⟨by split <;> rfl, fun _ _ ho => by cases ho⟩
        · cases h
          refine ⟨by split <;> rfl, fun _ hr _ => ?_⟩
          have := hr (by simp)
          split <;> exact ⟨this, rfl⟩

/-- The receiver between packets. -/
def Rest (buflen : Nat) (r : Rcv) : Prop := Between buflen r ∧ r.timer.func = true

/-- The receiver after `k` octets of a packet, the last one taken at `t`. -/
def Amid (buflen n k : Nat) (f : List UInt8) (t : UInt32) (r : Rcv) : Prop :=
  Mid buflen n k f r ∧ r.timer.func = true ∧ r.timer.running = true ∧ r.timer.value = t

theorem rest_reset {buflen : Nat} {r : Rcv} (h : r.buf.length = buflen) (hf : r.timer.func = true) : Rest buflen r.resetSM := by
  refine ⟨⟨?_, rfl, rfl⟩, ?_⟩
  · simpa [Rcv.resetSM] using h
  · simpa [Rcv.resetSM] using hf

/-- The check in the main function. -/
def Rcv.checked (r : Rcv) (later : UInt32) : Rcv :=
  if r.timer.running && decide (later - r.timer.value > r.timer.value) && r.timer.func then r.resetSM else r

theorem main_some {r r' : Rcv} {now : UInt32} {o : UInt8} {out : Option Pdu} (h : r.feed now o = .ok (r', out)) (later : UInt32) :
    r.main now later (some o) = .ok (r'.checked later, out) := by
  simp only [Rcv.main, h, Timeout.step, Rcv.checked]
  rfl

theorem main_none (r : Rcv) (now later : UInt32) : r.main now later none = .ok (r.checked later, none) := by
  simp only [Rcv.main, Timeout.step, Rcv.checked]
  rfl

theorem mainAll_cons {r r1 : Rcv} {now later : UInt32} {o : Option UInt8} {out : Option Pdu} (h : r.main now later o = .ok (r1, out)) (rest : List Poll) :
    r.mainAll ((now, later, o) :: rest) = (r1.mainAll rest).map fun x => (x.1, out.toList ++ x.2) := by
  simp only [Rcv.mainAll, h]
  show Except.bind (Except.ok (r1, out)) _ = _
  simp only [Except.bind]
  cases r1.mainAll rest <;> rfl

theorem mainAll_append {r r1 : Rcv} {a : List Poll} {o1 : List Pdu} (h : r.mainAll a = .ok (r1, o1)) (b : List Poll) :
    r.mainAll (a ++ b) = (r1.mainAll b).map fun x => (x.1, o1 ++ x.2) := by
  induction a generalizing r o1 with
  | nil =>
    simp only [Rcv.mainAll] at h
    cases h
    simp only [List.nil_append]
    cases r1.mainAll b <;> rfl
  | cons x a ih =>
    obtain ⟨now, later, o⟩ := x
    cases hf : r.main now later o with
    | error e => simp only [Rcv.mainAll, hf] at h; cases h
    | ok y =>
      obtain ⟨r2, out⟩ := y
      rw [List.cons_append, mainAll_cons hf]
      rw [mainAll_cons hf] at h
      cases h2 : r2.mainAll a with
      | error e => rw [h2] at h; cases h
      | ok z =>
        obtain ⟨r3, o3⟩ := z
        rw [h2] at h
        cases h
        rw [ih h2]
        cases r3.mainAll b with
        | error e => rfl
        | ok w => simp [Except.map]

theorem checked_rest {buflen : Nat} {r : Rcv} (h : Rest buflen r) (later : UInt32) : Rest buflen (r.checked later) := by
  unfold Rcv.checked
  split
  · exact rest_reset h.1.len h.2
  · exact h

theorem checked_fresh {buflen n k : Nat} {f : List UInt8} {t : UInt32} {r : Rcv} (h : Amid buflen n k f t r) {later : UInt32} (hn : ¬ AfterUptime t later) :
    Amid buflen n k f t (r.checked later) := by
  unfold Rcv.checked
  rw [if_neg]
  · exact h
  · rw [h.2.2.2]
    simp only [Bool.and_eq_true, decide_eq_true_eq]
    exact fun hh => hn hh.1.2

theorem checked_expired {buflen n k : Nat} {f : List UInt8} {t : UInt32} {r : Rcv} (h : Amid buflen n k f t r) {later : UInt32} (hn : AfterUptime t later) :
    Rest buflen (r.checked later) := by
  unfold Rcv.checked
  rw [if_pos]
  · exact rest_reset h.1.len h.2.1
  · rw [h.2.1, h.2.2.1, h.2.2.2]
    simpa [AfterUptime] using hn

theorem amid_first {buflen : Nat} {r : Rcv} (h : Rest buflen r) (hb : 0 < buflen) (now : UInt32) (c : UInt16) (p : List UInt8)
    {b : UInt8} (hb0 : (framed c p)[0]? = some b) :
    ∃ r', r.feed now b = .ok (r', none) ∧ Amid buflen p.length 1 (framed c p) now r' := by
  obtain ⟨r', h1, h2⟩ := feed_first h.1 hb now c p hb0
  obtain ⟨t1, t2⟩ := feed_timer h1
  obtain ⟨t3, t4⟩ := t2 (by rw [h.1.st]; intro x; cases x) (by rw [h.1.st]; intro x; exact absurd rfl x) rfl
  exact ⟨r', h1, h2, t1.trans h.2, t3, t4⟩

theorem amid_mid {buflen k : Nat} {r : Rcv} {c : UInt16} {p : List UInt8} {t : UInt32} (h : Amid buflen p.length k (framed c p) t r)
    (hk : k + 1 < p.length + 4) (hb : k < buflen) (hp : p.length ≤ 65532) (now : UInt32) {b : UInt8}
    (hbk : (framed c p)[k]? = some b) :
    ∃ r', r.feed now b = .ok (r', none) ∧ Amid buflen p.length (k + 1) (framed c p) now r' := by
  obtain ⟨r', h1, h2⟩ := feed_mid h.1 hk hb hp now hbk
  obtain ⟨t1, t2⟩ := feed_timer h1
  have hst := h.1.st
  have hix := h.1.index
  obtain ⟨t3, t4⟩ := t2
    (by
      intro hu
      rcases hst with ⟨e, -⟩ | ⟨-, e, -⟩
      · rw [hix, e]
      · rw [hu] at e; cases e)
    (fun _ => h.2.2.1) rfl
  exact ⟨r', h1, h2, t1.trans h.2.1, t3, t4⟩

theorem rest_last {buflen : Nat} {r : Rcv} {c : UInt16} {p : List UInt8} {t : UInt32} (h : Amid buflen p.length (p.length + 3) (framed c p) t r)
    (hb : p.length + 3 < buflen) (now : UInt32) {b : UInt8} (hbk : (framed c p)[p.length + 3]? = some b) :
    ∃ r' q, r.feed now b = .ok (r', some q) ∧ Rest buflen r' ∧ q.len = p.length ∧ delivered q = p ∧ q.buf.length + 4 = buflen := by
  obtain ⟨r', q, h1, h2, h3⟩ := feed_last h.1 hb now hbk
  exact ⟨r', q, h1, ⟨h2, (feed_timer h1).1.trans h.2.1⟩, h3⟩

/-- Where the receiver is: between packets, or after `k` octets. -/
def Stage (buflen : Nat) (c : UInt16) (p : List UInt8) (k : Nat) (last : Option UInt32) (r : Rcv) : Prop :=
  match last with
  | none => k = 0 ∧ Rest buflen r
  | some t => 0 < k ∧ Amid buflen p.length k (framed c p) t r

theorem stage_wait {buflen : Nat} {c : UInt16} {p : List UInt8} {k : Nat} {last : Option UInt32} {r : Rcv} (h : Stage buflen c p k last r) {later : UInt32}
    (hf : Unexpired AfterUptime last later) : Stage buflen c p k last (r.checked later) := by
  cases last with
  | none => exact ⟨h.1, checked_rest h.2 later⟩
  | some t => exact ⟨h.1, checked_fresh h.2 (hf t rfl)⟩

theorem stage_octet {buflen : Nat} {c : UInt16} {p : List UInt8} {k : Nat} {last : Option UInt32} {r : Rcv} (h : Stage buflen c p k last r)
    (hk : k + 1 < p.length + 4) (hb : k < buflen) (hp : p.length ≤ 65532) (now : UInt32) {b : UInt8} (hbk : (framed c p)[k]? = some b) :
    ∃ r', r.feed now b = .ok (r', none) ∧ Amid buflen p.length (k + 1) (framed c p) now r' := by
  cases last with
  | none =>
    obtain ⟨rfl, h⟩ := h
    exact amid_first h (by omega) now c p hbk
  | some t => exact amid_mid h.2 hk hb hp now hbk

theorem drop_cons_getElem? {f : List UInt8} {k : Nat} {b : UInt8} {bs : List UInt8} (h : f.drop k = b :: bs) :
    f[k]? = some b ∧ f.drop (k + 1) = bs := by
  constructor
  · have := congrArg (fun x => x[0]?) h
    simpa using this
  · rw [← List.tail_drop, h]
    rfl

theorem arrives_ne {expired : UInt32 → UInt32 → Prop} {last : Option UInt32} {bs : List UInt8} {cs : List Poll} (h : Arrives expired last bs cs) :
    bs ≠ [] := by
  induction h with
  | wait _ _ ih => exact ih
  | octet => simp
  | last => simp

theorem arrives_ok {buflen : Nat} {c : UInt16} {p : List UInt8} (hb : p.length + 4 ≤ buflen) (hp : p.length ≤ 65532) {last : Option UInt32}
    {bs : List UInt8} {cs : List Poll} (h : Arrives AfterUptime last bs cs) :
    ∀ {k : Nat} {r : Rcv}, Stage buflen c p k last r → (framed c p).drop k = bs →
      ∃ r' q, r.mainAll cs = .ok (r', [q]) ∧ Rest buflen r' ∧ q.len = p.length ∧ delivered q = p := by
  induction h with
  | @wait last now later bs cs hf _ ih =>
    intro k r hs hd
    obtain ⟨r', q, h1, h2⟩ := ih (stage_wait hs hf) hd
    refine ⟨r', q, ?_, h2⟩
    rw [mainAll_cons (main_none r now later), h1]
    rfl
  | @octet last now later b bs cs hf ha ih =>
    intro k r hs hd
    obtain ⟨hg, hd'⟩ := drop_cons_getElem? hd
    have hne := arrives_ne ha
    have hlen : k + 1 < p.length + 4 := by
      have := congrArg List.length hd'
      rw [List.length_drop, framed_length] at this
      have := List.length_pos_iff.mpr hne
      omega
    obtain ⟨r1, h1, h2⟩ := stage_octet hs hlen (by omega) hp now hg
    obtain ⟨r', q, h3, h4⟩ := ih (k := k + 1) (r := r1.checked later) ⟨by omega, checked_fresh h2 hf⟩ hd'
    refine ⟨r', q, ?_, h4⟩
    rw [mainAll_cons (main_some h1 later), h3]
    rfl
  | @last last now later b =>
    intro k r hs hd
    obtain ⟨hg, hd'⟩ := drop_cons_getElem? hd
    have hlen := congrArg List.length hd
    rw [List.length_drop, framed_length] at hlen
    simp only [List.length_cons, List.length_nil] at hlen
    obtain rfl : k = p.length + 3 := by omega
    cases last with
    | none => exact absurd hs.1 (by omega)
    | some t =>
      obtain ⟨r1, q, h1, h2, h3, h4, -⟩ := rest_last hs.2 (by omega) now hg
      refine ⟨r1.checked later, q, ?_, checked_rest h2 later, h3, h4⟩
      rw [mainAll_cons (main_some h1 later)]
      rfl

theorem stops_ok {buflen : Nat} {c : UInt16} {p : List UInt8} (hb : p.length + 4 ≤ buflen) (hp : p.length ≤ 65532) {last : Option UInt32}
    {bs : List UInt8} {cs : List Poll} (h : Stops AfterUptime last bs cs) :
    ∀ {k : Nat} {r : Rcv} {rest : List UInt8}, Stage buflen c p k last r → (framed c p).drop k = bs ++ rest → rest ≠ [] →
      ∃ r', r.mainAll cs = .ok (r', []) ∧ Rest buflen r' := by
  induction h with
  | @wait last now later bs cs hf _ ih =>
    intro k r rest hs hd hr
    obtain ⟨r', h1, h2⟩ := ih (stage_wait hs hf) hd hr
    refine ⟨r', ?_, h2⟩
    rw [mainAll_cons (main_none r now later), h1]
    rfl
  | @octet last now later b bs cs hf _ ih =>
    intro k r rest hs hd hr
    obtain ⟨hg, hd'⟩ := drop_cons_getElem? hd
    have hlen : k + 1 < p.length + 4 := by
      have := congrArg List.length hd'
      rw [List.length_drop, framed_length, show bs.append rest = bs ++ rest from rfl, List.length_append] at this
      have := List.length_pos_iff.mpr hr
      omega
    obtain ⟨r1, h1, h2⟩ := stage_octet hs hlen (by omega) hp now hg
    obtain ⟨r', h3, h4⟩ := ih (k := k + 1) (r := r1.checked later) ⟨by omega, checked_fresh h2 hf⟩ hd' hr
    refine ⟨r', ?_, h4⟩
    rw [mainAll_cons (main_some h1 later), h3]
    rfl
  | @pause last now later he =>
    intro k r rest hs hd hr
    refine ⟨r.checked later, ?_, checked_expired hs.2 he⟩
    rw [mainAll_cons (main_none r now later)]
    rfl
  | @slow last now later b he =>
    intro k r rest hs hd hr
    obtain ⟨hg, hd'⟩ := drop_cons_getElem? hd
    have hlen : k + 1 < p.length + 4 := by
      have h1 : (framed c p).drop (k + 1) = rest := hd'
      have h2 := congrArg List.length h1
      rw [List.length_drop, framed_length] at h2
      have := List.length_pos_iff.mpr hr
      omega
    obtain ⟨r1, h1, h2⟩ := stage_octet hs hlen (by omega) hp now hg
    refine ⟨r1.checked later, ?_, checked_expired h2 he⟩
    rw [mainAll_cons (main_some h1 later)]
    rfl

theorem line_ok {buflen : Nat} {good bad : List (UInt16 × List UInt8)} {cs : List Poll} (h : Line AfterUptime good bad cs)
    (hfit : ∀ cp ∈ good ++ bad, cp.2.length + 4 ≤ buflen ∧ cp.2.length ≤ 65532) :
    ∀ {r : Rcv}, Rest buflen r → ∃ r' qs, r.mainAll cs = .ok (r', qs) ∧ Rest buflen r' ∧ qs.map delivered = good.map Prod.snd ∧
      qs.map Pdu.len = good.map fun cp => cp.2.length := by
  induction h with
  | nil =>
    intro r hr
    exact ⟨r, [], rfl, hr, rfl, rfl⟩
  | @idle good bad now later cs _ ih =>
    intro r hr
    obtain ⟨r', qs, h1, h2⟩ := ih hfit (checked_rest hr later)
    refine ⟨r', qs, ?_, h2⟩
    rw [mainAll_cons (main_none r now later), h1]
    rfl
  | @packet good bad ctr p cs ds ha _ ih =>
    intro r hr
    obtain ⟨f1, f2⟩ := hfit (ctr, p) (by simp)
    obtain ⟨r1, q, h1, h2, h3, h4⟩ := arrives_ok f1 f2 ha (r := r) ⟨rfl, hr⟩ (List.drop_zero ..)
    obtain ⟨r', qs, h5, h6, h7, h8⟩ := ih (fun cp hcp => hfit cp (by simp only [List.cons_append, List.mem_cons]; exact .inr hcp)) h2
    refine ⟨r', q :: qs, ?_, h6, by simp [h4, h7], by simp [h3, h8]⟩
    rw [mainAll_append h1, h5]
    rfl
  | @broken good bad ctr p part rest cs ds he hn hs _ ih =>
    intro r hr
    obtain ⟨f1, f2⟩ := hfit (ctr, p) (by simp)
    obtain ⟨r1, h1, h2⟩ := stops_ok f1 f2 hs (r := r) (k := 0) (c := ctr) ⟨rfl, hr⟩ (by rw [List.drop_zero]; exact he) hn
    obtain ⟨r', qs, h5, h6⟩ := ih
      (fun cp hcp => hfit cp (by
        simp only [List.mem_append, List.mem_cons] at hcp ⊢
        rcases hcp with h | h
        · exact .inl h
        · exact .inr (.inr h))) h2
    refine ⟨r', qs, ?_, h6⟩
    rw [mainAll_append h1, h5]
    rfl

/-- C95 with the pause that the code waits for. -/
theorem C95_resumes_partial (buflen : Nat) : Resumes buflen AfterUptime := by
  intro good bad cs h hfit
  obtain ⟨r, qs, h1, -, h2, h3⟩ := line_ok h hfit (r := Rcv.init buflen) ⟨init_between buflen, rfl⟩
  exact ⟨r, qs, h1, h2, h3⟩

/-- C95 for the slave: polled this way, the slave does what it does without transport layer. -/
theorem C95_slave_partial {cfg : Cfg} (hc : cfg.Ok) (hl : cfg.lenSize = 2) (hn : cfg.ctrSize = 2) {h : List (Env × Deed)} (hf : ∀ d ∈ h, KeyOnly d.1 ∧ d.2.Fair cfg)
    {bad : List (UInt16 × List UInt8)} (hbad : ∀ cp ∈ bad, cp.2.length ≤ cfg.maxCto) {cs : List Poll} (ht : Line AfterUptime (packets h) bad cs) :
    ∃ r qs, (Rcv.init (commBufLen cfg)).mainAll cs = .ok (r, qs) ∧ qs.length = (packets h).length ∧
      ∀ s, run cfg s (carried h qs) = run cfg s (h.map fun d => (d.1, d.2.op)) := by
  have h9 := hc.cto_hi
  obtain ⟨r, qs, g1, g2, g3⟩ := C95_resumes_partial (commBufLen cfg) (packets h) bad cs ht
    (by
      intro cp hcp
      have : cp.2.length ≤ cfg.maxCto := by
        rcases List.mem_append.mp hcp with hcp | hcp
        · exact (fair_packets hf cp hcp).2
        · exact hbad cp hcp
      simp only [commBufLen]
      omega)
  refine ⟨r, qs, g1, by simpa using congrArg List.length g3, held_run hc h qs (held_delivered g2 ?_) hf⟩
  rw [g3, List.map_map]
  rfl

theorem not_afterUptime (t : UInt32) : ¬ AfterUptime t t := by
  unfold AfterUptime
  rw [UInt32.sub_self]
  exact UInt32.not_lt.mpr (UInt32.zero_le)

/-- C95 is false: an octet is lost if the next one comes later than the time from start-up to it, however short the pause; what follows
is taken for another packet. -/
theorem C95_fails_early {buflen : Nat} (hb : 5 ≤ buflen) (t gap : UInt32) (hg : t < gap) :
    ∃ r qs, (Rcv.init buflen).mainAll ((t, t, some 1) :: (t + gap, t + gap, none) :: [0, 0, 0, 0xFF].map fun o => (t + gap, t + gap, some o)) = .ok (r, qs) ∧
      qs.map delivered = [[]] := by
  have he : AfterUptime t (t + gap) := by
    unfold AfterUptime
    rw [show t + gap - t = gap by grind]
    exact hg
  have hline : Line AfterUptime [(0xFF00, [])] [(0, [0xFF])]
      ([(t, t, some 1), (t + gap, t + gap, none)] ++ ([0, 0, 0, 0xFF].map (fun o => (t + gap, t + gap, some o)) ++ [])) := by
    refine .broken (part := [1]) (rest := [0, 0, 0, 0xFF]) (by decide) (by decide) (.octet (not_afterUptime t) (.pause he)) (.packet ?_ .nil)
    show Arrives AfterUptime none [0, 0, 0, 0xFF] _
    exact .octet (not_afterUptime _) (.octet (not_afterUptime _) (.octet (not_afterUptime _) .last))
  obtain ⟨r, qs, h1, h2, -⟩ := C95_resumes_partial buflen _ _ _ hline (by
    intro cp hcp
    simp only [List.cons_append, List.nil_append, List.mem_cons, List.not_mem_nil, or_false] at hcp
    rcases hcp with rfl | rfl <;> simp <;> omega)
  rw [List.append_nil] at h1
  exact ⟨r, qs, h1, h2⟩

/-- Octets that arrive without a pause and do not complete the packet. -/
theorem amid_octets {buflen : Nat} {c : UInt16} {p : List UInt8} (hp : p.length ≤ 65532) (now : UInt32) :
    ∀ (bs : List UInt8) {k : Nat} {r : Rcv} {t : UInt32} {rest : List UInt8}, Amid buflen p.length k (framed c p) t r →
      (framed c p).drop k = bs ++ rest → rest ≠ [] → k + bs.length ≤ buflen →
      ∃ r', r.mainAll (bs.map fun o => (now, now, some o)) = .ok (r', [])
  | [], k, r, t, rest, h, hd, hr, hb => ⟨r, rfl⟩
  | b :: bs, k, r, t, rest, h, hd, hr, hb => by
    obtain ⟨hg, hd'⟩ := drop_cons_getElem? hd
    have h1 : (framed c p).drop (k + 1) = bs ++ rest := hd'
    have h2 := congrArg List.length h1
    rw [List.length_drop, framed_length, List.length_append] at h2
    have := List.length_pos_iff.mpr hr
    simp only [List.length_cons] at hb
    obtain ⟨r1, h3, h4⟩ := amid_mid h (by omega) (by omega) hp now hg
    obtain ⟨r', h5⟩ := amid_octets hp now bs (checked_fresh h4 (not_afterUptime now)) h1 hr (by omega)
    refine ⟨r', ?_⟩
    rw [List.map_cons, mainAll_cons (main_some h3 now), h5]
    rfl

/-- C95 is false: when a packet breaks off after an octet at time `t`, no pause up to that length lets the receiver begin with a new
packet: CONNECT is taken for the rest of the old packet. -/
theorem C95_fails_stuck {buflen : Nat} (hb : 7 ≤ buflen) (t pause : UInt32) (hp : pause ≤ t) :
    ∃ r, (Rcv.init buflen).mainAll ((t, t, some 2) :: (t + pause, t + pause, none) ::
      [2, 0, 0, 0, 0xFF, 0].map fun o => (t + pause, t + pause, some o)) = .ok (r, []) := by
  have hn : ¬ AfterUptime t (t + pause) := by
    unfold AfterUptime
    rw [show t + pause - t = pause by grind]
    exact UInt32.not_lt.mpr hp
  let p : List UInt8 := [0, 0xFF, 0] ++ List.replicate 511 0
  have hl : p.length = 514 := by
    show ([0, 0xFF, 0] ++ List.replicate 511 (0 : UInt8)).length = 514
    rw [List.length_append, List.length_replicate]
    rfl
  have hfr : framed 0 p = 2 :: ([2, 0, 0, 0, 0xFF, 0] ++ List.replicate 511 0) := by
    unfold framed
    rw [hl]
    rfl
  obtain ⟨r1, h1, h2⟩ := amid_first (r := Rcv.init buflen) ⟨init_between buflen, rfl⟩ (by omega) t 0 p (b := 2) (by rw [hfr]; rfl)
  have h3 := checked_fresh (checked_fresh h2 (not_afterUptime t)) hn
  obtain ⟨r, h4⟩ := amid_octets (by omega) (t + pause) [2, 0, 0, 0, 0xFF, 0] h3 (rest := List.replicate 511 0) (by rw [hfr]; rfl)
    (fun h => by have := congrArg List.length h; rw [List.length_replicate] at this; cases this) (by show 1 + 6 ≤ buflen; omega)
  refine ⟨r, ?_⟩
  rw [mainAll_cons (main_some h1 t), mainAll_cons (main_none _ (t + pause) (t + pause)), h4]
  rfl

/-- C95 with the configured pause is false, for every buffer that CONNECT fits. -/
theorem C95_fails {buflen : Nat} (hb : 7 ≤ buflen) : ¬ Resumes buflen After100ms := by
  intro h
  have hnow : ¬ After100ms (1000 + 1000) (1000 + 1000) := by unfold After100ms; decide
  have hline : Line After100ms [(0, [0xFF, 0])] [(0, [0xFF, 0])]
      ([(1000, 1000, some 2), (1000 + 1000, 1000 + 1000, none)] ++ ([2, 0, 0, 0, 0xFF, 0].map (fun o => (1000 + 1000, 1000 + 1000, some o)) ++ [])) := by
    refine .broken (part := [2]) (rest := [0, 0, 0, 0xFF, 0]) (by decide) (by decide) (.octet (by unfold After100ms; decide) (.pause (by unfold After100ms; decide)))
      (.packet ?_ .nil)
    show Arrives After100ms none [2, 0, 0, 0, 0xFF, 0] _
    exact .octet hnow (.octet hnow (.octet hnow (.octet hnow (.octet hnow .last))))
  obtain ⟨r, qs, h1, h2, -⟩ := h _ _ _ hline (by
    intro cp hcp
    simp only [List.cons_append, List.nil_append, List.mem_cons, List.not_mem_nil, or_false] at hcp
    rcases hcp with rfl | rfl <;> simp <;> omega)
  obtain ⟨r', h3⟩ := C95_fails_stuck hb 1000 1000 (by decide)
  rw [List.append_nil] at h1
  rw [show (Rcv.init buflen).mainAll ([(1000, 1000, some 2), (1000 + 1000, 1000 + 1000, none)] ++
    [2, 0, 0, 0, 0xFF, 0].map (fun o => (1000 + 1000, 1000 + 1000, some o))) = .ok (r', []) from h3] at h1
  cases h1
  cases h2

/-- A packet that breaks off 10 ms after start-up; 15 ms later CONNECT, with a pause of 5 ms after the header. -/
def Ex.polls : List Poll :=
  [(9, 9, some 2), (10, 10, some 0), (20, 20, none), (21, 21, none), (25, 25, some 2), (25, 25, some 0), (26, 26, some 7), (26, 26, some 0), (31, 31, none),
   (31, 31, some 0xFF), (32, 32, some 0), (500, 500, none)]

theorem Ex.polls_line : Line AfterUptime [(7, [0xFF, 0])] [(0, [0xFF, 0])] Ex.polls := by
  show Line AfterUptime _ _ ([(9, 9, some 2), (10, 10, some 0), (20, 20, none), (21, 21, none)] ++
    ([(25, 25, some 2), (25, 25, some 0), (26, 26, some 7), (26, 26, some 0), (31, 31, none), (31, 31, some 0xFF), (32, 32, some 0)] ++ [(500, 500, none)]))
  refine .broken (part := [2, 0]) (rest := [0, 0, 0xFF, 0]) (by decide) (by decide) ?_ (.packet ?_ (.idle .nil))
  · refine .octet (by unfold AfterUptime; decide) (.octet (by unfold AfterUptime; decide) (.wait ?_ (.pause (by unfold AfterUptime; decide))))
    rintro t ⟨⟩
    unfold AfterUptime
    decide
  · show Arrives AfterUptime none [2, 0, 7, 0, 0xFF, 0] _
    refine .octet (not_afterUptime _) (.octet (not_afterUptime _) (.octet (not_afterUptime _) (.octet (not_afterUptime _) (.wait ?_ (.octet (not_afterUptime _) .last)))))
    rintro t ⟨⟩
    unfold AfterUptime
    decide

example : ((Rcv.init 68).mainAll Ex.polls).toOption.map (fun x => x.2.map delivered) = some [[0xFF, 0]] := by decide +kernel

end Xcp
