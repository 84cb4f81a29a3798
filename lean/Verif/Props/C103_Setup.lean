import Verif.Model.Setup
import Verif.Props.C49_Ethernet
/-
C103: when the program has started, it serves where the user asked it to; if the operating system refuses that, the program says so and
ends.

On Linux the slave serves exactly if every call succeeds for the first address, but no failure ends the program: the receiving
thread goes on without a socket and reads outside of a buffer (`C103_fails_linux`).  `SO_REUSEADDR` is set too late, so
that a port which is still lingering cannot be used again (`C103_fails_reuse`).  On Windows the first usable
address is served, at port 5555 whatever the options say, or the program ends; only a failed
`getaddrinfo` goes unnoticed as on Linux.  SocketCAN overlooks a failed `bind` and missing filters, Bluetooth and Kvaser go on after most
failures.
-/
set_option autoImplicit false
namespace Xcp
open Spec

/-- `getaddrinfo` as documented: addresses of the family, type and port asked for. -/
def Spec.Honest (os : NetOs) : Prop :=
  ∀ h a, a ∈ os.lookup h → a.family = (if h.v6 then .inet6 else .inet) ∧ a.stream = h.stream ∧ a.port = h.port

/-- The server socket is what the user asked for, at port `port`; with TCP it listens. -/
def Spec.Serves (o : EthOptions) (port : Nat) (x : Setup) : Prop :=
  ∃ i k, x.bound = some i ∧ x.socks[i]? = some k ∧ k.family = (if o.ipv6 then .inet6 else .inet) ∧ k.stream = o.tcp ∧
    k.port = some port ∧ k.listening = o.tcp

/-- The operating system lets us use the address with number `i`. -/
def Spec.Usable (os : NetOs) (o : EthOptions) (i : Nat) (a : AddrInfo) : Prop :=
  a.family ≠ .other ∧ os.socket i a = true ∧ os.bind i a false = true ∧ (o.tcp = true → os.listen i a = true)

/-- The full statement: either the program serves at the port of the options, or it ended. -/
def Spec.ServesOrEnds (o : EthOptions) : SetupEnd Setup → Prop
  | .returned x => Serves o o.port x
  | .exit c => c ≠ 0

/-- C103, Linux, partial: the slave serves where it was told to exactly if the operating system lets us use the first address. -/
theorem C103_linux_partial {os : NetOs} (h : Honest os) (o : EthOptions) :
    Serves o o.port (linuxInit os o) ↔ ∃ a, (os.lookup ⟨o.ipv6, o.tcp, o.port⟩).head? = some a ∧ Usable os o 0 a := by
  unfold linuxInit
  cases hl : os.lookup ⟨o.ipv6, o.tcp, o.port⟩ with
  | nil => simp [Serves]
  | cons a as =>
    obtain ⟨h1, h2, h3⟩ := h _ a (by rw [hl]; exact List.mem_cons_self)
    have h4 : a.family ≠ .other := by rw [h1]; split <;> simp
    simp only [List.head?_cons, Option.some.injEq, exists_eq_left', Usable]
    cases hs : os.socket 0 a
    · simp [Serves]
    cases hb : os.bind 0 a false
    · simp [Serves]
    cases ht : o.tcp <;> cases hi : os.listen 0 a <;> cases hp : os.option <;>
      simp [Serves, h1, h2, h3, ht, h4] <;> simp_all

/-- Otherwise the program goes on without a server socket, after one message. -/
theorem C103_linux_refused {os : NetOs} {o : EthOptions}
    (hn : ¬ ∃ a, (os.lookup ⟨o.ipv6, o.tcp, o.port⟩).head? = some a ∧ os.socket 0 a = true ∧ os.bind 0 a false = true ∧
      (o.tcp = true → os.listen 0 a = true)) :
    (linuxInit os o).bound = none ∧ (linuxInit os o).msgs.length = 1 := by
  unfold linuxInit
  cases hl : os.lookup ⟨o.ipv6, o.tcp, o.port⟩ with
  | nil => simp
  | cons a as =>
    rw [hl] at hn
    simp only [List.head?_cons, Option.some.injEq, exists_eq_left'] at hn
    cases hs : os.socket 0 a
    · simp [hs]
    cases hb : os.bind 0 a false
    · simp [hs, hb]
    cases ht : o.tcp <;> cases hi : os.listen 0 a <;> simp_all

/-- Without a server socket the receiving thread reads outside of its buffer. -/
theorem setup_reads_outside {cfg : Cfg} {tcp : Bool} {junk : List UInt8} (hj : junk.length = 8) {x : Setup} (hx : x.bound = none) {n : Nat}
    (hn : 252 ≤ n) (as : Arrivals) : (Eth.init cfg tcp junk).rxHandler (x.arrivals n as) = .error .bufOob := by
  have h : readHeader tcp junk (List.replicate n .err) = .error .bufOob := by
    have := C49_fails_errors (tcp := tcp) hj (List.replicate (n - 252) .err)
    rwa [List.replicate_append_replicate, show 252 + (n - 252) = n by omega] at this
  unfold Eth.rxHandler Setup.arrivals
  rw [if_pos hx, Eth.rxLoop]
  simp only [Eth.init, h]

/-- C103 fails on Linux: whatever call is refused, the program does not end; its receiving thread, with TCP and with UDP, goes on with errors until it reads
outside of a buffer. -/
theorem C103_fails_linux {os : NetOs} {o : EthOptions}
    (hn : ¬ ∃ a, (os.lookup ⟨o.ipv6, o.tcp, o.port⟩).head? = some a ∧ os.socket 0 a = true ∧ os.bind 0 a false = true ∧
      (o.tcp = true → os.listen 0 a = true))
    (cfg : Cfg) {junk : List UInt8} (hj : junk.length = 8) (as : Arrivals) {n : Nat} (h : 252 ≤ n) :
    (Eth.init cfg o.tcp junk).rxHandler ((linuxInit os o).arrivals n as) = .error .bufOob :=
  setup_reads_outside hj (C103_linux_refused hn).1 h as

/-- An operating system that refuses nothing. -/
def osFine : NetOs :=
  ⟨true, fun h => [⟨if h.v6 then .inet6 else .inet, h.stream, h.port⟩], fun _ _ => true, fun _ _ _ => true, fun _ _ => true, true⟩

example : Serves ⟨true, true, 6000⟩ 6000 (linuxInit osFine ⟨true, true, 6000⟩) := ⟨0, ⟨.inet6, true, some 6000, true, true⟩, by decide⟩
example : Honest osFine := by
  intro h a ha
  simp only [osFine, List.mem_singleton] at ha
  simp [ha]
/-- The port is in use. -/
example : linuxInit { osFine with bind := fun _ _ _ => false } ⟨false, true, 6000⟩ =
    ⟨[⟨.inet, true, none, false, false⟩], none, [.bind]⟩ := by decide

/-- C103 fails for a port that is only lingering, so that `bind` succeeds exactly for sockets with `SO_REUSEADDR` (a connection of a previous
run is in the state TIME_WAIT): whatever the options, the slave does not serve. -/
theorem C103_fails_reuse {os : NetOs} (hb : ∀ i a r, os.bind i a r = r) (o : EthOptions) (port : Nat) :
    ¬ Serves o port (linuxInit os o) := by
  rintro ⟨i, k, h, -⟩
  have := (C103_linux_refused (os := os) (o := o) (by
    rintro ⟨a, -, -, h3, -⟩
    rw [hb] at h3
    cases h3)).1
  rw [this] at h
  cases h

/-- What the loop over the addresses does: it takes the first usable one among those with numbers below 64. -/
theorem winSockets_spec (os : NetOs) (o : EthOptions) : ∀ (as : List AddrInfo) (idx : Nat) (x : Setup), x.bound = none → idx ≤ fdSetSize →
    (∃ j a, as[j]? = some a ∧ idx + j < fdSetSize ∧ Usable os o (idx + j) a ∧
      (∀ j' < j, ∀ a', as[j']? = some a' → ¬ Usable os o (idx + j') a') ∧
      ∃ i, (winSockets os o idx as x).bound = some i ∧
        (winSockets os o idx as x).socks[i]? = some ⟨a.family, a.stream, some a.port, o.tcp, false⟩) ∨
    ((∀ j a, as[j]? = some a → idx + j < fdSetSize → ¬ Usable os o (idx + j) a) ∧ (winSockets os o idx as x).bound = none)
  | [], idx, x, hx, hi => by
    right
    exact ⟨by simp, hx⟩
  | a :: as, idx, x, hx, hi => by
    by_cases he : idx = fdSetSize
    · right
      refine ⟨fun j a _ hj => by omega, ?_⟩
      rw [winSockets, if_pos he]
      exact hx
    have next : ∀ y : Setup, y.bound = none → ¬ Usable os o idx a →
        winSockets os o idx (a :: as) x = winSockets os o (idx + 1) as y →
        (∃ j b, (a :: as)[j]? = some b ∧ idx + j < fdSetSize ∧ Usable os o (idx + j) b ∧
          (∀ j' < j, ∀ a', (a :: as)[j']? = some a' → ¬ Usable os o (idx + j') a') ∧
          ∃ i, (winSockets os o idx (a :: as) x).bound = some i ∧
            (winSockets os o idx (a :: as) x).socks[i]? = some ⟨b.family, b.stream, some b.port, o.tcp, false⟩) ∨
        ((∀ j b, (a :: as)[j]? = some b → idx + j < fdSetSize → ¬ Usable os o (idx + j) b) ∧
          (winSockets os o idx (a :: as) x).bound = none) := by
      intro y hy hu hw
      rw [hw]
      rcases winSockets_spec os o as (idx + 1) y hy (by omega) with ⟨j, b, h1, h2, h3, h4, h5⟩ | ⟨h1, h2⟩
      · left
        refine ⟨j + 1, b, by simpa using h1, by omega, by rw [show idx + (j + 1) = idx + 1 + j by omega]; exact h3, ?_, h5⟩
        intro j' hj' a' ha'
        cases j' with
        | zero =>
          simp only [List.getElem?_cons_zero, Option.some.injEq] at ha'
          subst ha'
          exact hu
        | succ j' =>
          rw [show idx + (j' + 1) = idx + 1 + j' by omega]
          exact h4 j' (by omega) a' (by simpa using ha')
      · right
        refine ⟨?_, h2⟩
        intro j b hb hj
        cases j with
        | zero =>
          simp only [List.getElem?_cons_zero, Option.some.injEq] at hb
          subst hb
          exact hu
        | succ j =>
          rw [show idx + (j + 1) = idx + 1 + j by omega]
          exact h1 j b (by simpa using hb) (by omega)
    by_cases hf : a.family = .other
    · exact next x hx (fun h => h.1 hf) (by rw [winSockets, if_neg he, if_pos hf])
    cases hs : os.socket idx a
    · exact next { x with msgs := x.msgs ++ [.socket] } hx (fun h => by have := h.2.1; rw [hs] at this; cases this)
        (by rw [winSockets, if_neg he, if_neg hf, hs]; simp)
    cases hb : os.bind idx a false
    · exact next { x with socks := x.socks ++ [⟨a.family, a.stream, none, false, false⟩], msgs := x.msgs ++ [.bind] } hx
        (fun h => by have := h.2.2.1; rw [hb] at this; cases this) (by rw [winSockets, if_neg he, if_neg hf, hs, hb]; simp)
    by_cases hl : o.tcp = true → os.listen idx a = true
    · left
      have : (o.tcp && !os.listen idx a) = false := by
        cases ht : o.tcp
        · rfl
        · rw [hl ht]; rfl
      refine ⟨0, a, rfl, by omega, ⟨hf, hs, hb, hl⟩, by intro j' hj'; omega, x.socks.length, ?_, ?_⟩ <;>
        rw [winSockets, if_neg he, if_neg hf, hs, hb, this] <;> simp
    · have h2 : o.tcp = true ∧ os.listen idx a = false := by
        cases ht : o.tcp <;> cases hi : os.listen idx a <;> simp_all
      exact next { x with socks := x.socks ++ [⟨a.family, a.stream, some a.port, false, false⟩], msgs := x.msgs ++ [.listen] } hx
        (fun h => hl h.2.2.2) (by rw [winSockets, if_neg he, if_neg hf, hs, hb, h2.2]; simp [h2.1])

/-- C103, Windows, partial: if `getaddrinfo` finds addresses, the program ends with a failure, or it serves at port 5555; it ends exactly if
`WSAStartup` fails or none of the first 64 addresses is usable. -/
theorem C103_windows_partial {os : NetOs} (h : Honest os) {o : EthOptions} (hl : os.lookup ⟨o.ipv6, o.tcp, 5555⟩ ≠ []) :
    ((∃ c, winInit os o = .exit c ∧ c ≠ 0) ∨ ∃ x, winInit os o = .returned x ∧ Serves o 5555 x) ∧
    ((∃ x, winInit os o = .returned x) ↔ os.startup = true ∧
      ∃ i a, (os.lookup ⟨o.ipv6, o.tcp, 5555⟩)[i]? = some a ∧ i < 64 ∧ Usable os o i a) := by
  unfold winInit
  cases hs : os.startup
  · simp
  simp only [ethDefaultPort]
  obtain ⟨a0, as, ha⟩ := List.exists_cons_of_ne_nil hl
  have hw := winSockets_spec os o (os.lookup ⟨o.ipv6, o.tcp, 5555⟩) 0 ⟨[], none, []⟩ rfl (by decide)
  rw [ha] at hw ⊢
  simp only [Bool.not_true, Bool.false_eq_true, ↓reduceIte]
  rcases hw with ⟨j, a, h1, h2, h3, -, i, h5, h6⟩ | ⟨h1, h2⟩
  · obtain ⟨g1, g2, g3⟩ := h _ a (by rw [ha]; exact List.mem_of_getElem? h1)
    rw [if_neg (by rw [h5]; simp)]
    have hv : ∃ x, (if os.option = true then SetupEnd.returned (winSockets os o 0 (a0 :: as) ⟨[], none, []⟩) else
        .returned { winSockets os o 0 (a0 :: as) ⟨[], none, []⟩ with
          msgs := (winSockets os o 0 (a0 :: as) ⟨[], none, []⟩).msgs ++ [.reuse] }) = .returned x ∧ Serves o 5555 x := by
      cases os.option
      · exact ⟨_, rfl, i, _, h5, h6, g1, g2, by rw [g3], rfl⟩
      · exact ⟨_, rfl, i, _, h5, h6, g1, g2, by rw [g3], rfl⟩
    refine ⟨.inr hv, ?_⟩
    obtain ⟨x, hx, -⟩ := hv
    constructor
    · intro _
      refine ⟨trivial, j, a, h1, by simpa [fdSetSize] using h2, by simpa using h3⟩
    · intro _
      exact ⟨x, hx⟩
  · rw [if_pos h2]
    refine ⟨.inl ⟨2, rfl, by decide⟩, ?_⟩
    constructor
    · rintro ⟨x, hx⟩
      cases hx
    · rintro ⟨-, i, a, hi, hlt, hu⟩
      exact absurd (by simpa using hu) (h1 i a hi (by simpa [fdSetSize] using hlt))

/-- The address served is the first usable one. -/
theorem C103_windows_first {os : NetOs} {o : EthOptions} {x : Setup} (hx : winInit os o = .returned x)
    (hl : os.lookup ⟨o.ipv6, o.tcp, 5555⟩ ≠ []) :
    ∃ j a i, (os.lookup ⟨o.ipv6, o.tcp, 5555⟩)[j]? = some a ∧ Usable os o j a ∧
      (∀ j' < j, ∀ a', (os.lookup ⟨o.ipv6, o.tcp, 5555⟩)[j']? = some a' → ¬ Usable os o j' a') ∧
      x.bound = some i ∧ x.socks[i]? = some ⟨a.family, a.stream, some a.port, o.tcp, false⟩ := by
  unfold winInit at hx
  cases hs : os.startup
  · rw [hs] at hx; simp at hx
  rw [hs] at hx
  simp only [ethDefaultPort, Bool.not_true, Bool.false_eq_true, ↓reduceIte] at hx
  obtain ⟨a0, as, ha⟩ := List.exists_cons_of_ne_nil hl
  have hw := winSockets_spec os o (os.lookup ⟨o.ipv6, o.tcp, 5555⟩) 0 ⟨[], none, []⟩ rfl (by decide)
  rw [ha] at hw hx ⊢
  rcases hw with ⟨j, a, h1, h2, h3, h4, i, h5, h6⟩ | ⟨h1, h2⟩
  · rw [if_neg (by rw [h5]; simp)] at hx
    refine ⟨j, a, i, h1, by simpa using h3, by simpa using h4, ?_⟩
    cases ho : os.option <;> rw [ho] at hx <;> simp only [Bool.false_eq_true, ↓reduceIte, SetupEnd.returned.injEq] at hx <;> subst hx <;>
      exact ⟨h5, h6⟩
  · rw [if_pos h2] at hx
    cases hx

/-- C103 fails on Windows: the port of the options plays no part. -/
theorem C103_fails_port (os : NetOs) (v6 tcp : Bool) (p q : Nat) : winInit os ⟨v6, tcp, p⟩ = winInit os ⟨v6, tcp, q⟩ := by
  have : ∀ as idx x, winSockets os ⟨v6, tcp, p⟩ idx as x = winSockets os ⟨v6, tcp, q⟩ idx as x := by
    intro as
    induction as with
    | nil => intro idx x; rfl
    | cons a as ih =>
      intro idx x
      simp only [winSockets, ih]
  unfold winInit
  simp only [this]

/-- C103 fails on Windows: if `getaddrinfo` fails, the program goes on as on Linux. -/
theorem C103_fails_windows {os : NetOs} {o : EthOptions} (hs : os.startup = true) (hl : os.lookup ⟨o.ipv6, o.tcp, 5555⟩ = [])
    (cfg : Cfg) {junk : List UInt8} (hj : junk.length = 8) (as : Arrivals) {n : Nat} (h : 252 ≤ n) :
    ∃ x, winInit os o = .returned x ∧ ¬ Serves o 5555 x ∧ (Eth.init cfg o.tcp junk).rxHandler (x.arrivals n as) = .error .bufOob := by
  refine ⟨⟨[], none, [.getaddrinfo]⟩, ?_, ?_, setup_reads_outside hj rfl h as⟩
  · unfold winInit
    rw [hs]
    simp [ethDefaultPort, hl]
  · rintro ⟨i, k, h, -⟩
    cases h

/-- The statement as it should be is refuted on Windows even if nothing is refused. -/
theorem C103_fails : ¬ ∀ os o, Honest os → ServesOrEnds o (winInit os o) := by
  intro h
  have := h osFine ⟨false, true, 6000⟩ (by
    intro h a ha
    simp only [osFine, List.mem_singleton] at ha
    simp [ha])
  obtain ⟨i, k, h1, h2, -, -, h3, -⟩ := this
  have e : i = 0 := by
    have : (some 0 : Option Nat) = some i := h1
    cases this
    rfl
  subst e
  have : (some ⟨.inet, true, some 5555, true, false⟩ : Option Sock) = some k := h2
  cases this
  cases h3

/-- The second of three addresses is taken: the first one is in use, its socket stays open. -/
example : winInit { osFine with lookup := fun h => List.replicate 3 ⟨.inet, h.stream, h.port⟩, bind := fun i _ _ => i != 0 } ⟨false, true, 0⟩ =
    .returned ⟨[⟨.inet, true, none, false, false⟩, ⟨.inet, true, some 5555, true, false⟩], some 1, [.bind]⟩ := by decide
example : winInit { osFine with listen := fun _ _ => false } ⟨false, true, 0⟩ = .exit 2 := by decide

/-- C103, SocketCAN, partial: the program ends exactly if one of four calls fails; if the other two succeed, exactly the frames that pass the filters are
received. -/
theorem C103_can_partial (os : CanOs) (fd : Bool) :
    (canInit os fd = none ↔ ¬ (os.socket = true ∧ (fd = true → os.fd = true) ∧ os.stamps = true ∧ os.interf = true)) ∧
    ∀ k, canInit os fd = some k → k.fd = fd ∧
      (os.bind = true → os.filter = true → ∀ inb bc m, k.receives inb bc m = socketPass inb bc m) := by
  obtain ⟨a, b, c, d, e, f⟩ := os
  constructor
  · cases a <;> cases b <;> cases c <;> cases d <;> cases fd <;> simp [canInit]
  · intro k hk
    cases a <;> cases b <;> cases c <;> cases d <;> cases fd <;> simp [canInit] at hk <;> subst hk <;>
      refine ⟨rfl, ?_⟩ <;> intro he hf inb bc m <;> simp_all [CanSock.receives]

/-- C103 fails on SocketCAN: a refused `bind` goes unnoticed, and then nothing is ever received; refused filters go unnoticed, and then every
frame of the bus is executed. -/
theorem C103_fails_can {os : CanOs} {fd : Bool} {k : CanSock} (hk : canInit os fd = some k) :
    (os.bind = false → ∀ inb bc m, k.receives inb bc m = false) ∧
    (os.bind = true → os.filter = false → ∀ inb bc m, k.receives inb bc m = true) := by
  have : k = ⟨fd, os.bind, os.filter⟩ := by
    unfold canInit at hk
    split at hk
    · cases hk
    split at hk
    · cases hk
    split at hk
    · cases hk
    split at hk
    · cases hk
    cases hk
    rfl
  subst this
  constructor
  · intro h inb bc m
    simp [CanSock.receives, h]
  · intro h1 h2 inb bc m
    simp [CanSock.receives, h1, h2]

example : canInit ⟨true, false, true, true, true, true⟩ true = none := by decide
example : canInit ⟨true, false, true, true, false, true⟩ false = some ⟨false, false, true⟩ := by decide

/-- C103, Bluetooth: when the program goes on, it listens exactly if nothing but the announcement failed; there is a message for every failure. -/
theorem C103_bluetooth_partial (os : BtOs) : (btInit os = .exit 1 ↔ os.startup = false) ∧
    ∀ x, btInit os = .returned x →
      (x.listening = true ↔ os.socket = true ∧ os.bind = true ∧ os.name = true ∧ os.listen = true) ∧
      (x.announced = true ↔ x.listening = true ∧ os.service = true) ∧ (x.msgs = [] ↔ x.announced = true) := by
  obtain ⟨a, b, c, d, e, f⟩ := os
  constructor
  · cases a <;> cases b <;> cases c <;> cases d <;> cases e <;> cases f <;> simp [btInit]
  · intro x hx
    cases a <;> cases b <;> cases c <;> cases d <;> cases e <;> cases f <;> simp [btInit] at hx <;> subst hx <;> simp

/-- C103 fails with Bluetooth: a server that does not listen is kept running. -/
theorem C103_fails_bluetooth : ∃ os x, btInit os = .returned x ∧ x.listening = false :=
  ⟨⟨true, true, false, true, true, true⟩, _, rfl, rfl⟩

/-- C103, Kvaser: only a channel that cannot be opened ends the program; every other failure is reported, and the program goes on. -/
theorem C103_kvaser_partial (os : KvOs) : (kvInit os = .exit 1 ↔ os.channel = false) ∧
    ∀ x, kvInit os = .returned x → x.onBus = os.busOn ∧ x.callback = os.callback ∧ x.filtered = os.filter ∧ x.params = os.params ∧
      (x.reported = 0 ↔ os.callback = true ∧ os.params = true ∧ os.scale = true ∧ os.filter = true ∧ os.busOn = true) := by
  obtain ⟨a, b, c, d, e, f⟩ := os
  constructor
  · cases a <;> simp [kvInit]
  · intro x hx
    cases a
    · simp [kvInit] at hx
    · simp only [kvInit, Bool.not_true, Bool.false_eq_true, ↓reduceIte, SetupEnd.returned.injEq] at hx
      subst hx
      refine ⟨rfl, rfl, rfl, rfl, ?_⟩
      cases b <;> cases c <;> cases d <;> cases e <;> cases f <;> simp

/-- C103 fails with Kvaser: a channel that is not on the bus is kept. -/
theorem C103_fails_kvaser : ∃ os x, kvInit os = .returned x ∧ x.onBus = false :=
  ⟨⟨true, true, true, true, true, false⟩, _, rfl, rfl⟩

example : kvInit ⟨true, true, false, true, true, false⟩ = .returned ⟨true, false, true, false, 2⟩ := by decide

end Xcp
