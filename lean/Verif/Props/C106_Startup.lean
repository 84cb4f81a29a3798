import Verif.Model.Startup
import Verif.Props.C49_Ethernet
/-
C106: what start-up leaves running in the background does not disturb the slave.

On Linux this holds as long as the signal of the timer that `XcpHw_Init` starts is never handled by the thread of the transport
layer.  Otherwise (no `SA_RESTART`) an interrupted `recv` is taken for 255 or 65535 received bytes: the next data are stored
outside of the header buffer, or a packet is put together wrongly; with SocketCAN the process ends.  On macOS the timers that
`XcpHw_Init` starts end the process 3.6 seconds after the start.
-/
set_option autoImplicit false
namespace Xcp
open Spec

/-- C106, partial: on Linux, if the thread of the transport layer never handles the signal, the timer makes no difference. -/
theorem C106_linux_partial (e : Eth) (hs : List EthHappens) (h : EthHappens.timer .tl ∉ hs) :
    e.rxLinux hs = e.rxHandler (hs.filterMap fun | .data bs => some (.data bs) | .timer _ => none) := by
  unfold Eth.rxLinux
  congr 1
  induction hs with
  | nil => rfl
  | cons x hs ih =>
    have ih := ih (fun hh => h (List.mem_cons_of_mem _ hh))
    match x with
    | .data bs => rw [List.filterMap_cons, List.filterMap_cons, ih]; rfl
    | .timer .main => rw [List.filterMap_cons, List.filterMap_cons, ih]; rfl
    | .timer .ui => rw [List.filterMap_cons, List.filterMap_cons, ih]; rfl
    | .timer .xcp => rw [List.filterMap_cons, List.filterMap_cons, ih]; rfl
    | .timer .tl => exact absurd (List.mem_cons_self ..) h

/-- C106, partial: the same with SocketCAN. -/
theorem C106_can_partial (cfg : Cfg) (inb bc : UInt32) : ∀ (hs : List CanHappens) (x : CanSys), (CanHappens.timer .tl ∉ hs) →
    canLinux cfg inb bc x hs =
      (socketRun cfg inb bc x (hs.filterMap fun | .frame env m => some (env, m) | .timer _ => none)).map Life.runs
  | [], x, _ => rfl
  | .frame env m :: hs, x, h => by
    unfold canLinux
    simp only [List.filterMap_cons, socketRun]
    cases socketRx cfg inb bc env x m with
    | error f => rfl
    | ok y => exact C106_can_partial cfg inb bc hs y (fun hh => h (List.mem_cons_of_mem _ hh))
  | .timer .tl :: hs, x, h => absurd (List.mem_cons_self ..) h
  | .timer .main :: hs, x, h => C106_can_partial cfg inb bc hs x (fun hh => h (List.mem_cons_of_mem _ hh))
  | .timer .ui :: hs, x, h => C106_can_partial cfg inb bc hs x (fun hh => h (List.mem_cons_of_mem _ hh))
  | .timer .xcp :: hs, x, h => C106_can_partial cfg inb bc hs x (fun hh => h (List.mem_cons_of_mem _ hh))

/-- One whole packet in one piece. -/
theorem rx_packet {e : Eth} (hj : e.junk.length = 8) (ht : e.tcp = true) {c : UInt16} {p : List UInt8} (hp : p ≠ []) (hl : p.length < 65536)
    (hrx : p.length ≤ e.rx.length) (hc : p.length ≤ e.ctoIn.length) (rest : Arrivals) (fuel : Nat) :
    ∃ rx ctoIn, rx.length = e.rx.length ∧ ctoIn.length = e.ctoIn.length ∧
      e.rxLoop (fuel + 1) (.data (framed c p) :: rest) =
        match Eth.rxLoop { e with rx, ctoIn } fuel rest with
        | .error f => .error f
        | .ok (ps, r) => .ok (⟨p.length, ctoIn⟩ :: ps, r) := by
  have hn : 0 < p.length := List.length_pos_iff.mpr hp
  have hfl := framed_length' c p
  have hh : ∃ x, readHeader e.tcp e.junk (.data (framed c p) :: rest) = .ok (.done (p.length, x) (.data p :: rest)) := by
    refine ⟨headerWord (storeAt e.junk 0 ((framed c p).take 4)) 2, ?_⟩
    simp only [readHeader, readHeaderLoop, Nat.min_eq_left (by omega : 4 ≤ (framed c p).length)]
    have h8 : (storeAt e.junk 0 ((framed c p).take 4)).length = 8 := by
      rw [storeAt_length (by rw [List.length_take, hj]; omega), hj]
    rw [if_neg (by omega), if_neg (by omega), if_pos trivial, if_neg (by omega)]
    have e1 : headerWord (storeAt e.junk 0 ((framed c p).take 4)) 0 = p.length := by
      simp [headerWord, framed, storeAt]
      omega
    have e2 : leftover e.tcp (framed c p) 4 rest = .data p :: rest := by
      unfold leftover
      rw [if_pos ⟨ht, by omega⟩]
      simp [framed]
    rw [e1, e2]
  obtain ⟨x, hh⟩ := hh
  have hd : readData e.tcp e.rx p.length (.data p :: rest) = .ok (.done (storeAt e.rx 0 p) rest) := by
    unfold readData
    rw [if_neg (by omega), readDataLoop]
    simp only [Nat.min_self]
    rw [if_neg (by omega), if_neg (by omega), if_pos trivial, List.take_length]
    simp [leftover]
  refine ⟨storeAt e.rx 0 p, storeAt e.ctoIn 0 ((storeAt e.rx 0 p).take p.length), storeAt_length (by omega), ?_, ?_⟩
  · rw [storeAt_length]
    rw [List.length_take, storeAt_length (by omega)]
    omega
  · rw [Eth.rxLoop]
    simp only [hh, hd]
    rw [if_neg (by omega)]
    rfl

theorem rx_interrupted {bs : List UInt8} (hb : bs ≠ []) (rest : Arrivals) : ∀ (ps : List (UInt16 × List UInt8)) (fuel : Nat) (e : Eth),
    e.junk.length = 8 → e.tcp = true → ps.length < fuel →
    (∀ cp ∈ ps, cp.2 ≠ [] ∧ cp.2.length < 65536 ∧ cp.2.length ≤ e.rx.length ∧ cp.2.length ≤ e.ctoIn.length) →
    e.rxLoop fuel (ps.map (fun cp => .data (framed cp.1 cp.2)) ++ .err :: .data bs :: rest) = .error .bufOob
  | _, 0, _, _, _, h, _ => absurd h (by omega)
  | [], fuel + 1, e, hj, ht, _, _ => by
    have hl : bs.length ≠ 0 := fun h => hb (List.length_eq_zero_iff.mp h)
    have : readHeader e.tcp e.junk (.err :: .data bs :: rest) = .error .bufOob := by
      simp only [readHeader, readHeaderLoop, hj]
      rw [if_neg (by omega), if_neg (by omega), if_pos (by omega)]
    rw [Eth.rxLoop]
    simp only [List.map_nil, List.nil_append, this]
  | cp :: ps, fuel + 1, e, hj, ht, hf, hps => by
    obtain ⟨h1, h2, h3, h4⟩ := hps cp (List.mem_cons_self ..)
    obtain ⟨rx, ctoIn, g1, g2, g3⟩ := rx_packet hj ht (c := cp.1) h1 h2 h3 h4
      (ps.map (fun cp => .data (framed cp.1 cp.2)) ++ .err :: .data bs :: rest) fuel
    rw [List.map_cons, List.cons_append, g3]
    have := rx_interrupted hb rest ps fuel { e with rx, ctoIn } hj ht (by simp at hf; omega) (by
      intro x hx
      obtain ⟨k1, k2, k3, k4⟩ := hps x (List.mem_cons_of_mem _ hx)
      exact ⟨k1, k2, by rw [show ({ e with rx, ctoIn } : Eth).rx = rx from rfl, g1]; exact k3,
        by rw [show ({ e with rx, ctoIn } : Eth).ctoIn = ctoIn from rfl, g2]; exact k4⟩)
    rw [this]

theorem size_data (ps : List (UInt16 × List UInt8)) (as : Arrivals) :
    ps.length + as.size ≤ Arrivals.size (ps.map (fun cp => Arrival.data (framed cp.1 cp.2)) ++ as) := by
  induction ps with
  | nil => simp
  | cons cp ps ih =>
    simp only [Arrivals.size, List.map_cons, List.cons_append, List.sum_cons, List.length_cons] at ih ⊢
    omega

/-- C106 is false on Linux: the tool sends any number of packets and then nothing for a while; the signal of the timer is handled by
the thread that waits for the next header; whatever the tool sends next is stored outside of the header buffer. -/
theorem C106_fails_tcp {cfg : Cfg} {junk : List UInt8} (hj : junk.length = 8) {ps : List (UInt16 × List UInt8)}
    (hps : ∀ cp ∈ ps, cp.2 ≠ [] ∧ cp.2.length ≤ cfg.maxCto) (hmax : cfg.maxCto < 65536) {bs : List UInt8} (hb : bs ≠ []) (rest : List EthHappens) :
    (Eth.init cfg true junk).rxLinux (ps.map (fun cp => .data (framed cp.1 cp.2)) ++ .timer .tl :: .data bs :: rest) =
      .error .bufOob := by
  unfold Eth.rxLinux Eth.rxHandler
  have e1 : (ps.map (fun cp => EthHappens.data (framed cp.1 cp.2)) ++ .timer .tl :: .data bs :: rest).filterMap EthHappens.seen =
      ps.map (fun cp => Arrival.data (framed cp.1 cp.2)) ++ .err :: .data bs :: rest.filterMap EthHappens.seen := by
    rw [List.filterMap_append]
    congr 1
    · induction ps with
      | nil => rfl
      | cons cp ps ih => rw [List.map_cons, List.map_cons, List.filterMap_cons, ih (fun x hx => hps x (List.mem_cons_of_mem _ hx))]; rfl
  rw [e1]
  refine rx_interrupted hb _ ps _ _ hj rfl ?_ ?_
  · have := size_data ps (.err :: .data bs :: rest.filterMap EthHappens.seen)
    omega
  · intro cp hcp
    obtain ⟨h1, h2⟩ := hps cp hcp
    refine ⟨h1, by omega, ?_, ?_⟩
    · simp only [Eth.init, List.length_replicate, commBufLen]; omega
    · simp only [Eth.init, List.length_replicate]; omega

/-- C106 is false on Linux: the signal arrives while the receiver waits for the second part `y` of a packet `x ++ y`.  The packet it
puts together lacks the last byte of `x` and ends with the first byte of what follows. -/
theorem C106_fails_body {buf x y zs : List UInt8} {z : UInt8} (hx : x ≠ []) (hy : y ≠ []) (hl : x.length + y.length < 65535)
    (hb : x.length + y.length ≤ buf.length) (rest : Arrivals) :
    ∃ buf' rest', readData true buf (x.length + y.length) (.data x :: .err :: .data (y ++ z :: zs) :: rest) = .ok (.done buf' rest') ∧
      buf'.take (x.length + y.length) = x.dropLast ++ y ++ [z] ∧ rest' = (if zs = [] then rest else .data zs :: rest) := by
  have h1 : 0 < x.length := List.length_pos_iff.mpr hx
  have h2 : 0 < y.length := List.length_pos_iff.mpr hy
  have hs : (storeAt buf 0 x).length = buf.length := storeAt_length (by omega)
  refine ⟨storeAt (storeAt buf 0 x) (x.length - 1) (y ++ [z]), if zs = [] then rest else .data zs :: rest, ?_, ?_, rfl⟩
  · unfold readData
    rw [if_neg (by omega), readDataLoop]
    simp only [Nat.min_eq_right (by omega : x.length ≤ x.length + y.length), List.take_length]
    rw [if_neg (by omega), if_neg (by omega), if_neg (by omega), readDataLoop]
    rw [if_neg (by omega), readDataLoop]
    have hm : min ((x.length + y.length - x.length + 1) % 65536) (y ++ z :: zs).length = y.length + 1 := by
      simp only [List.length_append, List.length_cons]
      omega
    have hoff : (0 + x.length + 65535) % 65536 = x.length - 1 := by omega
    simp only [hm, hoff]
    rw [if_neg (by omega), if_neg (by rw [hs]; omega), if_pos (by omega)]
    have ht : (y ++ z :: zs).take (y.length + 1) = y ++ [z] := by
      rw [List.take_append]; simp [List.take_of_length_le (by omega : y.length ≤ y.length + 1)]
    have hlo : leftover true (y ++ z :: zs) (y.length + 1) rest = if zs = [] then rest else .data zs :: rest := by
      unfold leftover
      have hd : (y ++ z :: zs).drop (y.length + 1) = zs := by
        rw [List.drop_append]; simp
      rw [hd]
      cases zs with
      | nil => rw [if_neg (by simp), if_pos rfl]
      | cons a zs => rw [if_pos (by simp), if_neg (by simp)]
    rw [ht, hlo]
  · unfold storeAt
    have : (List.take 0 buf ++ x ++ List.drop (0 + x.length) buf).take (x.length - 1) = x.dropLast := by
      rw [List.take_zero, List.nil_append, List.take_append_of_le_length (by omega), List.dropLast_eq_take]
    rw [this, List.take_append_of_le_length (by simp; omega), List.append_assoc]
    apply List.take_of_length_le
    simp; omega

/-- C106 is false with SocketCAN: after any frames that are handled, the process ends with exit code 9 when the thread that reads
the bus handles the signal. -/
theorem C106_fails_can (cfg : Cfg) (inb bc : UInt32) (rest : List CanHappens) : ∀ (fs : List (Env × CanMsg)) (x y : CanSys),
    socketRun cfg inb bc x fs = .ok y →
    canLinux cfg inb bc x (fs.map (fun f => .frame f.1 f.2) ++ .timer .tl :: rest) = .ok (.ended 9)
  | [], _, _, _ => rfl
  | f :: fs, x, y, h => by
    unfold socketRun at h
    simp only [List.map_cons, List.cons_append]
    unfold canLinux
    cases hx : socketRx cfg inb bc f.1 x f.2 with
    | error e => rw [hx] at h; cases h
    | ok x' =>
      rw [hx] at h
      exact C106_fails_can cfg inb bc rest fs x' y h

/-- Blocks run in the order in which they are due; `a` and `b` count the times the timers have fired.  Cancel handlers come any time. -/
inductive Spec.MacTimely : List MacBlock → Nat → Nat → Prop where
  | nil : MacTimely [] 0 0
  | tick1 {bs : List MacBlock} {a b : Nat} (h : MacTimely bs a b) (before : ∀ k, k < b → macDue2 k ≤ macDue1 a) (after : macDue1 a ≤ macDue2 b) :
      MacTimely (bs ++ [.tick1]) (a + 1) b
  | tick2 {bs : List MacBlock} {a b : Nat} (h : MacTimely bs a b) (before : ∀ k, k < a → macDue1 k ≤ macDue2 b) (after : macDue2 b ≤ macDue1 a) :
      MacTimely (bs ++ [.tick2]) a (b + 1)
  | cancel1 {bs : List MacBlock} {a b : Nat} (h : MacTimely bs a b) : MacTimely (bs ++ [.cancel1]) a b
  | cancel2 {bs : List MacBlock} {a b : Nat} (h : MacTimely bs a b) : MacTimely (bs ++ [.cancel2]) a b

theorem Spec.MacTimely.bounds {bs : List MacBlock} {a b : Nat} (h : MacTimely bs a b) :
    (0 < b → macDue2 (b - 1) ≤ macDue1 a) ∧ (0 < a → macDue1 (a - 1) ≤ macDue2 b) := by
  unfold macDue1 macDue2
  induction h with
  | nil => exact ⟨fun h => by omega, fun h => by omega⟩
  | tick1 h h1 h2 ih =>
    unfold macDue1 macDue2 at h2
    refine ⟨fun hb => ?_, fun _ => by simpa using h2⟩
    have := ih.1 hb
    omega
  | tick2 h h1 h2 ih =>
    unfold macDue1 macDue2 at h2
    refine ⟨fun _ => by simpa using h2, fun ha => ?_⟩
    have := ih.2 ha
    omega
  | cancel1 h ih => exact ih
  | cancel2 h ih => exact ih

theorem mac_snoc (t : MacTimers) (bs : List MacBlock) (x : MacBlock) : t.run (bs ++ [x]) = (t.run bs).run1 x := by
  unfold MacTimers.run
  rw [List.foldl_append]
  rfl

theorem mac_stays {t : MacTimers} (h : (t.due1 = true ∧ t.live1 = false) ∨ t.exited = true) (x : MacBlock) :
    ((t.run1 x).due1 = true ∧ (t.run1 x).live1 = false) ∨ (t.run1 x).exited = true := by
  obtain ⟨i, l1, l2, d1, d2, e⟩ := t
  unfold MacTimers.run1
  cases x <;> simp only [] at h ⊢ <;> repeat' split
  all_goals simp_all

/-- C106 is false on macOS: with the timers firing when they are due, nothing happens until the first one fires for the 14th time, 3.6 seconds
after the start; from then on its cancel handler is due or has ended the process. -/
theorem C106_fails_mac {bs : List MacBlock} {a b : Nat} (h : MacTimely bs a b) :
    (a < 14 → MacTimers.init.run bs = ⟨a + b, true, true, false, false, false⟩) ∧
    (14 ≤ a → (((MacTimers.init.run bs).due1 = true ∧ (MacTimers.init.run bs).live1 = false) ∨ (MacTimers.init.run bs).exited = true) ∧
      (MacTimers.init.run (bs ++ [.cancel1])).exited = true) ∧
    macDue1 13 = 3600 := by
  have key : (a < 14 → MacTimers.init.run bs = ⟨a + b, true, true, false, false, false⟩) ∧
    (14 ≤ a → (((MacTimers.init.run bs).due1 = true ∧ (MacTimers.init.run bs).live1 = false) ∨ (MacTimers.init.run bs).exited = true)) := by
    induction h with
    | nil => exact ⟨fun _ => rfl, fun h => by omega⟩
    | @tick1 bs a b h h1 h2 ih =>
      rw [mac_snoc]
      have hb := h.bounds
      unfold macDue1 macDue2 at hb h2
      constructor
      · intro ha
        rw [ih.1 (by omega)]
        have : ¬ 20 ≤ a + b + 1 := by
          intro hh
          have := hb.1 (by omega)
          omega
        simp only [MacTimers.run1, Bool.not_true, Bool.or_false, Bool.false_eq_true, if_false]
        rw [if_neg this]
        simp only [MacTimers.mk.injEq, and_true]
        omega
      · intro ha
        by_cases hlt : 14 ≤ a
        · exact mac_stays (ih.2 hlt) _
        · rw [ih.1 (by omega)]
          simp only [MacTimers.run1, Bool.not_true, Bool.or_false, Bool.false_eq_true, if_false]
          rw [if_pos (by omega)]
          exact Or.inl ⟨rfl, rfl⟩
    | @tick2 bs a b h h1 h2 ih =>
      rw [mac_snoc]
      have hb := h.bounds
      unfold macDue1 macDue2 at hb h2
      constructor
      · intro ha
        rw [ih.1 ha]
        simp only [MacTimers.run1, Bool.not_true, Bool.or_false, Bool.false_eq_true, if_false]
        rw [if_neg (by omega)]
        simp only [MacTimers.mk.injEq, and_true]
        omega
      · intro ha
        exact mac_stays (ih.2 ha) _
    | cancel1 h ih =>
      rw [mac_snoc]
      exact ⟨fun ha => by rw [ih.1 ha]; rfl, fun ha => mac_stays (ih.2 ha) _⟩
    | cancel2 h ih =>
      rw [mac_snoc]
      exact ⟨fun ha => by rw [ih.1 ha]; rfl, fun ha => mac_stays (ih.2 ha) _⟩
  refine ⟨key.1, fun ha => ⟨key.2 ha, ?_⟩, rfl⟩
  rw [mac_snoc]
  have := key.2 ha
  generalize MacTimers.init.run bs = t at *
  obtain ⟨i, l1, l2, d1, d2, e⟩ := t
  simp only [MacTimers.run1]
  split
  · rename_i hh
    simp only [] at this hh ⊢
    rcases this with ⟨h1, -⟩ | h1
    · rw [h1] at hh; simpa using hh
    · exact h1
  · rfl

/-- C106 is false on macOS whenever the timers fire, on time or not: when the first timer has fired 20 times its cancel handler is due or
has run, and running it ends the process.  Before the timers have fired 20 times together the process does not end. -/
theorem C106_fails_mac_anyway (bs : List MacBlock) :
    (20 ≤ bs.count .tick1 → (MacTimers.init.run (bs ++ [.cancel1])).exited = true) ∧
    (bs.count .tick1 + bs.count .tick2 < 20 → (MacTimers.init.run bs).exited = false) := by
  have key : ∀ bs : List MacBlock, let t := MacTimers.init.run bs
      ((t.live1 = true ∧ bs.count .tick1 ≤ t.i ∧ bs.count .tick1 < 20) ∨ (t.due1 = true ∧ t.live1 = false) ∨ t.exited = true) ∧
      t.i ≤ bs.count .tick1 + bs.count .tick2 ∧ (t.due1 = true ∨ t.exited = true → 20 ≤ t.i) := by
    intro bs
    rw [← List.reverse_reverse bs]
    induction bs.reverse with
    | nil => refine ⟨Or.inl ⟨rfl, Nat.le_refl _, by decide⟩, Nat.le_refl _, fun h => ?_⟩; simp [MacTimers.run, MacTimers.init] at h
    | cons x bs ih =>
      rw [List.reverse_cons]
      generalize bs.reverse = bs at *
      simp only [mac_snoc, List.count_append]
      obtain ⟨ih1, ih2, ih3⟩ := ih
      generalize MacTimers.init.run bs = t at *
      refine ⟨?_, ?_⟩
      · rcases ih1 with ⟨g1, g2, g3⟩ | g
        · by_cases he : t.exited = true
          · exact Or.inr (mac_stays (Or.inr he) x)
          · cases x <;> simp only [MacTimers.run1, he, g1, Bool.not_true, Bool.or_false, Bool.false_eq_true, if_false] <;> repeat' split
            all_goals simp [g1]
            all_goals first | omega | skip
        · exact Or.inr (mac_stays g x)
      · cases x <;> simp only [MacTimers.run1] <;> repeat' split
        all_goals simp_all
        all_goals first | omega | exact ⟨by omega, fun h => by have := ih3 h; omega⟩
  refine ⟨fun h => ?_, fun h => ?_⟩
  · obtain ⟨h1, -⟩ := key bs
    rw [mac_snoc]
    have h1 : ((MacTimers.init.run bs).due1 = true ∧ (MacTimers.init.run bs).live1 = false) ∨ (MacTimers.init.run bs).exited = true := by
      rcases h1 with g | g
      · omega
      · exact g
    generalize MacTimers.init.run bs = t at *
    obtain ⟨i, l1, l2, d1, d2, e⟩ := t
    simp only [MacTimers.run1]
    split
    · rename_i hh
      simp only [] at h1 hh ⊢
      rcases h1 with ⟨g, -⟩ | g
      · rw [g] at hh; simpa using hh
      · exact g
    · rfl
  · obtain ⟨-, h2, h3⟩ := key bs
    cases he : (MacTimers.init.run bs).exited with
    | false => rfl
    | true => have := h3 (Or.inr he); omega

/-- Only the first timer ends the process: it does not end as long as the first timer fires only while the timers have fired less than 19
times together. -/
theorem C106_mac_first_only (bs : List MacBlock)
    (h : ∀ pre post, bs = pre ++ .tick1 :: post → pre.count .tick1 + pre.count .tick2 < 19) : (MacTimers.init.run bs).exited = false := by
  have key : ∀ bs : List MacBlock, (∀ pre post, bs = pre ++ .tick1 :: post → pre.count .tick1 + pre.count .tick2 < 19) →
      let t := MacTimers.init.run bs
      t.exited = false ∧ t.due1 = false ∧ t.i ≤ bs.count .tick1 + bs.count .tick2 := by
    intro bs
    rw [← List.reverse_reverse bs]
    induction bs.reverse with
    | nil => exact fun _ => ⟨rfl, rfl, Nat.le_refl _⟩
    | cons x bs ih =>
      rw [List.reverse_cons]
      generalize bs.reverse = bs at *
      intro h
      obtain ⟨h1, h2, h3⟩ := ih (fun pre post e => h pre (post ++ [x]) (by rw [e]; simp))
      have hx : x = .tick1 → bs.count .tick1 + bs.count .tick2 < 19 := fun e => h bs [] (by rw [e])
      simp only [mac_snoc, List.count_append]
      generalize MacTimers.init.run bs = t at *
      cases x with
      | tick1 =>
        have := hx rfl
        simp only [MacTimers.run1]
        split
        · exact ⟨h1, h2, by omega⟩
        · rw [if_neg (by omega)]
          exact ⟨h1, h2, by simp; omega⟩
      | tick2 =>
        simp only [MacTimers.run1]
        split
        · exact ⟨h1, h2, by omega⟩
        · split <;> exact ⟨h1, h2, by simp; omega⟩
      | cancel1 =>
        simp only [MacTimers.run1, h2]
        rw [if_pos (by simp)]
        exact ⟨h1, h2, by omega⟩
      | cancel2 =>
        simp only [MacTimers.run1]
        split <;> exact ⟨h1, h2, by simp; omega⟩
  exact (key bs h).1

/-- The first 20 blocks when both timers are on time (the second one first when both are due), and the end. -/
example : let bs := [.tick2, .tick1, .tick1, .tick1, .tick2, .tick1, .tick1, .tick2, .tick1, .tick1, .tick1, .tick2, .tick1, .tick1, .tick2, .tick1, .tick1, .tick1,
      .tick2, .tick1]
    MacTimers.init.run bs = ⟨20, false, true, true, false, false⟩ ∧ (MacTimers.init.run (bs ++ [.cancel1])).exited = true := by
  decide

/-- CONNECT in two pieces with the signal in between: the packet is `0x00 0x05` when the next packet comes, CONNECT is lost. -/
example : (do
    let (ps, r) ← (Eth.init Ex.sim true (List.replicate 8 0)).rxLinux
      [.timer .main, .data [2, 0, 0, 0, 0xFF], .timer .xcp, .timer .tl, .data [0], .data [5, 0, 1, 0, 0xFD, 0, 0, 0, 0]]
    pure (ps.map delivered, r.1) : Except Fault (List (List UInt8) × RxEnd)).toOption = some ([[0, 5]], .emptyData) := by decide +kernel

/-- And without the signal. -/
example : (do
    let (ps, r) ← (Eth.init Ex.sim true (List.replicate 8 0)).rxLinux
      [.timer .main, .data [2, 0, 0, 0, 0xFF], .timer .xcp, .data [0], .data [1, 0, 1, 0, 0xFD]]
    pure (ps.map delivered, r.1) : Except Fault (List (List UInt8) × RxEnd)).toOption = some ([[0xFF, 0], [0xFD]], .released) := by decide +kernel

end Xcp
