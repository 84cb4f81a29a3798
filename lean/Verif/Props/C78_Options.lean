import Verif.Model.Options
/-
C78: the command line options take effect.
-/
set_option autoImplicit false
namespace Xcp
namespace Spec
end Spec
open Spec

/-- What the user asks for. -/
inductive Spec.EthOpt where
  | tcp | udp | v4 | v6
  | port (text : Arg)
deriving DecidableEq, Repr

/-- The words on the command line. -/
def Spec.EthOpt.words : EthOpt → List Arg
  | .tcp => [['-', 't']]
  | .udp => [['-', 'u']]
  | .v4 => [['-', '4']]
  | .v6 => [['-', '6']]
  | .port text => [['-', 'p'], text]

/-- The text is the decimal numeral of `n`. -/
def Spec.IsDecimal (s : Arg) (n : Nat) : Prop :=
  ∃ ds : List Nat, ds ≠ [] ∧ (∀ d ∈ ds, d < 10) ∧ s = ds.map Nat.digitChar ∧ n = ds.foldl (fun a d => 10 * a + d) 0

/-- The last port asked for, 5555 if there is none. -/
def Spec.LastPort (os : List EthOpt) (n : Nat) : Prop :=
  (n = 5555 ∧ ∀ s, .port s ∉ os) ∨
  ∃ a s b, os = a ++ .port s :: b ∧ IsDecimal s n ∧ ∀ s', .port s' ∉ b

/-- How often the protocol is chosen, and the version of IP. -/
def Spec.protos (os : List EthOpt) : Nat := os.count .tcp + os.count .udp
def Spec.versions (os : List EthOpt) : Nat := os.count .v4 + os.count .v6

/-- What `getopt` makes of an option. -/
def optOf : EthOpt → GetOpt
  | .tcp => ('t', none)
  | .udp => ('u', none)
  | .v4 => ('4', none)
  | .v6 => ('6', none)
  | .port s => ('p', some s)

theorem getopts_append (os : List EthOpt) (ws : List Arg) :
    getopts ethOpts none ((os.map EthOpt.words).flatten ++ ws) = os.map optOf ++ getopts ethOpts none ws := by
  induction os with
  | nil => rfl
  | cons o os ih =>
    rw [List.map_cons, List.flatten_cons, List.map_cons, List.cons_append, ← ih]
    cases o <;> rfl

theorem getopts_words (os : List EthOpt) : getopts ethOpts none (os.map EthOpt.words).flatten = os.map optOf := by
  simpa [getopts] using getopts_append os []

theorem digitChar_digit {d : Nat} (h : d < 10) : (Nat.digitChar d).isDigit = true ∧ (Nat.digitChar d).toNat - 48 = d := by
  have : ∀ x : Fin 10, (Nat.digitChar x.1).isDigit = true ∧ (Nat.digitChar x.1).toNat - 48 = x.1 := by decide
  exact this ⟨d, h⟩

theorem atoiDigits_digits {ds : List Nat} (h : ∀ d ∈ ds, d < 10) : ∀ acc, atoiDigits acc (ds.map Nat.digitChar) = ds.foldl (fun a d => 10 * a + d) acc := by
  induction ds with
  | nil => intro acc; rfl
  | cons d ds ih =>
    intro acc
    obtain ⟨h1, h2⟩ := digitChar_digit (h d (List.mem_cons_self ..))
    rw [List.map_cons, atoiDigits, if_pos h1, h2, ih (fun x hx => h x (List.mem_cons_of_mem _ hx)), List.foldl_cons, Nat.mul_comm]

theorem digitChar_other {d : Nat} (h : d < 10) : Nat.digitChar d ≠ '-' ∧ Nat.digitChar d ≠ '+' ∧
    ¬ (Nat.digitChar d = ' ' ∨ Nat.digitChar d = '\t' ∨ Nat.digitChar d = '\n' ∨ Nat.digitChar d = '\r' ∨ (Nat.digitChar d).toNat = 11 ∨ (Nat.digitChar d).toNat = 12) := by
  have : ∀ x : Fin 10, Nat.digitChar x.1 ≠ '-' ∧ Nat.digitChar x.1 ≠ '+' ∧
    ¬ (Nat.digitChar x.1 = ' ' ∨ Nat.digitChar x.1 = '\t' ∨ Nat.digitChar x.1 = '\n' ∨ Nat.digitChar x.1 = '\r' ∨ (Nat.digitChar x.1).toNat = 11 ∨ (Nat.digitChar x.1).toNat = 12) := by decide
  exact this ⟨d, h⟩

theorem atoi_decimal {s : Arg} {n : Nat} (h : IsDecimal s n) (hn : n ≤ 2147483647) : atoi s = some (n : Int) := by
  obtain ⟨ds, h1, h2, rfl, rfl⟩ := h
  cases ds with
  | nil => exact absurd rfl h1
  | cons d ds =>
    obtain ⟨h3, h4, h5⟩ := digitChar_other (h2 d (List.mem_cons_self ..))
    have e := atoiDigits_digits h2 0
    simp only [List.map_cons] at e ⊢
    unfold atoi
    rw [List.dropWhile_cons_of_neg (by simpa using h5)]
    rw [atoiSigned, if_neg h3, if_neg h4, e]
    simp only
    rw [if_pos (by omega)]

/-- The effect of the loop. -/
theorem loop_ok {os : List EthOpt} : ∀ {o : EthOptions} {p v : Bool}, (∀ s, .port s ∈ os → ∃ n, IsDecimal s n ∧ n ≤ 65535) →
    (p = true → protos os = 0) → protos os ≤ 1 → (v = true → versions os = 0) → versions os ≤ 1 →
    ∃ port, parseEthLoop o p v (os.map optOf) =
      .ok ⟨if .v6 ∈ os then true else if .v4 ∈ os then false else o.ipv6, if .udp ∈ os then false else if .tcp ∈ os then true else o.tcp, port⟩ ∧
      ((port = o.port ∧ ∀ s, .port s ∉ os) ∨ ∃ a s b, os = a ++ .port s :: b ∧ IsDecimal s port ∧ ∀ s', .port s' ∉ b) := by
  induction os with
  | nil => intro o p v _ _ _ _ _; exact ⟨o.port, by simp [parseEthLoop], Or.inl ⟨rfl, by simp⟩⟩
  | cons x os ih =>
    intro o p v hport hp hp1 hv hv1
    have hport' : ∀ s, .port s ∈ os → ∃ n, IsDecimal s n ∧ n ≤ 65535 := fun s hs => hport s (List.mem_cons_of_mem _ hs)
    have lift : ∀ {port : Nat} {q : Nat}, (∀ s, x ≠ .port s) → 
        ((port = q ∧ ∀ s, .port s ∉ os) ∨ ∃ a s b, os = a ++ .port s :: b ∧ IsDecimal s port ∧ ∀ s', .port s' ∉ b) →
        ((port = q ∧ ∀ s, .port s ∉ x :: os) ∨ ∃ a s b, x :: os = a ++ .port s :: b ∧ IsDecimal s port ∧ ∀ s', .port s' ∉ b) := by
      intro port q hx h
      rcases h with ⟨h1, h2⟩ | ⟨a, s, b, h1, h2, h3⟩
      · exact Or.inl ⟨h1, fun s hs => by rcases List.mem_cons.mp hs with h | h; exact hx s h.symm; exact h2 s h⟩
      · exact Or.inr ⟨x :: a, s, b, by rw [h1]; rfl, h2, h3⟩
    cases x with
    | tcp =>
      simp only [protos, versions, List.count_cons] at hp hp1 hv hv1
      simp only [beq_iff_eq, reduceCtorEq, if_true, if_false, beq_self_eq_true, Nat.add_zero] at hp hp1 hv hv1
      have hpf : p = false := by cases p; rfl; have := hp rfl; first | omega | exact this.elim | simp at this
      have h0 : os.count .tcp = 0 ∧ os.count .udp = 0 := by omega
      obtain ⟨port, h1, h2⟩ := ih (o := { o with tcp := true }) (p := true) (v := v) hport' (fun _ => by simp [protos, h0]) (by simp [protos, h0]) hv hv1
      refine ⟨port, ?_, lift (by simp) h2⟩
      have hu : EthOpt.udp ∉ os := List.count_eq_zero.mp h0.2
      have ht : EthOpt.tcp ∉ os := List.count_eq_zero.mp h0.1
      rw [List.map_cons, optOf, parseEthLoop, hpf]
      simp only [h1, hu, ht, List.mem_cons, reduceCtorEq, false_or, or_false, if_true, if_false]
      simp
    | udp =>
      simp only [protos, versions, List.count_cons] at hp hp1 hv hv1
      simp only [beq_iff_eq, reduceCtorEq, if_true, if_false, beq_self_eq_true, Nat.add_zero] at hp hp1 hv hv1
      have hpf : p = false := by cases p; rfl; have := hp rfl; first | omega | exact this.elim | simp at this
      have h0 : os.count .tcp = 0 ∧ os.count .udp = 0 := by omega
      obtain ⟨port, h1, h2⟩ := ih (o := { o with tcp := false }) (p := true) (v := v) hport' (fun _ => by simp [protos, h0]) (by simp [protos, h0]) hv hv1
      refine ⟨port, ?_, lift (by simp) h2⟩
      have hu : EthOpt.udp ∉ os := List.count_eq_zero.mp h0.2
      have ht : EthOpt.tcp ∉ os := List.count_eq_zero.mp h0.1
      rw [List.map_cons, optOf, parseEthLoop, hpf]
      simp only [h1, hu, ht, List.mem_cons, reduceCtorEq, false_or, or_false, if_true, if_false]
      simp
    | v4 =>
      simp only [protos, versions, List.count_cons] at hp hp1 hv hv1
      simp only [beq_iff_eq, reduceCtorEq, if_true, if_false, beq_self_eq_true, Nat.add_zero] at hp hp1 hv hv1
      have hvf : v = false := by cases v; rfl; have := hv rfl; first | omega | exact this.elim | simp at this
      have h0 : os.count .v4 = 0 ∧ os.count .v6 = 0 := by omega
      obtain ⟨port, h1, h2⟩ := ih (o := { o with ipv6 := false }) (p := p) (v := true) hport' hp hp1 (fun _ => by simp [versions, h0]) (by simp [versions, h0])
      refine ⟨port, ?_, lift (by simp) h2⟩
      have hu : EthOpt.v4 ∉ os := List.count_eq_zero.mp h0.1
      have ht : EthOpt.v6 ∉ os := List.count_eq_zero.mp h0.2
      rw [List.map_cons, optOf, parseEthLoop, hvf]
      simp only [h1, hu, ht, List.mem_cons, reduceCtorEq, false_or, or_false, if_true, if_false]
      simp
    | v6 =>
      simp only [protos, versions, List.count_cons] at hp hp1 hv hv1
      simp only [beq_iff_eq, reduceCtorEq, if_true, if_false, beq_self_eq_true, Nat.add_zero] at hp hp1 hv hv1
      have hvf : v = false := by cases v; rfl; have := hv rfl; first | omega | exact this.elim | simp at this
      have h0 : os.count .v4 = 0 ∧ os.count .v6 = 0 := by omega
      obtain ⟨port, h1, h2⟩ := ih (o := { o with ipv6 := true }) (p := p) (v := true) hport' hp hp1 (fun _ => by simp [versions, h0]) (by simp [versions, h0])
      refine ⟨port, ?_, lift (by simp) h2⟩
      have hu : EthOpt.v4 ∉ os := List.count_eq_zero.mp h0.1
      have ht : EthOpt.v6 ∉ os := List.count_eq_zero.mp h0.2
      rw [List.map_cons, optOf, parseEthLoop, hvf]
      simp only [h1, hu, ht, List.mem_cons, reduceCtorEq, false_or, or_false, if_true, if_false]
      simp
    | port s =>
      simp only [protos, versions, List.count_cons] at hp hp1 hv hv1
      simp only [beq_iff_eq, reduceCtorEq, if_false, Nat.add_zero] at hp hp1 hv hv1
      obtain ⟨n, hn, hn1⟩ := hport s (List.mem_cons_self ..)
      obtain ⟨port, h1, h2⟩ := ih (o := { o with port := n }) (p := p) (v := v) hport' hp hp1 hv hv1
      refine ⟨port, ?_, ?_⟩
      · rw [List.map_cons, optOf, parseEthLoop]
        have he : ((n : Int) % 65536).toNat = n := by omega
        simp only [Option.getD_some, atoi_decimal hn (by omega), he, h1, List.mem_cons, reduceCtorEq, false_or]
        simp
      · rcases h2 with ⟨h3, h4⟩ | ⟨a, s', b, h3, h4, h5⟩
        · right
          refine ⟨[], s, os, rfl, ?_, h4⟩
          rw [h3]; exact hn
        · exact Or.inr ⟨.port s :: a, s', b, by rw [h3]; rfl, h4, h5⟩

/-- C78, POSIX: options in any order that name protocol and version at most once, and ports up to 65535, take effect:
UDP exactly if asked for, IPv6 exactly if asked for, the last port. -/
theorem C78_posix_partial {os : List EthOpt} (hport : ∀ s, .port s ∈ os → ∃ n, IsDecimal s n ∧ n ≤ 65535)
    (hp : protos os ≤ 1) (hv : versions os ≤ 1) :
    ∃ o, parseEth (os.map EthOpt.words).flatten = .ok o ∧ (o.tcp = false ↔ .udp ∈ os) ∧ (o.ipv6 = true ↔ .v6 ∈ os) ∧
      LastPort os (listenPort false o) := by
  unfold parseEth
  rw [getopts_words]
  obtain ⟨port, h1, h2⟩ := loop_ok (o := ⟨false, true, ethDefaultPort⟩) (p := false) (v := false) hport (by simp) hp (by simp) hv
  refine ⟨_, h1, ?_, ?_, ?_⟩
  · by_cases h : EthOpt.udp ∈ os <;> simp [h]
  · by_cases h : EthOpt.v6 ∈ os <;> simp [h]
  · rcases h2 with h2 | h2
    · exact Or.inl h2
    · exact Or.inr h2

/-- Once the protocol has been chosen a second choice ends the program. -/
theorem loop_conflict {os : List EthOpt} : ∀ {o : EthOptions} {p v : Bool}, (∀ s, .port s ∈ os → ∃ n, IsDecimal s n ∧ n ≤ 65535) →
    ((if p then 1 else 0) + protos os > 1 ∨ (if v then 1 else 0) + versions os > 1) → parseEthLoop o p v (os.map optOf) = .exit 1 := by
  induction os with
  | nil => intro o p v _ h; rcases h with h | h <;> simp [protos, versions] at h <;> split at h <;> omega
  | cons x os ih =>
    intro o p v hport h
    have hport' : ∀ s, .port s ∈ os → ∃ n, IsDecimal s n ∧ n ≤ 65535 := fun s hs => hport s (List.mem_cons_of_mem _ hs)
    simp only [protos, versions, List.count_cons] at h
    cases x with
    | tcp =>
      simp only [beq_iff_eq, reduceCtorEq, if_true, if_false, beq_self_eq_true, Nat.add_zero] at h
      rw [List.map_cons, optOf, parseEthLoop]
      cases p with
      | true => simp
      | false => simp [ih (o := { o with tcp := true }) (p := true) (v := v) hport' (by simp only [protos, versions, Bool.false_eq_true, if_true, if_false] at h ⊢; omega)]
    | udp =>
      simp only [beq_iff_eq, reduceCtorEq, if_true, if_false, beq_self_eq_true, Nat.add_zero] at h
      rw [List.map_cons, optOf, parseEthLoop]
      cases p with
      | true => simp
      | false => simp [ih (o := { o with tcp := false }) (p := true) (v := v) hport' (by simp only [protos, versions, Bool.false_eq_true, if_true, if_false] at h ⊢; omega)]
    | v4 =>
      simp only [beq_iff_eq, reduceCtorEq, if_true, if_false, beq_self_eq_true, Nat.add_zero] at h
      rw [List.map_cons, optOf, parseEthLoop]
      cases v with
      | true => simp
      | false => simp [ih (o := { o with ipv6 := false }) (p := p) (v := true) hport' (by simp only [protos, versions, Bool.false_eq_true, if_true, if_false] at h ⊢; omega)]
    | v6 =>
      simp only [beq_iff_eq, reduceCtorEq, if_true, if_false, beq_self_eq_true, Nat.add_zero] at h
      rw [List.map_cons, optOf, parseEthLoop]
      cases v with
      | true => simp
      | false => simp [ih (o := { o with ipv6 := true }) (p := p) (v := true) hport' (by simp only [protos, versions, Bool.false_eq_true, if_true, if_false] at h ⊢; omega)]
    | port s =>
      simp only [beq_iff_eq, reduceCtorEq, if_false, Nat.add_zero] at h
      obtain ⟨n, hn, hn1⟩ := hport s (List.mem_cons_self ..)
      rw [List.map_cons, optOf, parseEthLoop]
      have := ih (o := { o with port := ((n : Int) % 65536).toNat }) (p := p) (v := v) hport' h
      simp [atoi_decimal hn (by omega), this]

/-- Contradicting options are refused (but so are options given twice). -/
theorem C78_posix_conflict {os : List EthOpt} (hport : ∀ s, .port s ∈ os → ∃ n, IsDecimal s n ∧ n ≤ 65535)
    (h : (.tcp ∈ os ∧ .udp ∈ os) ∨ (.v4 ∈ os ∧ .v6 ∈ os)) : parseEth (os.map EthOpt.words).flatten = .exit 1 := by
  unfold parseEth
  rw [getopts_words]
  apply loop_conflict hport
  simp only [protos, versions, Bool.false_eq_true, if_false]
  rcases h with ⟨h1, h2⟩ | ⟨h1, h2⟩
  · have := List.count_pos_iff.mpr h1
    have := List.count_pos_iff.mpr h2
    omega
  · have := List.count_pos_iff.mpr h1
    have := List.count_pos_iff.mpr h2
    omega

/-- Nothing after the word `--` is an option. -/
theorem C78_posix_end (os : List EthOpt) (args : List Arg) :
    parseEth ((os.map EthOpt.words).flatten ++ ['-', '-'] :: args) = parseEth (os.map EthOpt.words).flatten := by
  unfold parseEth
  rw [getopts_append, getopts_words]
  simp [getopts]

/-- Options without argument may be written in one word. -/
theorem C78_posix_grouped (os : List EthOpt) (hos : ∀ s, .port s ∉ os) (hne : os ≠ []) (ws : List Arg) :
    parseEth (('-' :: (os.map EthOpt.words).flatten.map (fun w => w.getD 1 '-')) :: ws) = parseEth ((os.map EthOpt.words).flatten ++ ws) := by
  have hcl : ∀ l : List EthOpt, (∀ s, .port s ∉ l) → optCluster ethOpts ((l.map EthOpt.words).flatten.map (fun w => w.getD 1 '-')) = (l.map optOf, none) := by
    intro l
    induction l with
    | nil => intro _; rfl
    | cons o l ih =>
      intro h
      have := ih (fun s hs => h s (List.mem_cons_of_mem _ hs))
      cases o with
      | port s => exact absurd (List.mem_cons_self ..) (h s)
      | tcp | udp | v4 | v6 =>
        simp only [List.map_cons, EthOpt.words, List.flatten_cons, List.cons_append, List.nil_append, optOf]
        rw [optCluster]
        rw [this]
        rfl
  have h := hcl os hos
  unfold parseEth
  rw [getopts_append]
  match os, hne with
  | o :: os, _ =>
    cases o with
    | port s => exact absurd (List.mem_cons_self ..) (hos s)
    | tcp | udp | v4 | v6 =>
      simp only [List.map_cons, EthOpt.words, List.flatten_cons, List.cons_append, List.nil_append] at h ⊢
      rw [getopts]
      simp at h ⊢
      rw [h]
      simp

theorem loop_unknown (ys : List GetOpt) : ∀ (xs : List GetOpt) {o o' : EthOptions} {p v : Bool}, parseEthLoop o p v xs = .ok o' →
    parseEthLoop o p v (xs ++ ('?', none) :: ys) = .exit 0
  | [], o, _, p, v, _ => by simp [parseEthLoop]
  | (c, a) :: xs, o, o', p, v, h => by
    rw [List.cons_append, parseEthLoop]
    rw [parseEthLoop] at h
    split at h
    · cases h
    rename_i h0
    rw [if_neg h0]
    split at h
    · rename_i h1
      rw [if_pos h1]
      split at h
      · cases h
      · rename_i h2; rw [if_neg h2]; exact loop_unknown ys xs h
    rename_i h1
    rw [if_neg h1]
    split at h
    · rename_i h1
      rw [if_pos h1]
      split at h
      · cases h
      · rename_i h2; rw [if_neg h2]; exact loop_unknown ys xs h
    rename_i h1
    rw [if_neg h1]
    split at h
    · rename_i h1
      rw [if_pos h1]
      split at h
      · cases h
      · rename_i h2; rw [if_neg h2]; exact loop_unknown ys xs h
    rename_i h1
    rw [if_neg h1]
    split at h
    · rename_i h1
      rw [if_pos h1]
      split at h
      · cases h
      · rename_i h2; rw [if_neg h2]; exact loop_unknown ys xs h
    rename_i h1
    rw [if_neg h1]
    split at h
    · rename_i h1
      rw [if_pos h1]
      split at h
      · cases h
      · exact loop_unknown ys xs h
    · rename_i h1
      rw [if_neg h1]
      exact loop_unknown ys xs h

/-- A word with an option that does not exist ends the program (with the help text), also a long one like `--help`. -/
theorem C78_posix_unknown {os : List EthOpt} {o : EthOptions} (h : parseEth (os.map EthOpt.words).flatten = .ok o) {c : Char} {cs : List Char}
    (hc : c ∉ "tu46ph".toList) (hd : c = '-' → cs ≠ []) (args : List Arg) :
    parseEth ((os.map EthOpt.words).flatten ++ ('-' :: c :: cs) :: args) = .exit 0 := by
  unfold parseEth at h ⊢
  rw [getopts_words] at h
  rw [getopts_append, getopts, if_neg (fun hh => hd hh.1 hh.2), optCluster]
  have : ethOpts c = .none := by
    simp at hc
    simp [ethOpts, hc]
  rw [this]
  exact loop_unknown _ _ h

/-- Words that do not begin with `-` are skipped, options before and behind count. -/
example : parseEth ["-u6".toList, "file".toList, "-p6000".toList, "--".toList, "-t".toList] = .ok ⟨true, false, 6000⟩ := by decide +kernel

/-- Ports above 65535 are not refused but cut to 16 bits, text counts as 0. -/
theorem C78_port_fails : parseEth ["-p".toList, "71091".toList] = .ok ⟨false, true, 5555⟩ ∧
    parseEth ["-p".toList, "http".toList] = .ok ⟨false, true, 0⟩ := by decide +kernel

theorem atoi_value {s : Arg} {n : Nat} (h : IsDecimal s n) : atoi s = if n ≤ 2147483647 then some (n : Int) else none := by
  split
  · rename_i hn; exact atoi_decimal h hn
  · rename_i hn
    obtain ⟨ds, h1, h2, rfl, rfl⟩ := h
    cases ds with
    | nil => exact absurd rfl h1
    | cons d ds =>
      obtain ⟨h3, h4, h5⟩ := digitChar_other (h2 d (List.mem_cons_self ..))
      have e := atoiDigits_digits h2 0
      simp only [List.map_cons] at e ⊢
      unfold atoi
      rw [List.dropWhile_cons_of_neg (by simpa using h5)]
      rw [atoiSigned, if_neg h3, if_neg h4, e]
      simp only
      rw [if_neg (by omega)]

theorem atoi_negative {s : Arg} {n : Nat} (h : IsDecimal s n) : atoi ('-' :: s) = if n ≤ 2147483648 then some (-(n : Int)) else none := by
  obtain ⟨ds, h1, h2, rfl, rfl⟩ := h
  have e := atoiDigits_digits h2 0
  unfold atoi
  rw [List.dropWhile_cons_of_neg (by decide), atoiSigned, if_pos rfl, e]
  simp only
  split
  · rw [if_pos (by omega)]
  · rw [if_neg (by omega)]

/-- What becomes of any number given as the port: beyond `int` the behaviour is undefined, within it the number is cut to
16 bits, a negative one too. -/
theorem C78_port_overflow {s : Arg} {n : Nat} (h : IsDecimal s n) :
    parseEth ["-p".toList, s] = (if n ≤ 2147483647 then .ok ⟨false, true, n % 65536⟩ else .ub) ∧
    parseEth ["-p".toList, '-' :: s] =
      (if n ≤ 2147483648 then .ok ⟨false, true, (65536 - n % 65536) % 65536⟩ else .ub) := by
  have e : ∀ s : Arg, getopts ethOpts none ["-p".toList, s] = [('p', some s)] := fun s => getopts_words [.port s]
  unfold parseEth
  rw [e, e]
  constructor
  · have l : ∀ v : Option Int, atoi s = v → parseEthLoop ⟨false, true, ethDefaultPort⟩ false false [('p', some s)] =
        match v with | none => .ub | some m => .ok ⟨false, true, (m % 65536).toNat⟩ := by
      rintro v rfl; simp [parseEthLoop]; rfl
    rw [l _ (atoi_value h)]
    by_cases hn : n ≤ 2147483647
    · rw [if_pos hn, if_pos hn]; congr 2
    · rw [if_neg hn, if_neg hn]
  · have l : ∀ v : Option Int, atoi ('-' :: s) = v → parseEthLoop ⟨false, true, ethDefaultPort⟩ false false [('p', some ('-' :: s))] =
        match v with | none => .ub | some m => .ok ⟨false, true, (m % 65536).toNat⟩ := by
      rintro v rfl; simp [parseEthLoop]; rfl
    rw [l _ (atoi_negative h)]
    by_cases hn : n ≤ 2147483648
    · rw [if_pos hn, if_pos hn]
      have : (-(n : Int) % 65536).toNat = (65536 - n % 65536) % 65536 := by omega
      simp only [this]
    · rw [if_neg hn, if_neg hn]

example : parseEth ["-p".toList, "2147483648".toList] = .ub ∧ parseEth ["-p".toList, "-2147483648".toList] = .ok ⟨false, true, 0⟩ ∧
    parseEth ["-p".toList, "-1".toList] = .ok ⟨false, true, 65535⟩ := by decide +kernel

/-- The port shown at start-up is always 5555. -/
theorem C78_shown_fails : ∃ o, parseEth ["-p".toList, "6000".toList] = .ok o ∧ listenPort false o = 6000 ∧ shownPort o = 5555 :=
  ⟨⟨false, true, 6000⟩, by decide +kernel, rfl, rfl⟩

/-- On Windows no port can be chosen, the last of contradicting options counts. -/
theorem C78_windows_fails : (∀ args, listenPort true (parseWin args) = 5555) ∧
    parseWin ["-t".toList, "-u".toList] = ⟨false, false, 0⟩ := ⟨fun _ => rfl, by decide +kernel⟩

theorem win_words {os : List EthOpt} (hport : ∀ s, .port s ∈ os → ∃ n, IsDecimal s n) : ∀ o : EthOptions, ¬ (.tcp ∈ os ∧ .udp ∈ os) → ¬ (.v4 ∈ os ∧ .v6 ∈ os) →
    (((os.map EthOpt.words).flatten.foldl winOpt o).tcp = false ↔ .udp ∈ os ∨ (o.tcp = false ∧ .tcp ∉ os)) ∧
    (((os.map EthOpt.words).flatten.foldl winOpt o).ipv6 = true ↔ .v6 ∈ os ∨ (o.ipv6 = true ∧ .v4 ∉ os)) := by
  induction os with
  | nil => intro o _ _; simp
  | cons x os ih =>
    intro o h1 h2
    have hport' : ∀ s, .port s ∈ os → ∃ n, IsDecimal s n := fun s hs => hport s (List.mem_cons_of_mem _ hs)
    have h1' : ¬ (.tcp ∈ os ∧ .udp ∈ os) := fun h => h1 ⟨List.mem_cons_of_mem _ h.1, List.mem_cons_of_mem _ h.2⟩
    have h2' : ¬ (.v4 ∈ os ∧ .v6 ∈ os) := fun h => h2 ⟨List.mem_cons_of_mem _ h.1, List.mem_cons_of_mem _ h.2⟩
    have ih := fun o => ih hport' o h1' h2'
    cases x with
    | tcp =>
      have hx : EthOpt.udp ∉ os := fun h => h1 ⟨List.mem_cons_self .., List.mem_cons_of_mem _ h⟩
      simp [EthOpt.words, ih, winOpt, hx]
    | udp =>
      have hx : EthOpt.tcp ∉ os := fun h => h1 ⟨List.mem_cons_of_mem _ h, List.mem_cons_self ..⟩
      simp [EthOpt.words, ih, winOpt, hx]
    | v4 =>
      have hx : EthOpt.v6 ∉ os := fun h => h2 ⟨List.mem_cons_self .., List.mem_cons_of_mem _ h⟩
      simp [EthOpt.words, ih, winOpt, hx]
    | v6 =>
      have hx : EthOpt.v4 ∉ os := fun h => h2 ⟨List.mem_cons_of_mem _ h, List.mem_cons_self ..⟩
      simp [EthOpt.words, ih, winOpt, hx]
    | port s =>
      obtain ⟨n, ds, hne, hds, rfl, -⟩ := hport s (List.mem_cons_self ..)
      have e : ∀ o, winOpt o (ds.map Nat.digitChar) = o := by
        intro o
        match ds, hds with
        | [], _ => rfl
        | [_], _ => rfl
        | d :: d' :: ds, hds =>
          have hd : ∀ x : Fin 10, ¬ (Nat.digitChar x.1 = '/' ∨ Nat.digitChar x.1 = '-') := by decide
          simp only [List.map_cons, winOpt]
          rw [if_neg (hd ⟨d, hds d (List.mem_cons_self ..)⟩)]
      have e0 : winOpt o ['-', 'p'] = o := by simp [winOpt]
      simp [EthOpt.words, ih, e, e0]

/-- C78, Windows: options that do not contradict each other choose protocol and version. -/
theorem C78_windows_partial {os : List EthOpt} (hport : ∀ s, .port s ∈ os → ∃ n, IsDecimal s n)
    (hp : ¬ (.tcp ∈ os ∧ .udp ∈ os)) (hv : ¬ (.v4 ∈ os ∧ .v6 ∈ os)) :
    ((parseWin (os.map EthOpt.words).flatten).tcp = false ↔ .udp ∈ os) ∧
    ((parseWin (os.map EthOpt.words).flatten).ipv6 = true ↔ .v6 ∈ os) := by
  have := win_words hport ⟨false, true, 0⟩ hp hv
  simpa [parseWin] using this

/-- Options on CAN. -/
inductive Spec.CanOpt where
  | fd
  | interf (name : Arg)
deriving DecidableEq, Repr

def Spec.CanOpt.words : CanOpt → List Arg
  | .fd => [['-', 'f']]
  | .interf n => [['-', 'i'], n]

theorem can_getopts (os : List CanOpt) : getopts canOpts none (os.map CanOpt.words).flatten =
    os.map fun | .fd => ('f', none) | .interf n => ('i', some n) := by
  induction os with
  | nil => rfl
  | cons o os ih =>
    rw [List.map_cons, List.flatten_cons, List.map_cons, ← ih]
    cases o <;> rfl

theorem can_loop {os : List CanOpt} : ∀ {fd : Bool} {i : Option Arg}, (∀ n, .interf n ∈ os → n.length < 64) →
    ∃ i', parseCanLoop fd i (os.map fun | .fd => ('f', none) | .interf n => ('i', some n)) = .ok (fd || decide (.fd ∈ os), i') ∧
      ((i' = i ∧ ∀ n, .interf n ∉ os) ∨ ∃ a n b, i' = some n ∧ os = a ++ .interf n :: b ∧ ∀ n', .interf n' ∉ b) := by
  induction os with
  | nil => intro fd i _; exact ⟨i, by simp [parseCanLoop], Or.inl ⟨rfl, by simp⟩⟩
  | cons x os ih =>
    intro fd i h
    have h' : ∀ n, .interf n ∈ os → n.length < 64 := fun n hn => h n (List.mem_cons_of_mem _ hn)
    cases x with
    | fd =>
      obtain ⟨i', h1, h2⟩ := ih (fd := true) (i := i) h'
      refine ⟨i', by simp [parseCanLoop, h1], ?_⟩
      rcases h2 with ⟨h3, h4⟩ | ⟨a, n, b, h3, h4, h5⟩
      · exact Or.inl ⟨h3, fun n hn => by simp at hn; exact h4 n hn⟩
      · exact Or.inr ⟨.fd :: a, n, b, h3, by rw [h4]; rfl, h5⟩
    | interf n =>
      obtain ⟨i', h1, h2⟩ := ih (fd := fd) (i := some n) h'
      refine ⟨i', by simp [parseCanLoop, h1, h n (List.mem_cons_self ..)], ?_⟩
      rcases h2 with ⟨h3, h4⟩ | ⟨a, n', b, h3, h4, h5⟩
      · exact Or.inr ⟨[], n, os, h3, rfl, h4⟩
      · exact Or.inr ⟨.interf n :: a, n', b, h3, by rw [h4]; rfl, h5⟩

/-- C78, CAN: CAN FD exactly if asked for, the last interface named or vcan0, for names of less than 16 characters. -/
theorem C78_can_partial {os : List CanOpt} (hn : ∀ n, .interf n ∈ os → n.length < 16) :
    ∃ o, parseCan (os.map CanOpt.words).flatten = .ok o ∧ (o.fd = true ↔ .fd ∈ os) ∧ locateInterface o.interf = .ok o.interf ∧
      ((o.interf = "vcan0".toList ∧ ∀ n, .interf n ∉ os) ∨ ∃ a b, os = a ++ .interf o.interf :: b ∧ ∀ n, .interf n ∉ b) := by
  unfold parseCan
  rw [can_getopts]
  obtain ⟨i', h1, h2⟩ := can_loop (os := os) (fd := false) (i := none) (fun n h => by have := hn n h; omega)
  rw [h1]
  refine ⟨_, rfl, by simp, ?_, ?_⟩
  · rcases h2 with ⟨rfl, -⟩ | ⟨a, n, b, rfl, h4, -⟩
    · rfl
    · have := hn n (by rw [h4]; simp)
      simp [locateInterface, this]
  · rcases h2 with ⟨rfl, h3⟩ | ⟨a, n, b, rfl, h4, h5⟩
    · exact Or.inl ⟨rfl, h3⟩
    · exact Or.inr ⟨a, b, h4, h5⟩

/-- Longer interface names are copied behind the end of an array: at 16 characters the one on the stack, at 64 already
the options. -/
theorem C78_can_fails (n : Arg) :
    (64 ≤ n.length → parseCan ["-i".toList, n] = .ub) ∧
    (n.length < 64 → 16 ≤ n.length → parseCan ["-i".toList, n] = .ok ⟨false, n⟩ ∧ locateInterface n = .ub) := by
  have e : getopts canOpts none ["-i".toList, n] = [('i', some n)] := can_getopts [.interf n]
  unfold parseCan
  rw [e]
  constructor
  · intro h
    simp [parseCanLoop, show ¬ n.length < 64 by omega]
  · intro h1 h2
    simp [parseCanLoop, h1, locateInterface, show ¬ n.length < 16 by omega]

example : parseWin ["/u".toList, "-6".toList] = ⟨true, false, 0⟩ := by decide +kernel

/-- `-u -p 6000 -6` and the same in one word. -/
example : parseEth ["-u".toList, "-p".toList, "6000".toList, "-6".toList] = .ok ⟨true, false, 6000⟩ := by decide +kernel
example : parseEth ["-u6p6000".toList] = .ok ⟨true, false, 6000⟩ := by decide +kernel
/-- Giving an option twice is refused like a contradiction. -/
example : parseEth ["-t".toList, "-t".toList] = .exit 1 := by decide +kernel
example : IsDecimal "6000".toList 6000 := ⟨[6, 0, 0, 0], by decide, by decide, by decide, by decide⟩

end Xcp
