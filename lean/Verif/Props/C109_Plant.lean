import Verif.Model.Plant
/-
C109: the variables of the example's application stay within the calibrated limits.

True as far as comparisons tell (`C109_limits_partial`, for every arithmetic): nothing is found outside of the limits if
these are in order.  With limits out of order the lower one is not kept (`C109_fails_order`, `C109_fails_negative`), and
a NaN in one of the parameters spoils the variables for ever, also when the parameter is corrected (`C109_fails_nan`,
`C109_fails_nan_sum`).
-/
set_option autoImplicit false
namespace Xcp
namespace Spec
end Spec
open Spec

variable {α : Type}

/-- No number is less than itself; also true of NaN. -/
def Spec.Irreflexive (A : Arith α) : Prop := ∀ a, A.lt a a = false

/-- `t` is found within the limits by comparisons. -/
def Spec.NotOutside (A : Arith α) (low high t : α) : Prop := A.lt t low = false ∧ A.lt high t = false

/-- A number that makes every result it takes part in equal to itself, and every comparison false. -/
def Spec.IsNan (A : Arith α) (n : α) : Prop :=
  (∀ a, A.add a n = n ∧ A.add n a = n ∧ A.sub a n = n ∧ A.sub n a = n ∧ A.mul a n = n ∧ A.mul n a = n) ∧
    ∀ a, A.lt a n = false ∧ A.lt n a = false

theorem clamp_high {A : Arith α} (h : Irreflexive A) (high t : α) : A.lt high (if A.lt high t then high else t) = false := by
  split
  · exact h high
  · rename_i h1; simpa using h1

theorem clamp_low {A : Arith α} (h : Irreflexive A) (low t : α) : A.lt (if A.lt t low then low else t) low = false := by
  split
  · exact h low
  · rename_i h1; simpa using h1

theorem clamp_keeps_low {A : Arith α} {low high t : α} (ho : A.lt high low = false) (ht : A.lt t low = false) :
    A.lt (if A.lt high t then high else t) low = false := by
  split
  · exact ho
  · exact ht

theorem clamp_keeps_high {A : Arith α} {low high t : α} (ho : A.lt high low = false) (ht : A.lt high t = false) :
    A.lt high (if A.lt t low then low else t) = false := by
  split
  · exact ho
  · exact ht

theorem environment_limits {A : Arith α} (h : Irreflexive A) (p : PlantPrm α) (r : Nat) (t : α) :
    A.lt p.limitHigh (environment A p r t) = false ∧
      (A.lt p.limitHigh p.limitLow = false → A.lt (environment A p r t) p.limitLow = false) := by
  exact ⟨clamp_high h _ _, fun ho => clamp_keeps_low ho (clamp_low h _ _)⟩

theorem controllerSum_limits {A : Arith α} (h : Irreflexive A) (p : PlantPrm α) (q sum : α) :
    A.lt (controllerSum A p q sum) (A.ofInt 0) = false ∧
      (A.lt p.maxErrorSum (A.ofInt 0) = false → A.lt p.maxErrorSum (controllerSum A p q sum) = false) := by
  exact ⟨clamp_low h _ _, fun ho => clamp_keeps_high ho (clamp_high h _ _)⟩

/-- C109, partial: after every call the temperature is not above its upper limit, and the heat and the sum are not negative.
If the limits are in order, the temperature is not below its lower limit and the sum not above its limit. The limits
are those of the last call; any calibration before is arbitrary. -/
theorem C109_limits_partial {A : Arith α} (h : Irreflexive A) (x : Plant α) (ps : List (PlantPrm α × Nat)) (p : PlantPrm α) (r : Nat) :
    let y := x.run A (ps ++ [(p, r)])
    A.lt p.limitHigh y.t = false ∧ A.lt y.q (A.ofInt 0) = false ∧ A.lt y.sum (A.ofInt 0) = false ∧
      (A.lt p.limitHigh p.limitLow = false → NotOutside A p.limitLow p.limitHigh y.t) ∧
      (A.lt p.maxErrorSum (A.ofInt 0) = false → NotOutside A (A.ofInt 0) p.maxErrorSum y.sum) := by
  intro y
  have hy : y = (x.run A ps).task A p r := by simp [y, Plant.run]
  have ht := environment_limits h p r (x.run A ps).t
  have hs := controllerSum_limits h p y.q (x.run A ps).sum
  have e1 : y.t = environment A p r (x.run A ps).t := by rw [hy]; rfl
  have e2 : y.sum = controllerSum A p y.q (x.run A ps).sum := by rw [hy]; rfl
  have e3 : A.lt y.q (A.ofInt 0) = false := by rw [hy]; exact clamp_low h _ _
  rw [e1, e2]
  exact ⟨ht.1, e3, hs.1, fun ho => ⟨ht.2 ho, ht.1⟩, fun ho => ⟨hs.1, hs.2 ho⟩⟩

/-- The temperature moves by one step, up or down, or stays, or is set to one of the limits; all three moves happen, depending
on the number drawn. -/
theorem C109_walk (A : Arith α) (x : Plant α) (p : PlantPrm α) (r : Nat) :
    (∃ k : Int, -1 ≤ k ∧ k ≤ 1 ∧ ((r : Int) - 1 - k) % 3 = 0 ∧ (
      let t := A.add x.t (A.mul p.stepSize (A.ofInt k))
      ((x.task A p r).t = t ∧ NotOutside A p.limitLow p.limitHigh t) ∨
        ((x.task A p r).t = p.limitLow ∧ A.lt t p.limitLow = true) ∨
        ((x.task A p r).t = p.limitHigh ∧ (A.lt p.limitHigh t = true ∨ A.lt p.limitHigh p.limitLow = true)))) := by
  refine ⟨randomSlope r, by unfold randomSlope; omega, by unfold randomSlope; omega, by unfold randomSlope; omega, ?_⟩
  have e : (x.task A p r).t = environment A p r x.t := rfl
  rw [e]
  unfold environment NotOutside
  intro t
  show ((if A.lt p.limitHigh (if A.lt t p.limitLow then p.limitLow else t) then p.limitHigh else (if A.lt t p.limitLow then p.limitLow else t)) = t ∧ _) ∨
    ((if A.lt p.limitHigh (if A.lt t p.limitLow then p.limitLow else t) then p.limitHigh else (if A.lt t p.limitLow then p.limitLow else t)) = _ ∧ _) ∨
    ((if A.lt p.limitHigh (if A.lt t p.limitLow then p.limitLow else t) then p.limitHigh else (if A.lt t p.limitLow then p.limitLow else t)) = _ ∧ _)
  cases h1 : A.lt t p.limitLow <;> cases h2 : A.lt p.limitHigh t <;> cases h3 : A.lt p.limitHigh p.limitLow <;> simp [h2, h3]

/-- The heat and the sum of errors of a call within the limits: the heat of the heater and of the environment is added, and
the error times the interval. -/
theorem C109_balance (A : Arith α) (x : Plant α) (p : PlantPrm α) (r : Nat) :
    let y := x.task A p r
    let q := A.add (A.add x.q (A.mul (A.mul x.current p.heaterFactor) p.dt)) (A.mul (A.mul (A.sub y.t x.q) p.envFactor) p.dt)
    let sum := A.add x.sum (A.mul (A.sub p.setpoint y.q) p.dt)
    (A.lt q (A.ofInt 0) = false → y.q = q) ∧ (A.lt q (A.ofInt 0) = true → y.q = A.ofInt 0) ∧
      (A.lt p.maxErrorSum sum = false → A.lt sum (A.ofInt 0) = false → y.sum = sum) := by
  intro y q sum
  refine ⟨fun h => ?_, fun h => ?_, fun h1 h2 => ?_⟩
  · show (if A.lt q (A.ofInt 0) then A.ofInt 0 else q) = q
    rw [h]; rfl
  · show (if A.lt q (A.ofInt 0) then A.ofInt 0 else q) = _
    rw [h]; rfl
  · show (if A.lt (if A.lt p.maxErrorSum sum then p.maxErrorSum else sum) (A.ofInt 0) then A.ofInt 0
      else (if A.lt p.maxErrorSum sum then p.maxErrorSum else sum)) = sum
    simp [h1, h2]

/-- The current follows from the sum: it is the sum times the calibrated factor. -/
theorem C109_current (A : Arith α) (x : Plant α) (ps : List (PlantPrm α × Nat)) (p : PlantPrm α) (r : Nat) :
    (x.run A (ps ++ [(p, r)])).current = A.mul (x.run A (ps ++ [(p, r)])).sum p.ki := by
  simp only [Plant.run, List.foldl_append, List.foldl_cons, List.foldl_nil]
  rfl

/-- With the upper limit below the lower one, the upper one is taken, which is below the lower one. -/
theorem C109_fails_order {A : Arith α} (x : Plant α) (p : PlantPrm α) (r : Nat) (ho : A.lt p.limitHigh p.limitLow = true)
    (ht : A.lt (A.add x.t (A.mul p.stepSize (A.ofInt (randomSlope r)))) p.limitLow = true) :
    (x.task A p r).t = p.limitHigh ∧ A.lt (x.task A p r).t p.limitLow = true := by
  have e : (x.task A p r).t = p.limitHigh := by
    show environment A p r x.t = _
    simp [environment, ht, ho]
  exact ⟨e, by rw [e]; exact ho⟩

/-- With a negative limit of the sum, the sum is above it. -/
theorem C109_fails_negative {A : Arith α} (x : Plant α) (p : PlantPrm α) (r : Nat) (ho : A.lt p.maxErrorSum (A.ofInt 0) = true)
    (hs : A.lt p.maxErrorSum (A.add x.sum (A.mul (A.sub p.setpoint (x.task A p r).q) p.dt)) = true) :
    (x.task A p r).sum = A.ofInt 0 ∧ A.lt p.maxErrorSum (x.task A p r).sum = true := by
  have e : (x.task A p r).sum = A.ofInt 0 := by
    show controllerSum A p (x.task A p r).q x.sum = _
    simp [controllerSum, hs, ho]
  exact ⟨e, by rw [e]; exact ho⟩

theorem task_nan {A : Arith α} {n : α} (hn : IsNan A n) (x : Plant α) (p : PlantPrm α) (r : Nat) (h : x.t = n) :
    x.task A p r = ⟨n, n, n, n⟩ := by
  obtain ⟨ha, hl⟩ := hn
  simp [Plant.task, environment, plantStep, controllerSum, h, ha, hl]

/-- A step size that is NaN makes all variables NaN at the next call, and for ever: whatever the parameters are set to
afterwards, no variable becomes a number again. -/
theorem C109_fails_nan {A : Arith α} {n : α} (hn : IsNan A n) (x : Plant α) (p : PlantPrm α) (r : Nat) (hp : p.stepSize = n)
    (ps : List (PlantPrm α × Nat)) :
    x.run A ((p, r) :: ps) = ⟨n, n, n, n⟩ := by
  have h1 : x.task A p r = ⟨n, n, n, n⟩ := by
    obtain ⟨ha, hl⟩ := hn
    simp [Plant.task, environment, plantStep, controllerSum, hp, ha, hl]
  simp only [Plant.run, List.foldl_cons, h1]
  induction ps with
  | nil => rfl
  | cons a ps ih => simp only [List.foldl_cons]; rw [task_nan hn _ _ _ rfl]; exact ih

/-- A set point that is NaN makes the sum and the current NaN, one call later the heat, and all of them stay so for ever.  The temperature of the environment is not affected. -/
theorem C109_fails_nan_sum {A : Arith α} {n : α} (hn : IsNan A n) (x : Plant α) (p : PlantPrm α) (r : Nat) (hp : p.setpoint = n)
    (pr : PlantPrm α × Nat) (ps : List (PlantPrm α × Nat)) :
    ∃ t, x.run A ((p, r) :: pr :: ps) = ⟨t, n, n, n⟩ := by
  obtain ⟨ha, hl⟩ := hn
  have h1 : (x.task A p r).sum = n ∧ (x.task A p r).current = n := by
    simp [Plant.task, controllerSum, hp, ha, hl]
  have h2 : ∀ (y : Plant α) (q : PlantPrm α × Nat), y.current = n → (y.task A q.1 q.2).q = n ∧ (y.task A q.1 q.2).sum = n ∧
      (y.task A q.1 q.2).current = n := by
    intro y q hy
    simp [Plant.task, plantStep, controllerSum, hy, ha, hl]
  have h3 : ∀ (ps : List (PlantPrm α × Nat)) (y : Plant α), y.q = n ∧ y.sum = n ∧ y.current = n → ∃ t, y.run A ps = ⟨t, n, n, n⟩ := by
    intro ps
    induction ps with
    | nil => intro y hy; obtain ⟨t, q, s, c⟩ := y; simp only at hy; exact ⟨t, by simp only [Plant.run, List.foldl_nil, hy.1, hy.2.1, hy.2.2]⟩
    | cons q ps ih => intro y hy; exact ih _ (h2 y q hy.2.2)
  exact h3 ps ((x.task A p r).task A pr.1 pr.2) (h2 _ pr h1.2)

/-- Tenths, with a NaN. -/
def Ex.tenths : Arith (Option Int) where
  add a b := a.bind fun a => b.map (a + ·)
  sub a b := a.bind fun a => b.map (a - ·)
  mul a b := a.bind fun a => b.map (a * · / 10)
  lt a b := match a, b with
    | some a, some b => a < b
    | _, _ => false
  ofInt n := some (10 * n)

/-- The initial parameters, examples/xcpsim/appl1.c:23-31. -/
def Ex.prm : PlantPrm (Option Int) where
  limitLow := some 650; limitHigh := some 850; stepSize := some 15; envFactor := some 5; heaterFactor := some 5; dt := some 5
  setpoint := some 700; ki := some 25; maxErrorSum := some 1000

/-- The initial values, with -273.1 for absolute zero. -/
def Ex.plant : Plant (Option Int) := ⟨some (-2731), some 0, some 0, some 0⟩

/-- The hypotheses are true of it. -/
example : Irreflexive Ex.tenths ∧ IsNan Ex.tenths none := by
  refine ⟨fun a => ?_, fun a => ?_, fun a => ?_⟩
  · cases a <;> simp [Ex.tenths]
  · cases a <;> simp [Ex.tenths]
  · cases a <;> simp [Ex.tenths]

/-- Three calls; a NaN step size; the parameters restored. -/
example : ((Ex.plant.run Ex.tenths [(Ex.prm, 2), (Ex.prm, 2), (Ex.prm, 0)]).t = some 650) ∧
    (Ex.plant.run Ex.tenths [(Ex.prm, 2), (Ex.prm, 2)]) = ⟨some 665, some 455, some 391, some 977⟩ ∧
    (Ex.plant.run Ex.tenths [(Ex.prm, 2), ({ Ex.prm with stepSize := none }, 2), (Ex.prm, 2)]).t = none := by
  refine ⟨?_, ?_, ?_⟩ <;> decide +kernel

end Xcp
