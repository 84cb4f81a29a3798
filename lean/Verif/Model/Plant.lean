/-
The application of the example: a heated mass with a controller, examples/xcpsim/appl1.c.
-/
set_option autoImplicit false
namespace Xcp

/-- The arithmetic of `double`, as far as the program uses it.  Nothing is assumed about it here: rounding, infinities
and NaN are possible. -/
structure Arith (α : Type) where
  add   : α → α → α
  sub   : α → α → α
  mul   : α → α → α
  lt    : α → α → Bool
  ofInt : Int → α

/-- The calibration parameters, examples/xcpsim/appl1.c:23-31 (`float`, exact as `double`). -/
structure PlantPrm (α : Type) where
  limitLow     : α
  limitHigh    : α
  stepSize     : α
  envFactor    : α
  heaterFactor : α
  dt           : α
  setpoint     : α
  ki           : α
  maxErrorSum  : α

/-- The static variables: `t_prev` (line 48), `q_plant` (67), `sum_of_errors` (91) and `current` (106). -/
structure Plant (α : Type) where
  t       : α
  q       : α
  sum     : α
  current : α
deriving DecidableEq

/-- `randomSlope`, examples/xcpsim/appl1.c:38-40; `rand` returns a number that is not negative. -/
def randomSlope (r : Nat) : Int := (r % 3 : Nat) - 1

variable {α : Type}

/-- `environment`, examples/xcpsim/appl1.c:47-58. -/
def environment (A : Arith α) (p : PlantPrm α) (r : Nat) (t : α) : α :=
  let t := A.add t (A.mul p.stepSize (A.ofInt (randomSlope r)))
  let t := if A.lt t p.limitLow then p.limitLow else t
  if A.lt p.limitHigh t then p.limitHigh else t

/-- `plant`, examples/xcpsim/appl1.c:65-80.  The result is the new `q_plant`. -/
def plantStep (A : Arith α) (p : PlantPrm α) (temperature current q : α) : α :=
  let heater := A.mul (A.mul current p.heaterFactor) p.dt
  let env := A.mul (A.mul (A.sub temperature q) p.envFactor) p.dt
  let q := A.add (A.add q heater) env
  if A.lt q (A.ofInt 0) then A.ofInt 0 else q

/-- The sum of `controller`, examples/xcpsim/appl1.c:87-98. -/
def controllerSum (A : Arith α) (p : PlantPrm α) (temperature sum : α) : α :=
  let error := A.sub p.setpoint temperature
  let sum := A.add sum (A.mul error p.dt)
  let sum := if A.lt p.maxErrorSum sum then p.maxErrorSum else sum
  if A.lt sum (A.ofInt 0) then A.ofInt 0 else sum

/-- `AppTask`, examples/xcpsim/appl1.c:103-112, with the number `rand` returns.  Simplification: the parameters do not
change during a call. -/
def Plant.task (A : Arith α) (p : PlantPrm α) (r : Nat) (x : Plant α) : Plant α :=
  let t := environment A p r x.t
  let q := plantStep A p t x.current x.q
  let sum := controllerSum A p q x.sum
  { t, q, sum, current := A.mul sum p.ki }

/-- Calls of the task; the parameters may be calibrated in between. -/
def Plant.run (A : Arith α) (x : Plant α) (ps : List (PlantPrm α × Nat)) : Plant α :=
  ps.foldl (fun x pr => x.task A pr.1 pr.2) x

end Xcp
