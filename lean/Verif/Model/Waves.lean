import Verif.Model.Base
/-
The signals and the 10 ms event of the Arduino sketch, tools/arduino/hello_xcp/hello_xcp.ino.

The objects of lines 178-183 stand between `#if 0` and `#endif` although `loop` uses them: the model is of the sketch with these
lines compiled.  The templates `Queue` and `Observers` are not in the repository: `Queue` is taken as first in, first out, and
`Observers` as calling `update` of each registered object.  `SineWave` (floating point) is left out.
-/
set_option autoImplicit false
namespace Xcp

/-- `TriangleWave` with the members of `AbstractWave` it uses, tools/arduino/hello_xcp/hello_xcp.ino:41-106. -/
structure Triangle where
  wave : UInt16
  min : UInt16
  max : UInt16
  positive : Bool
deriving DecidableEq, Repr

/-- The constructors, hello_xcp.ino:44, 85: `m_wave` is 0. -/
def Triangle.new (min max : UInt16) : Triangle := ⟨0, min, max, true⟩

/-- `TriangleWave::step`, hello_xcp.ino:88-103, without the call of the observers. -/
def Triangle.step (t : Triangle) : Triangle :=
  if t.positive then
    if t.max ≤ t.wave + 1 then { t with wave := t.max, positive := false } else { t with wave := t.wave + 1 }
  else if t.wave - 1 ≤ t.min then { t with wave := t.min, positive := true }
  else { t with wave := t.wave - 1 }

/-- `SquareWave`, hello_xcp.ino:108-144: `m_min` is 0 and `m_max` 0xFFFF (line 112). -/
structure Square where
  wave : UInt16
  level : UInt16
  skew : UInt16
  raising : Bool
  queue : List UInt16
deriving DecidableEq, Repr

/-- The constructor, hello_xcp.ino:111-117, with `prefill_queue` (lines 134-138). -/
def Square.new (level skew : UInt16) (raising : Bool) : Square := ⟨0, level, skew, raising, List.replicate skew.toNat 0⟩

/-- The value compared with the level and the queue afterwards, hello_xcp.ino:120-124.  Simplification: `pop` of an empty queue gives
0 (it does not happen, C115_square). -/
def Square.delay (q : Square) (value : UInt16) : UInt16 × List UInt16 :=
  if 0 < q.skew then (q.queue.headD 0, q.queue.tail ++ [value]) else (value, q.queue)

/-- `SquareWave::update`, hello_xcp.ino:119-130. -/
def Square.update (q : Square) (value : UInt16) : Square :=
  let d := q.delay value
  let w := if q.level ≤ d.1 then (if q.raising then 0xFFFF else 0) else (if q.raising then 0 else 0xFFFF)
  { q with wave := w, queue := d.2 }

/-- The objects `triangle`, `square0` and `square1`, hello_xcp.ino:179-181, and the variables a tool measures, lines 29-31. -/
structure Waves where
  triangle : Triangle
  square0 : Square
  square1 : Square
  triangleWave : UInt16
  sq0Wave : UInt8
  sq1Wave : UInt8
deriving DecidableEq, Repr

/-- At the start of the sketch, hello_xcp.ino:29-31, 179-181. -/
def Waves.new : Waves := ⟨Triangle.new 0 0xFF, Square.new 64 0 true, Square.new 64 96 false, 0, 0, 0⟩

/-- The calls of `loop` when 10 ms are over, hello_xcp.ino:191-194; `step` notifies the observers, lines 62-69 and 102. -/
def Waves.tick (w : Waves) : Waves :=
  let t := w.triangle.step
  let a := w.square0.update t.wave
  let b := w.square1.update t.wave
  ⟨t, a, b, t.wave, a.wave.toUInt8, b.wave.toUInt8⟩

/-- One pass of `loop` as far as the 10 ms event is concerned, hello_xcp.ino:189-190, 196: `startTime`, then whether event 0 is triggered.
`t` and `u` are the times of the two calls of `millis` in milliseconds since the board was switched on; `millis` gives their lower 32
bits (`unsigned long` of the AVR boards). -/
def loopPass (start : UInt32) (t u : Nat) : UInt32 × Bool :=
  if 10 ≤ UInt32.ofNat t - start then (UInt32.ofNat u, true) else (start, false)

/-- Passes one after the other: the times (second call of `millis`) at which event 0 is triggered. -/
def loopPasses (start : UInt32) : List (Nat × Nat) → List Nat
  | [] => []
  | (t, u) :: ps =>
    let r := loopPass start t u
    if r.2 then u :: loopPasses r.1 ps else loopPasses r.1 ps

end Xcp
