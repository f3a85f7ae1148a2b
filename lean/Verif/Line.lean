import Mathlib.Analysis.SpecialFunctions.Complex.Arg
import Mathlib.Data.Real.Sqrt
import Mathlib.Tactic.FieldSimp
import Mathlib.Tactic.Linarith
import Mathlib.Tactic.Ring
/-
  Points and lines of src/math/math_base.h for `double`, in exact (real) arithmetic: rounding is not modelled.

  `std::sqrt`, `std::sin` and `std::cos` are the real functions, `std::atan2( y, x )` is the argument of x + iy.
  Nothing here throws or accesses memory, so the functions are plain functions.
-/
namespace PV.Line

/-- src/math/math_base.h 62-115 -/
@[ext] structure Pt where
  x : ℝ
  y : ℝ

/-- src/math/math_base.cpp 26-30: `isEqual( value1, value2 )` for `double` -/
def isEqual (a b : ℝ) : Prop := |a - b| < 1 / 1000000000

/-- src/math/math_base.cpp 38-42 with the multiplier 10 used by all callers in this file -/
def isEqual10 (a b : ℝ) : Prop := |a - b| < 1 / 1000000000 * 10

/-- `operator==`, src/math/math_base.h 74-77 -/
def Pt.same (p q : Pt) : Prop := isEqual p.x q.x ∧ isEqual p.y q.y

/-- `operator+`, src/math/math_base.h 98-101 -/
def Pt.add (p q : Pt) : Pt := ⟨p.x + q.x, p.y + q.y⟩

/-- `operator-`, src/math/math_base.h 103-106 -/
def Pt.sub (p q : Pt) : Pt := ⟨p.x - q.x, p.y - q.y⟩

/-- `2 * point`, src/math/math_base.h 117-121 -/
def Pt.twice (p : Pt) : Pt := ⟨2 * p.x, 2 * p.y⟩

/-- The two members, src/math/math_base.h 320-321 -/
structure Ln where
  pos : Pt
  dir : Pt

/-- `LineBase2D()`, src/math/math_base.h 171 -/
def defaultLine : Ln := ⟨⟨0, 0⟩, ⟨0, 0⟩⟩

open Classical in
/-- src/math/math_base.h 173-185 -/
noncomputable def through (s e : Pt) : Ln :=
  if s.same e then ⟨s, ⟨1, 0⟩⟩
  else
    let xDiff := e.x - s.x
    let yDiff := e.y - s.y
    let length := Real.sqrt (xDiff * xDiff + yDiff * yDiff)
    ⟨s, ⟨xDiff / length, yDiff / length⟩⟩

/-- src/math/math_base.h 188-193 -/
noncomputable def atAngle (p : Pt) (angle : ℝ) : Ln := ⟨p, ⟨Real.cos angle, Real.sin angle⟩⟩

/-- `std::atan2( y, x )`. src/math/math_base.h 214, 316. -/
noncomputable def atan2 (y x : ℝ) : ℝ := Complex.arg ⟨x, y⟩

/-- `angle`, src/math/math_base.h 212-215 -/
noncomputable def Ln.angle (l : Ln) : ℝ := atan2 l.dir.y l.dir.x

/-- `operator+`, src/math/math_base.h 201-204 -/
noncomputable def Ln.shift (l : Ln) (offset : Pt) : Ln := atAngle (l.pos.add offset) l.angle

/-- `operator+=`, src/math/math_base.h 206-210 -/
def Ln.shiftBy (l : Ln) (offset : Pt) : Ln := { l with pos := l.pos.add offset }

/-- src/math/math_base.h 226 and 239 -/
def denominator (a b : Ln) : ℝ := a.dir.y * b.dir.x - a.dir.x * b.dir.y

open Classical in
/-- `intersection`, src/math/math_base.h 222-235; `none` is `false`, when the point is not changed. -/
noncomputable def Ln.intersection (a b : Ln) : Option Pt :=
  if isEqual10 (denominator a b) 0 then none
  else
    let offset := a.pos.sub b.pos
    let na := (b.dir.y * offset.x - b.dir.x * offset.y) / denominator a b
    some (a.pos.add ⟨a.dir.x * na, a.dir.y * na⟩)

/-- `isParallel`, src/math/math_base.h 237-241 -/
def Ln.isParallel (a b : Ln) : Prop := isEqual10 (denominator a b) 0

open Classical in
/-- `distance`, src/math/math_base.h 248-257 -/
noncomputable def Ln.distance (l : Ln) (p : Pt) : ℝ :=
  let d := l.dir.y * (p.x - l.pos.x) + l.dir.x * (l.pos.y - p.y)
  if d < 0 then -d else d

/-- `projection`, src/math/math_base.h 259-264 -/
def Ln.projection (l : Ln) (p : Pt) : Pt :=
  let dot := l.dir.x * (p.x - l.pos.x) + l.dir.y * (p.y - l.pos.y)
  l.pos.add ⟨l.dir.x * dot, l.dir.y * dot⟩

/-- `opposite`, src/math/math_base.h 266-269 -/
def Ln.opposite (l : Ln) (p : Pt) : Pt := (l.projection p).twice.sub p

/-- The sums of src/math/math_base.h 277-281 -/
structure Sums where
  x : ℝ
  y : ℝ
  xx : ℝ
  yy : ℝ
  xy : ℝ

/-- One round of the loop, src/math/math_base.h 283-291 -/
def Sums.next (s : Sums) (p : Pt) : Sums := ⟨s.x + p.x, s.y + p.y, s.xx + p.x * p.x, s.yy + p.y * p.y, s.xy + p.x * p.y⟩

open Classical in
/-- `bestFittingLine`, src/math/math_base.h 271-317; the container is the list of its points. -/
noncomputable def bestFittingLine (points : List Pt) : Ln :=
  if points.length < 2 then defaultLine
  else
    let s := points.foldl Sums.next ⟨0, 0, 0, 0, 0⟩
    let n : ℝ := points.length
    let mx := s.x / n
    let my := s.y / n
    let mxx := s.xx / n
    let myy := s.yy / n
    let mxy := s.xy / n
    let sigmaX := mxx - mx * mx
    let sigmaY := myy - my * my
    let direction : Pt := if sigmaX > sigmaY then ⟨mxx - mx * mx, mxy - mx * my⟩ else ⟨mxy - mx * my, myy - my * my⟩
    atAngle ⟨mx, my⟩ (atan2 direction.y direction.x)

end PV.Line
