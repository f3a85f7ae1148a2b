import Mathlib.Data.Rat.Defs
import Mathlib.Algebra.Order.Field.Rat
import Mathlib.Algebra.Order.AbsoluteValue.Basic
import Verif.Rounding
import Verif.Rounding24
/-
  Lines of src/math/math_base.h with rounded arithmetic, for `double` and `float`: `rnd` is the rounding after every operation, `fun x => x` for exact
  arithmetic.  `std::sqrt` and the composition of `std::atan2` with `std::cos` and `std::sin` are parameters.

  Not modelled: infinities, NaN, subnormal numbers.  Line.lean has the same functions over the real numbers.
-/
namespace PV.LineFl

/-- src/math/math_base.h 62-115 -/
@[ext] structure Pt where
  x : ℚ
  y : ℚ
deriving DecidableEq

/-- The two members, src/math/math_base.h 320-321 -/
structure Ln where
  pos : Pt
  dir : Pt
deriving DecidableEq

variable (rnd : ℚ → ℚ)

/-- `isEqual( value1, value2 )`, src/math/math_base.cpp 26-36; `eps` is `epsilonDouble` or `epsilonFloat`. -/
def isEqual (eps a b : ℚ) : Bool := |rnd (a - b)| < eps

/-- `operator==`, src/math/math_base.h 74-77 -/
def Pt.same (eps : ℚ) (p q : Pt) : Bool := isEqual rnd eps p.x q.x && isEqual rnd eps p.y q.y

/-- `operator+`, src/math/math_base.h 98-101 -/
def Pt.add (p q : Pt) : Pt := ⟨rnd (p.x + q.x), rnd (p.y + q.y)⟩

/-- `operator-`, src/math/math_base.h 103-106 -/
def Pt.sub (p q : Pt) : Pt := ⟨rnd (p.x - q.x), rnd (p.y - q.y)⟩

/-- `2 * point`, src/math/math_base.h 117-121 -/
def Pt.twice (p : Pt) : Pt := ⟨rnd (2 * p.x), rnd (2 * p.y)⟩

/-- `LineBase2D( start, end )`, src/math/math_base.h 173-185 -/
def through (sqrt : ℚ → ℚ) (eps : ℚ) (s e : Pt) : Ln :=
  if s.same rnd eps e then ⟨s, ⟨1, 0⟩⟩
  else
    let xDiff := rnd (e.x - s.x)
    let yDiff := rnd (e.y - s.y)
    let length := sqrt (rnd (rnd (xDiff * xDiff) + rnd (yDiff * yDiff)))
    ⟨s, ⟨rnd (xDiff / length), rnd (yDiff / length)⟩⟩

/-- `isEqual( value1, value2, epsilonMultiplier )`, src/math/math_base.cpp 38-48; `limit` is the product of epsilon and the multiplier, a `double` in both
    cases. -/
def isNear (limit a b : ℚ) : Bool := |rnd (a - b)| < limit

/-- `epsilonDouble * 10`, src/math/math_base.h 29, 227, 240 -/
def limitDouble : ℚ := double (double (1 / 1000000000) * 10)

/-- `epsilonFloat * 10`: a float made a double, src/math/math_base.h 30, 227, 240 -/
def limitFloat : ℚ := double (single (1 / 100000) * 10)

/-- The denominator, src/math/math_base.h 226, 239 -/
def Ln.denominator (l k : Ln) : ℚ := rnd (rnd (l.dir.y * k.dir.x) - rnd (l.dir.x * k.dir.y))

/-- `isParallel`, src/math/math_base.h 237-241 -/
def Ln.isParallel (limit : ℚ) (l k : Ln) : Bool := isNear rnd limit (l.denominator rnd k) 0

/-- `intersection`, src/math/math_base.h 222-235; the caller's point is set when there is a result. -/
def Ln.intersection (limit : ℚ) (l k : Ln) : Option Pt :=
  if isNear rnd limit (l.denominator rnd k) 0 then none
  else
    let offset := l.pos.sub rnd k.pos
    let na := rnd (rnd (rnd (k.dir.y * offset.x) - rnd (k.dir.x * offset.y)) / l.denominator rnd k)
    some (l.pos.add rnd ⟨rnd (l.dir.x * na), rnd (l.dir.y * na)⟩)

/-- `distance`, src/math/math_base.h 248-257 -/
def Ln.distance (l : Ln) (p : Pt) : ℚ :=
  let d := rnd (rnd (l.dir.y * rnd (p.x - l.pos.x)) + rnd (l.dir.x * rnd (l.pos.y - p.y)))
  if d < 0 then -d else d

/-- `projection`, src/math/math_base.h 259-264 -/
def Ln.projection (l : Ln) (p : Pt) : Pt :=
  let dot := rnd (rnd (l.dir.x * rnd (p.x - l.pos.x)) + rnd (l.dir.y * rnd (p.y - l.pos.y)))
  l.pos.add rnd ⟨rnd (l.dir.x * dot), rnd (l.dir.y * dot)⟩

/-- `opposite`, src/math/math_base.h 266-269 -/
def Ln.opposite (l : Ln) (p : Pt) : Pt := ((l.projection rnd p).twice rnd).sub rnd p

/-- The sums of src/math/math_base.h 277-281 -/
structure Sums where
  x : ℚ
  y : ℚ
  xx : ℚ
  yy : ℚ
  xy : ℚ

/-- One round of the loop, src/math/math_base.h 283-291 -/
def Sums.next (s : Sums) (p : Pt) : Sums :=
  ⟨rnd (s.x + p.x), rnd (s.y + p.y), rnd (s.xx + rnd (p.x * p.x)), rnd (s.yy + rnd (p.y * p.y)), rnd (s.xy + rnd (p.x * p.y))⟩

/-- `bestFittingLine`, src/math/math_base.h 271-317; `unit y x` is `( cos( a ), sin( a ) )` for `a = atan2( y, x )`. -/
def bestFittingLine (unit : ℚ → ℚ → Pt) (points : List Pt) : Ln :=
  if points.length < 2 then ⟨⟨0, 0⟩, ⟨0, 0⟩⟩
  else
    let s := points.foldl (Sums.next rnd) ⟨0, 0, 0, 0, 0⟩
    let n := rnd points.length
    let mx := rnd (s.x / n)
    let my := rnd (s.y / n)
    let mxx := rnd (s.xx / n)
    let myy := rnd (s.yy / n)
    let mxy := rnd (s.xy / n)
    let sigmaX := rnd (mxx - rnd (mx * mx))
    let sigmaY := rnd (myy - rnd (my * my))
    let direction : Pt := if sigmaX > sigmaY then ⟨rnd (mxx - rnd (mx * mx)), rnd (mxy - rnd (mx * my))⟩
      else ⟨rnd (mxy - rnd (mx * my)), rnd (myy - rnd (my * my))⟩
    ⟨⟨mx, my⟩, unit direction.y direction.x⟩

end PV.LineFl
