import Mathlib.Data.Rat.Defs
import Mathlib.Data.Rat.Floor
import Mathlib.Algebra.Order.Field.Rat
import Mathlib.Algebra.Order.AbsoluteValue.Basic
import Verif.Arr
/-
  Model of src/math/hough_transform.cpp, the instances for `double` and `float`.

  `fl` is the rounding of the operations of the number type, `rnd` the rounding of `double` operations; exact arithmetic is
  `fun x => x` for both.

  `sin` and `cos` are arbitrary functions, `sort` stands for std::sort.  The state are the two
  output vectors; they are different from the input vector.
-/
namespace PV.Hough

/-- `PointBase2D`. src/math/math_base.h 62-72. -/
structure Pt where
  x : ℚ
  y : ℚ
deriving DecidableEq

/-- The functions of the standard library and the constants of src/math/hough_transform.cpp, lines 28-29. -/
structure Lib where
  sin : ℚ → ℚ
  cos : ℚ → ℚ
  sort : List ℚ → List ℚ
  minStep : ℚ
  minTol : ℚ

/-- `outOnLine` and `outOffLine`. src/math/hough_transform.cpp 36. -/
abbrev Out := List Pt × List Pt

/-- `distanceToLine[i]`. src/math/hough_transform.cpp 92, 95, 107. -/
def rdL (l : List ℚ) (i : Nat) : M Out ℚ :=
  match l[i]? with
  | some v => pure v
  | none => ubE

/-- src/math/hough_transform.cpp 94-98 -/
def advance (ds : List ℚ) (tol : ℚ) : Nat → Nat → M Out Nat
  | 0, _ => ubE
  | f + 1, e => if e < ds.length then do
      let d ← rdL ds e
      if tol < d then pure e else advance ds tol f (e + 1)
    else pure e

/-- `onLinePointCount` and `initialPointId`. src/math/hough_transform.cpp 88-89. -/
structure Window where
  count : Nat
  first : Nat

/-- `size_t` difference. src/math/hough_transform.cpp 100-107. -/
def sub64 (a b : Nat) : Nat := u64 (a + (18446744073709551616 - b))

/-- src/math/hough_transform.cpp 91-104 -/
def scan (fl : ℚ → ℚ) (ds : List ℚ) (range : ℚ) : Nat → Nat → Nat → Window → M Out Window
  | 0, _, _, _ => ubE
  | f + 1, p, e, w => if e < ds.length then do
      let d ← rdL ds p
      let e' ← advance ds (fl (range + d)) fuelMax e
      scan fl ds range f (p + 1) e' (if w.count < sub64 e' p then ⟨sub64 e' p, p⟩ else w)
    else pure w

/-- `point->x * sinVal + point->y * cosVal`. src/math/hough_transform.cpp 82, 133. -/
def dist (fl : ℚ → ℚ) (L : Lib) (angle : ℚ) (p : Pt) : ℚ := fl (fl (p.x * L.sin angle) + fl (p.y * L.cos angle))

/-- `highestPointCount`, `bestAngleId`, `averageDistance`. src/math/hough_transform.cpp 66-68. -/
structure Found where
  count : Nat
  angle : Int
  average : ℚ

/-- src/math/hough_transform.cpp 106-113 -/
def better (fl : ℚ → ℚ) (ds : List ℚ) (id : Int) (w : Window) (b : Found) : M Out Found :=
  if b.count ≤ w.count then do
    let hi ← rdL ds (sub64 (w.first + w.count) 1)
    let lo ← rdL ds w.first
    pure (if b.count < w.count ∨ |fl (fl (hi + lo) / 2)| < |b.average| then ⟨w.count, id, fl (fl (hi + lo) / 2)⟩ else b)
  else pure b

/-- src/math/hough_transform.cpp 72-114: one angle; the counter is an `int`. -/
def tryAngle (fl : ℚ → ℚ) (L : Lib) (input : List Pt) (range : ℚ) (s : Int × ℚ) (b : Found) : M Out Found := do
  let ds := L.sort (input.map (dist fl L s.2))
  let w ← scan fl ds range fuelMax 0 1 ⟨1, 0⟩
  let b ← better fl ds s.1 w b
  if s.1 = 2147483647 then ubE else pure b

/-- `static_cast<int>( v )`. src/math/hough_transform.cpp 60. -/
def toInt32 (v : ℚ) : M Out Int :=
  if (if 0 ≤ v then ⌊v⌋ else ⌈v⌉) < -2147483648 ∨ 2147483647 < (if 0 ≤ v then ⌊v⌋ else ⌈v⌉) then ubE
  else pure (if 0 ≤ v then ⌊v⌋ else ⌈v⌉)

/-- src/math/hough_transform.cpp 116-117 -/
def clearBoth : M Out Unit := fun _ => .ok () ([], [])

/-- `outOffLine.push_back`, `outOnLine.push_back` (src/math/hough_transform.cpp, lines 135-140) -/
def put (off : Bool) (p : Pt) : M Out Unit := fun o =>
  .ok () (if off then (o.1, o.2 ++ [p]) else (o.1 ++ [p], o.2))

/-- src/math/hough_transform.cpp 132-141 -/
def sortPoints (fl : ℚ → ℚ) (L : Lib) (angle lo hi : ℚ) : List Pt → M Out Unit
  | [] => pure ()
  | p :: ps => do
    put (decide (dist fl L angle p < lo) || decide (hi < dist fl L angle p)) p
    sortPoints fl L angle lo hi ps

/-- `angleStep` after src/math/hough_transform.cpp, lines 43-45 -/
def stepOf (L : Lib) (step : ℚ) : ℚ := if step < L.minStep then L.minStep else step

/-- `angleTolerance` after src/math/hough_transform.cpp, lines 47-53 -/
def toleranceOf (L : Lib) (tol step : ℚ) : ℚ :=
  if (if tol < L.minStep then L.minStep else tol) < stepOf L step then stepOf L step
  else if tol < L.minStep then L.minStep else tol

/-- `lineTolerance` after src/math/hough_transform.cpp, lines 55-57 -/
def bandOf (L : Lib) (line : ℚ) : ℚ := if line < L.minTol then L.minTol else line

/-- src/math/hough_transform.cpp 34-144 (`tolerance / step + 0.5` converted to `int`: line 60) -/
def HoughTransform (fl rnd : ℚ → ℚ) (L : Lib) (input : List Pt) (initial tol step line : ℚ) : M Out Bool :=
  if input.length < 2 then pure false else do
    let n ← toInt32 (rnd (fl (toleranceOf L tol step / stepOf L step) + 1 / 2))
    let b ← loop (fun s : Int × ℚ => decide (s.1 ≤ n)) (fun s => (s.1 + 1, fl (s.2 - stepOf L step)))
      (fun s b => tryAngle fl L input (fl (bandOf L line * 2)) s b) fuelMax (-n, -fl (initial - fl (stepOf L step * fl n))) ⟨0, -n, 0⟩
    clearBoth
    sortPoints fl L (-fl (initial + fl (stepOf L step * fl b.angle))) (fl (b.average - bandOf L line)) (fl (b.average + bandOf L line)) input
    pure true

end PV.Hough
