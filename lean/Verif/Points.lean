import Verif.Rounding
/-
  Model of points and angles: `PointBase2D`, `PointBase3D`, src/math/math_base.h 62-165, `isEqual`, `toRadians` and `toDegrees`,
  src/math/math_base.cpp 26-57.

  Coordinates are of a type `T` with the operations of C++ on it.  Two of them are here: `uint32_t`, and floating-point numbers as
  rational numbers with rounding after each operation (no infinities and no NaN; there is no smallest exponent).
-/
namespace PV.Points

/-- The operations on coordinates which points use. src/math/math_base.h 32-42 (`isEqual`), 62-165. -/
structure Kind (T : Type) where
  add : T → T → T
  sub : T → T → T
  mul : T → T → T
  eq : T → T → Bool

/-- `uint32_t`, with `isEqual` of src/math/math_base.h 32-36 -/
def uint32 : Kind UInt32 where
  add a b := a + b
  sub a b := a - b
  mul a b := a * b
  eq a b := a == b

/-- `double` and `float`: `rnd` rounds to the type, `eps` is `epsilonDouble` or `epsilonFloat`; `isEqual` of
    src/math/math_base.cpp 26-36 -/
def real (rnd : ℚ → ℚ) (eps : ℚ) : Kind ℚ where
  add a b := rnd (a + b)
  sub a b := rnd (a - b)
  mul a b := rnd (a * b)
  eq a b := decide (|rnd (a - b)| < eps)

/-- `isEqual( value1, value2, epsilonMultiplier )`, src/math/math_base.cpp 38-48 -/
def isEqualTimes (rnd : ℚ → ℚ) (eps mult a b : ℚ) : Bool := decide (|rnd (a - b)| < rnd (eps * mult))

/-- `PointBase2D`, src/math/math_base.h 62-115 -/
@[ext] structure P2 (T : Type) where
  x : T
  y : T
deriving DecidableEq

variable {T : Type} (k : Kind T)

/-- `operator==`, src/math/math_base.h 74-77 -/
def P2.eq (p q : P2 T) : Bool := k.eq p.x q.x && k.eq p.y q.y

/-- `operator!=`, src/math/math_base.h 79-82 -/
def P2.ne (p q : P2 T) : Bool := !(p.eq k q)

/-- `operator+=`, src/math/math_base.h 84-89 -/
def P2.addAssign (p q : P2 T) : P2 T := ⟨k.add p.x q.x, k.add p.y q.y⟩

/-- `operator-=`, src/math/math_base.h 91-96 -/
def P2.subAssign (p q : P2 T) : P2 T := ⟨k.sub p.x q.x, k.sub p.y q.y⟩

/-- `operator+`, src/math/math_base.h 98-101 -/
def P2.add (p q : P2 T) : P2 T := ⟨k.add p.x q.x, k.add p.y q.y⟩

/-- `operator-`, src/math/math_base.h 103-106 -/
def P2.sub (p q : P2 T) : P2 T := ⟨k.sub p.x q.x, k.sub p.y q.y⟩

/-- `point * value`, src/math/math_base.h 108-111 -/
def P2.times (p : P2 T) (v : T) : P2 T := ⟨k.mul v p.x, k.mul v p.y⟩

/-- `value * point` with a conversion `cast` of the value, src/math/math_base.h 117-121 -/
def scale {S : Type} (cast : S → T) (v : S) (p : P2 T) : P2 T := ⟨k.mul (cast v) p.x, k.mul (cast v) p.y⟩

/-- `PointBase3D`, src/math/math_base.h 123-165 -/
@[ext] structure P3 (T : Type) extends P2 T where
  z : T
deriving DecidableEq

/-- `operator==`, src/math/math_base.h 135-138 -/
def P3.eq (p q : P3 T) : Bool := p.toP2.eq k q.toP2 && k.eq p.z q.z

/-- `p != q` for 3D points: there is only the operator of the base class, src/math/math_base.h 79-82 -/
def P3.ne (p q : P3 T) : Bool := p.toP2.ne k q.toP2

/-- `operator+=`, src/math/math_base.h 140-145 -/
def P3.addAssign (p q : P3 T) : P3 T := ⟨p.toP2.addAssign k q.toP2, k.add p.z q.z⟩

/-- `operator-=`, src/math/math_base.h 147-152 -/
def P3.subAssign (p q : P3 T) : P3 T := ⟨p.toP2.subAssign k q.toP2, k.sub p.z q.z⟩

/-- `operator+`, src/math/math_base.h 154-157 -/
def P3.add (p q : P3 T) : P3 T := ⟨⟨k.add p.x q.x, k.add p.y q.y⟩, k.add p.z q.z⟩

/-- `operator-`, src/math/math_base.h 159-162 -/
def P3.sub (p q : P3 T) : P3 T := ⟨⟨k.sub p.x q.x, k.sub p.y q.y⟩, k.sub p.z q.z⟩

/-- A call that changes a point. src/math/math_base.h 84-96, 140-152. -/
inductive Step (T : Type) where
  | plus (q : P3 T)
  | minus (q : P3 T)

/-- One call on a 3D point. src/math/math_base.h 140-152. -/
def Step.exec (p : P3 T) : Step T → P3 T
  | .plus q => p.addAssign k q
  | .minus q => p.subAssign k q

/-- A history of calls on a 3D point (the first two coordinates are a 2D point). src/math/math_base.h 140-152. -/
def run (steps : List (Step T)) (p : P3 T) : P3 T := steps.foldl (Step.exec k) p

/-- src/math/math_base.cpp 50-53; `pi` is the constant of src/math/math_base.h 28 -/
def toRadians (rnd : ℚ → ℚ) (pi : ℚ) (angleDegree : ℚ) : ℚ := rnd (rnd (angleDegree * pi) / 180)

/-- src/math/math_base.cpp 55-58 -/
def toDegrees (rnd : ℚ → ℚ) (pi : ℚ) (angleRadians : ℚ) : ℚ := rnd (rnd (angleRadians * 180) / pi)

end PV.Points
