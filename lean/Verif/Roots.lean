import Mathlib.Data.Rat.Defs
import Mathlib.Algebra.Order.Field.Rat
import Mathlib.Algebra.Order.AbsoluteValue.Basic
import Verif.Arr
/-
  Model of `getMatrixRoots` of src/math/math_base.cpp.  The caller's vector `roots` is the state.  `rnd` is the rounding after every operation on
  numbers, `fun x => x` for exact arithmetic.  Infinities and NaN are left out.
-/
namespace PV.Roots

/-- The index `j + k * size` of an element of row `k` and column `j`. src/math/math_base.cpp 70-135. -/
def ix (n j k : Nat) : Nat := u64 (j + u64 (k * n))

/-- Division; undefined for a zero divisor. src/math/math_base.cpp 112, 132. -/
def quot {μ : Type} (rnd : ℚ → ℚ) (a b : ℚ) : M μ ℚ := if b = 0 then ubE else pure (rnd (a / b))

/-- src/math/math_base.cpp 66-70 -/
def initIndices (n : Nat) : M (Arr ℚ) (Arr Nat) :=
  forLoop 0 n (fun i v => forLoop 0 n (fun j v => v.wr (ix n i j) i) v) ⟨u64 (n * n), fun _ => 0⟩

/-- The variables `maxRowId`, `maxColumnId` and `maxCoeff`. src/math/math_base.cpp 77-79. -/
structure Best where
  row : Nat
  col : Nat
  coeff : ℚ

/-- src/math/math_base.cpp 81-90: one element -/
def look (n : Nat) (mat : Arr ℚ) (j k : Nat) (b : Best) : M (Arr ℚ) Best := do
  let v ← mat.rd (ix n j k)
  pure (if |v| > b.coeff then ⟨k, j, |v|⟩ else b)

/-- src/math/math_base.cpp 77-90 -/
def findPivot (n i : Nat) (mat : Arr ℚ) : M (Arr ℚ) Best :=
  forLoop i n (fun j b => forLoop i n (fun k b => look n mat j k b) b) ⟨i, i, 0⟩

/-- The vectors `matrix`, `matrixIndices` and `terms`. src/math/math_base.cpp 66-73. -/
structure St where
  mat : Arr ℚ
  idx : Arr Nat
  terms : Arr ℚ

/-- src/math/math_base.cpp 96-99: exchange of columns `i` and `c` -/
def swapCols (n i c : Nat) (s : St) : M (Arr ℚ) St :=
  forLoop 0 n (fun k s => do
    let mat ← s.mat.swap (ix n i k) (ix n c k)
    let idx ← s.idx.swap (ix n i k) (ix n c k)
    pure ⟨mat, idx, s.terms⟩) s

/-- src/math/math_base.cpp 103-106: exchange of rows `i` and `r` -/
def swapRows (n i r : Nat) (s : St) : M (Arr ℚ) St :=
  forLoop 0 n (fun j s => do
    let mat ← s.mat.swap (ix n j i) (ix n j r)
    let idx ← s.idx.swap (ix n j i) (ix n j r)
    pure ⟨mat, idx, s.terms⟩) s

/-- src/math/math_base.cpp 102-109 -/
def moveRow (n i r : Nat) (s : St) : M (Arr ℚ) St := do
  let s ← swapRows n i r s
  let t ← s.terms.swap i r
  pure ⟨s.mat, s.idx, t⟩

/-- src/math/math_base.cpp 114-115 -/
def subtractRow (rnd : ℚ → ℚ) (n i j : Nat) (f : ℚ) (mat : Arr ℚ) : M (Arr ℚ) (Arr ℚ) :=
  forLoop i n (fun k mat => do
    let a ← mat.rd (ix n k j)
    let b ← mat.rd (ix n k i)
    mat.wr (ix n k j) (rnd (a - rnd (b * f)))) mat

/-- src/math/math_base.cpp 111-118 -/
def eliminate (rnd : ℚ → ℚ) (n i : Nat) (s : St) : M (Arr ℚ) St :=
  forLoop (i + 1) n (fun j s => do
    let a ← s.mat.rd (ix n i j)
    let b ← s.mat.rd (ix n i i)
    let f ← quot rnd a b
    let mat ← subtractRow rnd n i j f s.mat
    let tj ← s.terms.rd j
    let ti ← s.terms.rd i
    let terms ← s.terms.wr j (rnd (tj - rnd (ti * f)))
    pure ⟨mat, s.idx, terms⟩) s

/-- src/math/math_base.cpp 95-100 -/
def pickCol (n i c : Nat) (s : St) : M (Arr ℚ) St := if c != i then swapCols n i c s else pure s

/-- src/math/math_base.cpp 102-109 -/
def pickRow (n i r : Nat) (s : St) : M (Arr ℚ) St := if r != i then moveRow n i r s else pure s

/-- `1e-10` -/
def tiny : ℚ := 1 / 10000000000

/-- src/math/math_base.cpp 76-119: round `i` of the direct method -/
def round (rnd : ℚ → ℚ) (n i : Nat) (s : St) : M (Arr ℚ) St := do
  let b ← findPivot n i s.mat
  throwIf (decide (b.coeff < tiny))
  let s ← pickCol n i b.col s
  let s ← pickRow n i b.row s
  eliminate rnd n i s

/-- src/math/math_base.cpp 128-130 -/
def tailSum (rnd : ℚ → ℚ) (n i : Nat) (mat u : Arr ℚ) : M (Arr ℚ) ℚ :=
  forLoop (i + 1) n (fun k t => do
    let a ← u.rd k
    let b ← mat.rd (ix n k i)
    pure (rnd (t + rnd (a * b)))) 0

/-- src/math/math_base.cpp 124-133: one unknown -/
def backStep (rnd : ℚ → ℚ) (n : Nat) (s : St) (i : Nat) (u : Arr ℚ) : M (Arr ℚ) (Arr ℚ) := do
  let d ← s.mat.rd (ix n i i)
  if |d| < tiny then u.wr i 0 else do
    let t ← tailSum rnd n i s.mat u
    let b ← s.terms.rd i
    let q ← quot rnd (rnd (b - t)) d
    u.wr i q

/-- src/math/math_base.cpp 123-137: `i` runs from `size - 1` down to 0. -/
def backwards (rnd : ℚ → ℚ) (n : Nat) (s : St) : Nat → Arr ℚ → M (Arr ℚ) (Arr ℚ)
  | 0, u => backStep rnd n s 0 u
  | i + 1, u => do
    let u ← backStep rnd n s (i + 1) u
    backwards rnd n s i u

/-- src/math/math_base.cpp 140-141 -/
def results (n : Nat) (s : St) (u : Arr ℚ) : M (Arr ℚ) Unit :=
  forLoop 0 n (fun i _ => do
    let v ← u.rd i
    let p ← s.idx.rd (ix n i i)
    fun roots => match roots.wr p v roots with
      | .ok r _ => .ok () r
      | .throw r => .throw r
      | .ub => .ub) ()

/-- src/math/math_base.cpp 60-142 -/
def getMatrixRoots (rnd : ℚ → ℚ) (a b : Arr ℚ) : M (Arr ℚ) Unit := do
  throwIf (a.len == 0 || b.len == 0 || a.len != u64 (b.len * b.len) || decide (b.len < 2))
  let idx ← initIndices b.len
  let s ← forLoop 0 b.len (fun i s => round rnd b.len i s) ⟨a, idx, b⟩
  let u ← backwards rnd b.len s (b.len - 1) ⟨b.len, fun _ => 0⟩
  results b.len s u

end PV.Roots
