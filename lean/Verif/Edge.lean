import Verif.Arr
import Verif.FilterLemmas
import Verif.LoopInv
import Verif.PixelFn
import Verif.Rounding
/-
  Model of src/edge_detection.cpp and src/edge_detection.h, the `double` instance
  (`EdgeDetection`).

  `rnd` is the rounding of `double` operations, `fl` the rounding of `float` operations.
  Local vectors are values (`Arr`); vectors which only grow by `push_back` are lists.
  Signed arithmetic that leaves `int` is undefined.
-/
namespace PV.Edge

variable {μ : Type}

/-- src/edge_detection.h 30-36, `DirectionType` -/
inductive Direction
  | leftToRight
  | rightToLeft
  | topToBottom
  | bottomToTop
deriving DecidableEq, Repr

/-- src/edge_detection.h 39-44, `GradientType` -/
inductive Gradient
  | positive
  | negative
  | any
deriving DecidableEq, Repr

/-- src/edge_detection.h 47-52, `EdgeType` -/
inductive Kind
  | first
  | last
  | all
deriving DecidableEq, Repr

/-- src/edge_detection.h 58-77, `EdgeParameter` -/
structure Params where
  direction : Direction
  gradient : Gradient
  edge : Kind
  group : Nat
  skip : Nat
  left : Nat
  right : Nat
  contrast : Nat

/-- The value of a signed expression of type `int`. src/edge_detection.cpp 83-118, 228-229, 293. -/
def int32 (z : Int) : M μ Int := if -2147483648 ≤ z ∧ z < 2147483648 then pure z else ubE

/-- `static_cast<int>( n )` of a `uint32_t`. src/edge_detection.cpp 126. -/
def toInt (n : Nat) : Int := if n < 2147483648 then n else (n : Int) - 4294967296

/-- src/edge_detection.cpp 29-35, `leaveFirstElement` -/
def leaveFirst (l : List ℚ) : List ℚ := if l.length > 1 then l.take 1 else l

/-- src/edge_detection.cpp 37-45, `leaveLastElement` -/
def leaveLast (l : List ℚ) : List ℚ := if l.length > 1 then l.drop (l.length - 1) else l

/-- src/edge_detection.cpp 47-53, `createPositiveXEdge`: the points added -/
def positiveX (rnd : ℚ → ℚ) (l : List ℚ) (x y : ℚ) : List (ℚ × ℚ) := l.map fun e => (rnd (e + x), y)

/-- src/edge_detection.cpp 55-61, `createNegativeXEdge`: the points added -/
def negativeX (rnd : ℚ → ℚ) (l : List ℚ) (x y : ℚ) : List (ℚ × ℚ) := l.map fun e => (rnd (x - e), y)

/-- src/edge_detection.cpp 63-69, `createPositiveYEdge`: the points added -/
def positiveY (rnd : ℚ → ℚ) (l : List ℚ) (x y : ℚ) : List (ℚ × ℚ) := l.map fun e => (x, rnd (y + e))

/-- src/edge_detection.cpp 71-77, `createNegativeYEdge`: the points added -/
def negativeY (rnd : ℚ → ℚ) (l : List ℚ) (x y : ℚ) : List (ℚ × ℚ) := l.map fun e => (x, rnd (y - e))

/-- One step of `std::max_element` (`larger`) or `std::min_element`. src/edge_detection.cpp 83-84. -/
def extremeStep (larger : Bool) (d : Arr Int) (j : Nat) (best : Int) : M Unit Int := do
  let x ← d.rd j
  pure (if (if larger then best < x else x < best) then x else best)

/-- `*std::max_element( d.begin() + l, d.begin() + e )` (`larger`) and `*std::min_element( … )`, src/edge_detection.cpp 83-84 -/
def extreme (larger : Bool) (d : Arr Int) (l e : Nat) : M Unit Int := do
  let v ← d.rd l
  if l = e then pure v
  else loop (fun j => j != e) (fun j => j + 1) (extremeStep larger d) fuelMax (l + 1) v

/-- One step of `std::accumulate`: the sum is a `float`. src/edge_detection.cpp 97-98. -/
def sumStep (fl : ℚ → ℚ) (d : Arr Int) (j : Nat) (acc : ℚ) : M Unit ℚ := do
  let x ← d.rd j
  pure (fl (acc + fl x))

/-- `std::accumulate( d.begin() + b, d.begin() + e, 0.0f )`, src/edge_detection.cpp 97-98 -/
def accumulate (fl : ℚ → ℚ) (d : Arr Int) (b e : Nat) : M Unit ℚ :=
  loop (fun j => j != e) (fun j => j + 1) (sumStep fl d) fuelMax b 0

/-- src/edge_detection.cpp 90-105: the new value of `checkContrast` -/
def contrastCheck (rnd fl : ℚ → ℚ) (d : Arr Int) (minC : Int) (check : Bool) (left right pos size : Nat) : M Unit Bool :=
  if check ∧ left ≤ pos ∧ u32 (right + pos) < size then do
    let black ← accumulate fl d (usub pos left) (pos + 1)
    let white ← accumulate fl d (u32 (pos + 1)) (u32 (pos + right) + 1)
    let black := rnd (black / u32 (usub pos (usub pos left) + 1))
    let white := rnd (white / u32 (usub (u32 (pos + right)) (u32 (pos + 1)) + 1))
    pure (if rnd (white - black) ≥ minC then false else check)
  else pure check

/-- src/edge_detection.cpp 107-116: the position of an edge -/
def position (rnd : ℚ → ℚ) (second : Arr Int) (pos : Nat) : M Unit ℚ := do
  let a ← second.rd pos
  let b ← second.rd (u32 (pos + 1))
  if a ≠ b then do
    let c ← int32 (a - b)
    pure (rnd (pos + rnd ((a : ℚ) / c)))
  else pure (rnd (pos + 1 / 2))

/-- src/edge_detection.cpp 79-119, `findPoint`: the position pushed, if any -/
def findPoint (rnd fl : ℚ → ℚ) (d second : Arr Int) (l r : Nat) (minC : Int) (check : Bool) (left right pos size : Nat) : M Unit (Option ℚ) := do
  let mx ← extreme true d l (r + 1)
  let mn ← extreme false d l (r + 1)
  let diff ← int32 (mx - mn)
  if diff < minC then pure none
  else do
    let check ← contrastCheck rnd fl d minC check left right pos size
    if check then pure none
    else do
      let p ← position rnd second pos
      pure (some p)

/-- src/edge_detection.cpp 153-156 and 183-186: the first place where the gradient is below one half -/
def normalSide (normal : Option Nat) (v half : Int) (j : Nat) : Option Nat :=
  if normal.isNone ∧ v < half then some j else normal

/-- src/edge_detection.cpp 151-168, the loop to the left: the places found for one half and one third of the gradient -/
def leftScan (first : Arr Int) (half third top : Int) : Nat → Option Nat → M Unit (Option Nat × Option Nat)
  | 0, normal => do
    let v ← first.rd 0
    pure (normalSide normal v half 0, if v < third then some 0 else none)
  | j + 1, normal => do
    let v ← first.rd (j + 1)
    if v < third then pure (normalSide normal v half (j + 1), some (j + 1))
    else if v > top then pure (normalSide normal v half (j + 1), none)
    else leftScan first half third top j (normalSide normal v half (j + 1))

/-- src/edge_detection.cpp 180-194, the loop to the right; `k` is the number of rounds left. -/
def rightScan (first : Arr Int) (half third top : Int) : Nat → Nat → Option Nat → M Unit (Option Nat × Option Nat)
  | 0, _, normal => pure (normal, none)
  | k + 1, j, normal => do
    let v ← first.rd j
    if v < third then pure (normalSide normal v half j, some j)
    else if v > top then pure (normalSide normal v half j, none)
    else rightScan first half third top k (j + 1) (normalSide normal v half j)

/-- `findPoint` is called if both sides were found, src/edge_detection.cpp 200-203 and 205-208. -/
def between (rnd fl : ℚ → ℚ) (d second : Arr Int) (P : Params) (i : Nat) (sides : Option Nat × Option Nat) : M Unit (Option ℚ) :=
  match sides with
  | (some l, some r) => findPoint rnd fl d second l r (toInt (u32 (P.contrast * P.group))) (P.left > 0 && P.right > 0) P.left P.right i d.len
  | _ => pure none

/-- src/edge_detection.cpp 144-208 -/
def searchSides (rnd fl : ℚ → ℚ) (d first second : Arr Int) (P : Params) (i : Nat) (top : Int) : M Unit (Option ℚ) := do
  let third := if top < 3 then 1 else top / 3
  let half := if top < 2 then 1 else top / 2
  let l ← leftScan first half third top i none
  if l.1.isNone && l.2.isNone then pure none
  else do
    let r ← rightScan first half third top (usub d.len 1 - (i + 1)) (i + 1) none
    let e ← between rnd fl d second P i (l.1, r.1)
    if e.isSome then pure e else between rnd fl d second P i (l.2, r.2)

/-- The body of the loop of src/edge_detection.cpp 130-207: the position pushed for `i`, if any -/
def candidate (rnd fl : ℚ → ℚ) (d first second : Arr Int) (P : Params) (i : Nat) : M Unit (Option ℚ) := do
  let a ← second.rd i
  if a < 0 then pure none
  else do
    let b ← second.rd (i + 1)
    if b > 0 then pure none
    else do
      let p ← first.rd i
      let q ← first.rd (i + 1)
      let top := if p > q then p else q
      if top ≤ 0 then pure none else searchSides rnd fl d first second P i top

/-- One round of the loop of `getEdgePoints`. src/edge_detection.cpp 121-208. -/
def edgeStep (rnd fl : ℚ → ℚ) (d first second : Arr Int) (P : Params) (i : Nat) (edge : List ℚ) : M Unit (List ℚ) := do
  let e ← candidate rnd fl d first second P i
  pure (edge ++ e.toList)

/-- src/edge_detection.cpp 121-208, `getEdgePoints` on an empty vector -/
def getEdgePoints (rnd fl : ℚ → ℚ) (d first second : Arr Int) (P : Params) : M Unit (List ℚ) :=
  forLoop 1 (usub d.len 2) (edgeStep rnd fl d first second P) []

/-- src/edge_detection.cpp 210-221, `removeSimilarPoints`; the loop with `erase` is a recursion on the list. -/
def removeSimilar (rnd : ℚ → ℚ) : ℚ → List ℚ → List ℚ
  | a, [] => [a]
  | a, b :: l => if rnd (b - a) < 1 then removeSimilar rnd a l else a :: removeSimilar rnd b l

/-- src/edge_detection.cpp 210-221. -/
def removeSimilarPoints (rnd : ℚ → ℚ) : List ℚ → List ℚ
  | [] => []
  | a :: l => removeSimilar rnd a l

/-- One step of `std::transform( …, std::minus<int>() )` : `out[o + k] = v[k + 1] - v[k]`. src/edge_detection.cpp 228-229. -/
def minusStep (v : Arr Int) (o k : Nat) (out : Arr Int) : M Unit (Arr Int) := do
  let a ← v.rd (k + 1)
  let b ← v.rd k
  let c ← int32 (a - b)
  out.wr (o + k) c

/-- src/edge_detection.cpp 223-230, `getDerivatives` -/
def getDerivatives (d first second : Arr Int) : M Unit (Arr Int × Arr Int) := do
  let first ← forLoop 0 (d.len - 1) (minusStep d 0) first
  let second ← forLoop 0 (first.len - 1) (minusStep first 1) second
  pure (first, second)

/-- `std::reverse`. src/edge_detection.cpp 240. -/
def reversed (d : Arr Int) : Arr Int := ⟨d.len, fun k => if k < d.len then d.at' (d.len - 1 - k) else d.at' k⟩

/-- The vectors of one call which are used again for the next line. src/edge_detection.cpp 274-276, 325-327. -/
structure Work where
  data : Arr Int
  first : Arr Int
  second : Arr Int

/-- src/edge_detection.cpp 242-253: the selection of the first or the last edge -/
def choose (P : Params) (forward : Bool) (e : List ℚ × List ℚ) : List ℚ × List ℚ :=
  if (forward ∧ P.edge = .first) ∨ (¬ forward ∧ P.edge = .last) then (leaveFirst e.1, leaveLast e.2)
  else if (forward ∧ P.edge = .last) ∨ (¬ forward ∧ P.edge = .first) then (leaveLast e.1, leaveFirst e.2)
  else e

/-- src/edge_detection.cpp 232-254, `findEdgePoints` for one line -/
def scanLine (rnd fl : ℚ → ℚ) (P : Params) (forward : Bool) (w : Work) : M Unit ((List ℚ × List ℚ) × Work) := do
  let a ← getDerivatives w.data w.first w.second
  let pos ← getEdgePoints rnd fl w.data a.1 a.2 P
  let data := reversed w.data
  let b ← getDerivatives data a.1 a.2
  let neg ← getEdgePoints rnd fl data b.1 b.2 P
  pure (choose P forward (removeSimilarPoints rnd pos, removeSimilarPoints rnd neg), ⟨data, b.1, b.2⟩)

/-- Code which only uses local variables. Not in the code: machinery of the model. -/
def locally {α : Type} (x : M Unit α) : M μ α := fun m =>
  match x () with
  | .ok a _ => .ok a m
  | .throw _ => .throw m
  | .ub => .ub

/-- `*dataX = *imageX`. src/edge_detection.cpp 285, 335. -/
def setStep (b : Nat) (q : Nat × Nat) (d : Arr Int) : M BMem (Arr Int) := do
  let v ← readC b q.1
  d.wr q.2 v.toNat

/-- `*dataX += *imageX`. src/edge_detection.cpp 293, 344. -/
def addStep (b : Nat) (q : Nat × Nat) (d : Arr Int) : M BMem (Arr Int) := do
  let v ← readC b q.1
  let x ← d.rd q.2
  let x ← int32 (x + v.toNat)
  d.wr q.2 x

/-- The loops over one line, src/edge_detection.cpp 287-288, 295-297, 335-337 and 344-346: the pointer advances by `step` up to `q`. -/
def lineLoop (body : Nat × Nat → Arr Int → M BMem (Arr Int)) (p q step : Nat) (d : Arr Int) : M BMem (Arr Int) :=
  loop (fun s => s.1 != q) (fun s => (s.1 + step, s.2 + 1)) body fuelMax (p, 0) d

/-- src/edge_detection.cpp 284-298 (`next` = rowSize, `step` = 1, `size` = width) and 332-347 (`next` = 1, `step` = rowSize,
    `size` = height * rowSize): the sums of a group of lines.  `groupId * next` has 32 bits. -/
def loadLine (b p next step size group : Nat) (d : Arr Int) : M BMem (Arr Int) := do
  let d ← lineLoop (setStep b) p (p + size) step d
  forLoop 1 group (fun g d => lineLoop (addStep b) (p + u32 (g * next)) (p + u32 (g * next) + size) step d) d

/-- The points found so far and the vectors. src/edge_detection.cpp 257-276. -/
structure Found where
  pos : List (ℚ × ℚ)
  neg : List (ℚ × ℚ)
  work : Work

/-- src/edge_detection.cpp 300-325: the points of one row -/
def rowPoints (rnd : ℚ → ℚ) (P : Params) (x y w row : Nat) (e : List ℚ × List ℚ) : List (ℚ × ℚ) × List (ℚ × ℚ) :=
  let line := rnd (u32 (y + row) + rnd (usub P.group 1 / 2))
  if P.direction = .leftToRight then
    (if P.gradient = .positive ∨ P.gradient = .any then positiveX rnd e.1 x line else [],
     if P.gradient = .negative ∨ P.gradient = .any then negativeX rnd e.2 (usub (u32 (x + w)) 1) line else [])
  else
    (if P.gradient = .positive ∨ P.gradient = .any then negativeX rnd e.2 (usub (u32 (x + w)) 1) line else [],
     if P.gradient = .negative ∨ P.gradient = .any then positiveX rnd e.1 x line else [])

/-- src/edge_detection.cpp 349-374: the points of one column -/
def columnPoints (rnd : ℚ → ℚ) (P : Params) (x y h row : Nat) (e : List ℚ × List ℚ) : List (ℚ × ℚ) × List (ℚ × ℚ) :=
  let line := rnd (u32 (x + row) + rnd (usub P.group 1 / 2))
  if P.direction = .topToBottom then
    (if P.gradient = .positive ∨ P.gradient = .any then positiveY rnd e.1 line y else [],
     if P.gradient = .negative ∨ P.gradient = .any then negativeY rnd e.2 line (usub (u32 (y + h)) 1) else [])
  else
    (if P.gradient = .positive ∨ P.gradient = .any then negativeY rnd e.2 line (usub (u32 (y + h)) 1) else [],
     if P.gradient = .negative ∨ P.gradient = .any then positiveY rnd e.1 line y else [])

/-- The body of the loops over rows (src/edge_detection.cpp 280-322) and columns (330-373); `q` is the number of the line and the pointer to it. -/
def lineStep (rnd fl : ℚ → ℚ) (P : Params) (forward : Bool) (b next step size : Nat)
    (points : Nat → List ℚ × List ℚ → List (ℚ × ℚ) × List (ℚ × ℚ)) (q : Nat × Nat) (a : Found) : M BMem Found := do
  let d ← loadLine b q.2 next step size P.group a.work.data
  let r ← locally (scanLine rnd fl P forward { a.work with data := d })
  pure ⟨a.pos ++ (points q.1 r.1).1, a.neg ++ (points q.1 r.1).2, r.2⟩

/-- `std::vector<int>( n )`. src/edge_detection.cpp 274-276, 325-327. -/
def zeros (n : Nat) : Arr Int := ⟨n, fun _ => 0⟩

/-- src/edge_detection.cpp 273-323: the rows -/
def findRows (rnd fl : ℚ → ℚ) (v : View) (w h : Nat) (P : Params) : M BMem Found :=
  loop (fun q => decide (q.1 < u32 (usub h P.group + 1))) (fun q => (u32 (q.1 + P.skip), q.2 + u32 (v.img.rowSize * P.skip)))
    (lineStep rnd fl P (P.direction = .leftToRight) v.img.data v.img.rowSize 1 w (rowPoints rnd P v.x v.y w))
    fuelMax (0, u32 (v.y * v.img.rowSize) + v.x) ⟨[], [], ⟨zeros w, zeros w, zeros w⟩⟩

/-- src/edge_detection.cpp 328-376: the columns -/
def findColumns (rnd fl : ℚ → ℚ) (v : View) (w h : Nat) (P : Params) : M BMem Found :=
  loop (fun q => decide (q.1 < u32 (usub w P.group + 1))) (fun q => (u32 (q.1 + P.skip), q.2 + P.skip))
    (lineStep rnd fl P (P.direction = .topToBottom) v.img.data 1 v.img.rowSize (u32 (h * v.img.rowSize)) (columnPoints rnd P v.x v.y h))
    fuelMax (0, u32 (v.y * v.img.rowSize) + v.x) ⟨[], [], ⟨zeros h, zeros h, zeros h⟩⟩

/-- src/edge_detection.cpp 392-405, `EdgeParameter::verify` -/
def Params.verify (P : Params) : M μ Unit := throwIf (P.group == 0 || P.skip == 0 || P.contrast == 0)

/-- src/edge_detection.cpp 264-265 -/
def Params.horizontal (P : Params) : Bool := P.direction = .leftToRight ∨ P.direction = .rightToLeft

/-- `EdgeDetectionBase<double>::find`, src/edge_detection.h 105-110 and src/edge_detection.cpp 256-375: the points of
    `positiveEdge()` and `negativeEdge()` after the call. -/
def find (rnd fl : ℚ → ℚ) (v : View) (w h : Nat) (P : Params) : M BMem (List (ℚ × ℚ) × List (ℚ × ℚ)) := do
  verifyGray [v.img]
  validateRoi v w h
  P.verify
  if (P.horizontal ∧ w < 4) ∨ (¬ P.horizontal ∧ h < 4) then pure ([], [])
  else do
    let a ← if P.horizontal then findRows rnd fl v w h P else findColumns rnd fl v w h P
    pure (a.pos, a.neg)

end PV.Edge
