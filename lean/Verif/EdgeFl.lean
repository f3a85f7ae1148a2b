import Verif.Edge
/-
  Model of src/edge_detection.cpp and src/edge_detection.h, the `float` instance (`EdgeDetectionBase<float>`).

  `rnd` is the rounding of `double` operations, `fl` the rounding of `float` operations and of conversions to `float`.  Only the templates
  which see the type are here; the others (contrast, derivatives, reading of lines) are those of Edge.lean.
-/
namespace PV.EdgeFl
open PV.Edge

/-- src/edge_detection.cpp 107-116: the position of an edge; a `double` expression converted in the first case, `float` operations in the other -/
def position (rnd fl : ℚ → ℚ) (second : Arr Int) (pos : Nat) : M Unit ℚ := do
  let a ← second.rd pos
  let b ← second.rd (u32 (pos + 1))
  if a ≠ b then do
    let c ← int32 (a - b)
    pure (fl (rnd (pos + rnd ((a : ℚ) / c))))
  else pure (fl (fl pos + 1 / 2))

/-- src/edge_detection.cpp 79-119, `findPoint`: the position pushed, if any.  The contrast is a matter of `double` in both instances. -/
def findPoint (rnd fl : ℚ → ℚ) (d second : Arr Int) (l r : Nat) (minC : Int) (check : Bool) (left right pos size : Nat) : M Unit (Option ℚ) := do
  let mx ← extreme true d l (r + 1)
  let mn ← extreme false d l (r + 1)
  let diff ← int32 (mx - mn)
  if diff < minC then pure none
  else do
    let check ← contrastCheck rnd fl d minC check left right pos size
    if check then pure none
    else do
      let p ← position rnd fl second pos
      pure (some p)

/-- `findPoint` is called if both sides were found, src/edge_detection.cpp 200-203 and 205-208. -/
def between (rnd fl : ℚ → ℚ) (d second : Arr Int) (P : Params) (i : Nat) (sides : Option Nat × Option Nat) : M Unit (Option ℚ) :=
  match sides with
  | (some l, some r) => findPoint rnd fl d second l r (Edge.toInt (u32 (P.contrast * P.group))) (P.left > 0 && P.right > 0) P.left P.right i d.len
  | _ => pure none

/-- src/edge_detection.cpp 144-208 -/
def searchSides (rnd fl : ℚ → ℚ) (d first second : Arr Int) (P : Params) (i : Nat) (top : Int) : M Unit (Option ℚ) := do
  let third := if top < 3 then 1 else top / 3
  let half := if top < 2 then 1 else top / 2
  let l ← leftScan first half third top i none
  if l.1.isNone && l.2.isNone then pure none
  else do
    let r ← rightScan first half third top (usub d.len 1 - (i + 1)) (i + 1) none
    let e ← between rnd fl d second P i (l.1, r.1)
    if e.isSome then pure e else between rnd fl d second P i (l.2, r.2)

/-- The body of the loop of src/edge_detection.cpp 130-207: the position pushed for `i`, if any -/
def candidate (rnd fl : ℚ → ℚ) (d first second : Arr Int) (P : Params) (i : Nat) : M Unit (Option ℚ) := do
  let a ← second.rd i
  if a < 0 then pure none
  else do
    let b ← second.rd (i + 1)
    if b > 0 then pure none
    else do
      let p ← first.rd i
      let q ← first.rd (i + 1)
      let top := if p > q then p else q
      if top ≤ 0 then pure none else searchSides rnd fl d first second P i top

/-- One round of the loop of `getEdgePoints`. src/edge_detection.cpp 121-208. -/
def edgeStep (rnd fl : ℚ → ℚ) (d first second : Arr Int) (P : Params) (i : Nat) (edge : List ℚ) : M Unit (List ℚ) := do
  let e ← candidate rnd fl d first second P i
  pure (edge ++ e.toList)

/-- src/edge_detection.cpp 121-208, `getEdgePoints` on an empty vector -/
def getEdgePoints (rnd fl : ℚ → ℚ) (d first second : Arr Int) (P : Params) : M Unit (List ℚ) :=
  forLoop 1 (usub d.len 2) (edgeStep rnd fl d first second P) []

/-- src/edge_detection.cpp 232-254, `findEdgePoints` for one line; the differences of `removeSimilarPoints` are of type `float`. -/
def scanLine (rnd fl : ℚ → ℚ) (P : Params) (forward : Bool) (w : Work) : M Unit ((List ℚ × List ℚ) × Work) := do
  let a ← getDerivatives w.data w.first w.second
  let pos ← getEdgePoints rnd fl w.data a.1 a.2 P
  let data := reversed w.data
  let b ← getDerivatives data a.1 a.2
  let neg ← getEdgePoints rnd fl data b.1 b.2 P
  pure (choose P forward (removeSimilarPoints fl pos, removeSimilarPoints fl neg), ⟨data, b.1, b.2⟩)

/-- src/edge_detection.cpp 300-325: the points of one row -/
def rowPoints (rnd fl : ℚ → ℚ) (P : Params) (x y w row : Nat) (e : List ℚ × List ℚ) : List (ℚ × ℚ) × List (ℚ × ℚ) :=
  let line := fl (rnd (u32 (y + row) + rnd (usub P.group 1 / 2)))
  if P.direction = .leftToRight then
    (if P.gradient = .positive ∨ P.gradient = .any then positiveX fl e.1 (fl x) line else [],
     if P.gradient = .negative ∨ P.gradient = .any then negativeX fl e.2 (fl (usub (u32 (x + w)) 1)) line else [])
  else
    (if P.gradient = .positive ∨ P.gradient = .any then negativeX fl e.2 (fl (usub (u32 (x + w)) 1)) line else [],
     if P.gradient = .negative ∨ P.gradient = .any then positiveX fl e.1 (fl x) line else [])

/-- src/edge_detection.cpp 349-374: the points of one column -/
def columnPoints (rnd fl : ℚ → ℚ) (P : Params) (x y h row : Nat) (e : List ℚ × List ℚ) : List (ℚ × ℚ) × List (ℚ × ℚ) :=
  let line := fl (rnd (u32 (x + row) + rnd (usub P.group 1 / 2)))
  if P.direction = .topToBottom then
    (if P.gradient = .positive ∨ P.gradient = .any then positiveY fl e.1 line (fl y) else [],
     if P.gradient = .negative ∨ P.gradient = .any then negativeY fl e.2 line (fl (usub (u32 (y + h)) 1)) else [])
  else
    (if P.gradient = .positive ∨ P.gradient = .any then negativeY fl e.2 line (fl (usub (u32 (y + h)) 1)) else [],
     if P.gradient = .negative ∨ P.gradient = .any then positiveY fl e.1 line (fl y) else [])

/-- The body of the loops over rows (src/edge_detection.cpp 280-322) and columns (330-373); `q` is the number of the line and the pointer to it. -/
def lineStep (rnd fl : ℚ → ℚ) (P : Params) (forward : Bool) (b next step size : Nat)
    (points : Nat → List ℚ × List ℚ → List (ℚ × ℚ) × List (ℚ × ℚ)) (q : Nat × Nat) (a : Found) : M BMem Found := do
  let d ← loadLine b q.2 next step size P.group a.work.data
  let r ← locally (scanLine rnd fl P forward { a.work with data := d })
  pure ⟨a.pos ++ (points q.1 r.1).1, a.neg ++ (points q.1 r.1).2, r.2⟩

/-- src/edge_detection.cpp 273-323: the rows -/
def findRows (rnd fl : ℚ → ℚ) (v : View) (w h : Nat) (P : Params) : M BMem Found :=
  loop (fun q => decide (q.1 < u32 (usub h P.group + 1))) (fun q => (u32 (q.1 + P.skip), q.2 + u32 (v.img.rowSize * P.skip)))
    (lineStep rnd fl P (P.direction = .leftToRight) v.img.data v.img.rowSize 1 w (rowPoints rnd fl P v.x v.y w))
    fuelMax (0, u32 (v.y * v.img.rowSize) + v.x) ⟨[], [], ⟨zeros w, zeros w, zeros w⟩⟩

/-- src/edge_detection.cpp 328-376: the columns -/
def findColumns (rnd fl : ℚ → ℚ) (v : View) (w h : Nat) (P : Params) : M BMem Found :=
  loop (fun q => decide (q.1 < u32 (usub w P.group + 1))) (fun q => (u32 (q.1 + P.skip), q.2 + P.skip))
    (lineStep rnd fl P (P.direction = .topToBottom) v.img.data 1 v.img.rowSize (u32 (h * v.img.rowSize)) (columnPoints rnd fl P v.x v.y h))
    fuelMax (0, u32 (v.y * v.img.rowSize) + v.x) ⟨[], [], ⟨zeros h, zeros h, zeros h⟩⟩

/-- `EdgeDetectionBase<float>::find`, src/edge_detection.h 105-110 and src/edge_detection.cpp 256-375, 413-417: the points of
    `positiveEdge()` and `negativeEdge()` after the call. -/
def find (rnd fl : ℚ → ℚ) (v : View) (w h : Nat) (P : Params) : M BMem (List (ℚ × ℚ) × List (ℚ × ℚ)) := do
  verifyGray [v.img]
  validateRoi v w h
  P.verify
  if (P.horizontal ∧ w < 4) ∨ (¬ P.horizontal ∧ h < 4) then pure ([], [])
  else do
    let a ← if P.horizontal then findRows rnd fl v w h P else findColumns rnd fl v w h P
    pure (a.pos, a.neg)

end PV.EdgeFl
