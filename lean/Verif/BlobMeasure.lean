import Verif.Blob
/-
  Model of the measures of a blob, of the filters on all of them, of `getBestBlob` and `sort`: src/blob_detection.cpp 39-187, 427-533,
  src/blob_detection.h 28-381.
-/
namespace PV.Blob

/-! ### Measures -/

/-- `struct Area`, src/blob_detection.h 118-136 -/
structure Area where
  left : Nat
  right : Nat
  top : Nat
  bottom : Nat
deriving DecidableEq, Repr

/-- `_getArea`, src/blob_detection.cpp 78-88; the members of an `Area` are zero before. -/
def areaOf (b : BlobInfo) : Area :=
  if b.contour = [] then ⟨0, 0, 0, 0⟩
  else
    let xs := b.contour.map Prod.fst
    let ys := b.contour.map Prod.snd
    ⟨xs.foldl Nat.min 4294967295, u32 (xs.foldl Nat.max 0 + 1), ys.foldl Nat.min 4294967295, u32 (ys.foldl Nat.max 0 + 1)⟩

/-- The value of a 32-bit pattern as `int32_t` -/
def int32 (n : Nat) : Int := if n < 2147483648 then n else (n : Int) - 4294967296

/-- `std::accumulate( v.begin(), v.end(), 0 )`: the sum is an `int`, every step is made with `uint32_t`. -/
def accumulate (l : List Nat) : Int := l.foldl (fun (acc : Int) (x : Nat) => int32 ((acc + (x : Int)) % 4294967296).toNat) 0

/-- `_getCenter`, src/blob_detection.cpp 90-98; `rnd` is the rounding of a quotient of two `double`, `fun x => x` for exact arithmetic. -/
def centerOf (rnd : Rat → Rat) (b : BlobInfo) : Rat × Rat :=
  (rnd ((accumulate (b.point.map Prod.fst) : Rat) / b.point.length), rnd ((accumulate (b.point.map Prod.snd) : Rat) / b.point.length))

/-- A product or sum of two `int32_t`: undefined when it does not fit. -/
def fitInt (a : Int) : Option Int := if -2147483648 ≤ a ∧ a ≤ 2147483647 then some a else none

/-- The squared distance of two points, src/blob_detection.cpp 57-58 -/
def distance (p q : Nat × Nat) : Option Int := do
  let dx := int32 (u32 (p.1 + (4294967296 - q.1)))
  let dy := int32 (u32 (p.2 + (4294967296 - q.2)))
  let a ← fitInt (dx * dx)
  let b ← fitInt (dy * dy)
  fitInt (a + b)

/-- All pairs in the order of the loops, src/blob_detection.cpp 52-56 -/
def pairs {α : Type} : List α → List (α × α)
  | [] => []
  | a :: l => l.map (fun b => (a, b)) ++ pairs l

/-- `maximumDistance`, `startPoint`, `endPoint`. src/blob_detection.cpp 50, 61-67. -/
structure Longest where
  distance : Int
  start : Nat × Nat
  finish : Nat × Nat
deriving DecidableEq, Repr

/-- One pass of the inner loop, src/blob_detection.cpp 56-69.  The last assignment takes the x coordinate for both. -/
def longestStep (s : Longest) (pq : (Nat × Nat) × (Nat × Nat)) : Option Longest := do
  let d ← distance pq.1 pq.2
  if s.distance < d then pure ⟨d, pq.1, (pq.2.1, pq.2.1)⟩ else pure s

/-- `getLengthFromCountour`, src/blob_detection.cpp 39-73, before the square root -/
def longest (contour : List (Nat × Nat)) : Option Longest := (pairs contour).foldlM longestStep ⟨0, (0, 0), (0, 0)⟩

/-- `fabs`. src/blob_detection.cpp 113. -/
def fabs (a : Rat) : Rat := if a < 0 then -a else a

/-- `_getCircularity`, src/blob_detection.cpp 100-120, with the rounding `rnd` after each operation; `sqrt` and the radius `sqrt( size / pi )` are
    given. -/
def circularityOf (rnd sqrt : Rat → Rat) (radius : Rat) (b : BlobInfo) : Rat :=
  let c := centerOf rnd b
  let difference := b.contour.foldl (fun acc p =>
    rnd (acc + fabs (rnd (sqrt (rnd (rnd (rnd (p.1 - c.1) * rnd (p.1 - c.1)) + rnd (rnd (p.2 - c.2) * rnd (p.2 - c.2)))) - radius)))) 0
  rnd (1 - rnd (difference / rnd (b.contour.length * radius)))

/-- `_getElongation`, src/blob_detection.cpp 122-158, with the rounding `rnd` after each operation.  `trig y x` stands for the cosine and the sine of `-atan2( y, x )`; the
    differences of coordinates are those of `uint32_t`. -/
def elongationOf (rnd : Rat → Rat) (sqrt : Int → Rat) (trig : Nat → Nat → Rat × Rat) (b : BlobInfo) : Option Rat :=
  if b.contour.length > 1 then do
    let l ← longest b.contour
    let t := trig (u32 (l.finish.2 + (4294967296 - l.start.2))) (u32 (l.finish.1 + (4294967296 - l.start.1)))
    let ys := b.contour.map fun p => rnd (rnd ((u32 (p.1 + (4294967296 - l.start.1)) : Rat) * t.2) + rnd (rnd ((p.2 : Rat) - l.start.2) * t.1))
    let y0 := ys.headD 0
    let height := rnd (ys.foldl max y0 - ys.foldl min y0)
    pure (rnd (sqrt l.distance / (if height < 1 then 1 else height)))
  else some 1

/-! ### Values computed once -/

/-- `Value< Data >`, src/blob_detection.h 138-143.  `BlobInfo()` is value-initialised: the value is zero before it is found. -/
structure Lazy (α : Type) where
  value : α
  found : Bool
deriving DecidableEq, Repr

/-- Floating-point numbers: only zero, the comparison and the measures themselves are used. src/blob_detection.cpp 72, 90-158. -/
structure Floats (F : Type) where
  /-- the rounding of the quotients in `_getCenter` -/
  rnd : Rat → Rat
  zero : F
  lt : F → F → Bool
  /-- `sqrt( static_cast< double >( n ) )` -/
  sqrt : Int → F
  /-- the number `_getCircularity` computes -/
  circularity : BlobInfo → F
  /-- the number `_getElongation` computes from the points of the contour, when the distances fit -/
  elongation : BlobInfo → F

/-- A `BlobInfo` with its values. src/blob_detection.h 305-318. -/
structure Blob (F : Type) where
  info : BlobInfo
  circularity : Lazy F
  elongation : Lazy F
  height : Lazy Nat
  length : Lazy F
  width : Lazy Nat

variable {F : Type} (fl : Floats F)

/-- `BlobInfo()` with the points found later. src/blob_detection.h 138-143, 305-318. -/
def Blob.new (b : BlobInfo) : Blob F := ⟨b, ⟨fl.zero, false⟩, ⟨fl.zero, false⟩, ⟨0, false⟩, ⟨fl.zero, false⟩, ⟨0, false⟩⟩

/-- `_getCircularity`. src/blob_detection.cpp 100-120. -/
def Blob.getCircularity (b : Blob F) : Option (Blob F) :=
  if !b.circularity.found && b.info.contour ≠ [] then some { b with circularity := ⟨fl.circularity b.info, true⟩ } else some b

/-- `_getElongation`. src/blob_detection.cpp 122-158. -/
def Blob.getElongation (b : Blob F) : Option (Blob F) :=
  if !b.elongation.found && b.info.contour ≠ [] then
    (longest b.info.contour).map fun _ => { b with elongation := ⟨fl.elongation b.info, true⟩ }
  else some b

/-- `_getHeight`, src/blob_detection.cpp 160-167 -/
def Blob.getHeight (b : Blob F) : Option (Blob F) :=
  if !b.height.found && b.info.contour ≠ [] then some { b with height := ⟨extent (b.info.contour.map Prod.snd), true⟩ } else some b

/-- `_getLength`, src/blob_detection.cpp 169-178 -/
def Blob.getLength (b : Blob F) : Option (Blob F) :=
  if !b.length.found && b.info.contour ≠ [] then
    (longest b.info.contour).map fun l => { b with length := ⟨fl.sqrt l.distance, true⟩ }
  else some b

/-- `_getWidth`, src/blob_detection.cpp 180-187 -/
def Blob.getWidth (b : Blob F) : Option (Blob F) :=
  if !b.width.found && b.info.contour ≠ [] then some { b with width := ⟨extent (b.info.contour.map Prod.fst), true⟩ } else some b

/-! ### All filters -/

/-- `Parameter< double >`. src/blob_detection.h 28-41. -/
structure FParam (F : Type) where
  minimum : Option F
  maximum : Option F

/-- `verify`, src/blob_detection.h 43-48 -/
def FParam.verify (p : FParam F) : M BMem Unit :=
  throwIf (match p.minimum, p.maximum with
    | some a, some b => fl.lt b a
    | _, _ => false)

/-- Whether a blob with this value is removed, e.g. src/blob_detection.cpp 432-433 -/
def FParam.drops (p : FParam F) (x : F) : Bool :=
  (match p.maximum with | some b => fl.lt b x | none => false) || (match p.minimum with | some a => fl.lt x a | none => false)

/-- `checkMaximum || checkMinimum`. src/blob_detection.cpp 428, 437, 455. -/
def FParam.on (p : FParam F) : Bool := p.maximum.isSome || p.minimum.isSome

/-- `checkMaximum || checkMinimum`. src/blob_detection.cpp 446, 464, 470. -/
def Param.on (p : Param) : Bool := p.maximum.isSome || p.minimum.isSome

/-- `struct BlobParameters`, src/blob_detection.h 74-116 -/
structure Limits (F : Type) where
  circularity : FParam F
  elongation : FParam F
  height : Param
  length : FParam F
  size : Param
  width : Param

/-- `for_each` and `remove_if` of one criterion. src/blob_detection.cpp 428-477. -/
def stage (on : Bool) (compute : Blob F → Option (Blob F)) (drops : Blob F → Bool) (bs : List (Blob F)) : Option (List (Blob F)) :=
  if on then (bs.mapM compute).map fun l => l.filter fun b => !drops b else some bs

/-- src/blob_detection.cpp 427-477 -/
def Limits.apply (lim : Limits F) (bs : List (Blob F)) : Option (List (Blob F)) :=
  stage lim.circularity.on (Blob.getCircularity fl) (fun b => lim.circularity.drops fl b.circularity.value) bs >>=
  stage lim.elongation.on (Blob.getElongation fl) (fun b => lim.elongation.drops fl b.elongation.value) >>=
  stage lim.height.on Blob.getHeight (fun b => lim.height.drops b.height.value) >>=
  stage lim.length.on (Blob.getLength fl) (fun b => lim.length.drops fl b.length.value) >>=
  stage lim.size.on some (fun b => lim.size.drops b.info.point.length) >>=
  stage lim.width.on Blob.getWidth (fun b => lim.width.drops b.width.value)

/-- `BlobDetection::find` with all parameters, src/blob_detection.cpp 189-484 -/
def findBy (v : View) (w h : Nat) (lim : Limits F) (threshold : UInt8) : M BMem (List (Blob F)) := do
  validateRois [v] w h
  verifyGray [v.img]
  lim.circularity.verify fl
  lim.elongation.verify fl
  lim.height.verify
  lim.length.verify fl
  lim.size.verify
  lim.width.verify
  let bs ← search v w h Params.none threshold
  orUb (lim.apply fl (bs.map (Blob.new fl)))

/-! ### The best blob -/

/-- `enum class BlobCriterion`, src/blob_detection.h 365-373 -/
inductive Criterion where
  | circularity | elongation | height | length | size | width
deriving DecidableEq, Repr

/-- The comparison `blob1 < blob2` of a criterion; the values are those stored, computed or not. src/blob_detection.cpp 508-528. -/
def less (c : Criterion) (a b : Blob F) : Bool :=
  match c with
  | .circularity => fl.lt a.circularity.value b.circularity.value
  | .elongation => fl.lt a.elongation.value b.elongation.value
  | .height => decide (a.height.value < b.height.value)
  | .length => fl.lt a.length.value b.length.value
  | .size => decide (a.info.point.length < b.info.point.length)
  | .width => decide (a.width.value < b.width.value)

/-- `getBestBlob`, src/blob_detection.cpp 486-506: `std::max_element`, the first of the greatest; without blobs the end is dereferenced. -/
def best (c : Criterion) : List (Blob F) → Option (Blob F)
  | [] => none
  | a :: l => some (l.foldl (fun m b => if less fl c m b then b else m) a)

/-- `sort`, src/blob_detection.cpp 508-532: what `std::sort` with the comparison `>` of a criterion may leave. -/
def SortedBy (c : Criterion) (before after : List (Blob F)) : Prop :=
  after.Perm before ∧ after.Pairwise fun a b => less fl c a b = false

end PV.Blob
