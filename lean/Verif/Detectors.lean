import Verif.BlobMeasure
import Verif.Edge
/-
  Detectors as objects which are used more than once: `Blob_Detection::BlobDetection` and the blobs it holds
  (src/blob_detection.h 145-382, src/blob_detection.cpp 76-534), `EdgeDetectionBase<double>` (src/edge_detection.h 96-127).

  Blob.lean, BlobMeasure.lean and Edge.lean have single calls on new objects.  Not modelled: references to blobs kept by the user across calls, and
  failing allocations.
-/
namespace PV.Blob

variable {F : Type} (fl : Floats F) (circ : Rat × Rat → BlobInfo → F)

/-- A `BlobInfo` with all of its values: `blob` has those used for limits, here are the other two. src/blob_detection.h 305-318. -/
structure Item (F : Type) where
  blob : Blob F
  area : Lazy Area
  center : Lazy (Rat × Rat)

/-- `_getArea`, src/blob_detection.cpp 78-88 -/
def Item.getArea (x : Item F) : Item F :=
  if !x.area.found && x.blob.info.contour ≠ [] then { x with area := ⟨areaOf x.blob.info, true⟩ } else x

/-- `_getCenter`, src/blob_detection.cpp 90-98 -/
def Item.getCenter (x : Item F) : Item F :=
  if !x.center.found && x.blob.info.point ≠ [] then { x with center := ⟨centerOf fl.rnd x.blob.info, true⟩ } else x

/-- `_getCircularity`, src/blob_detection.cpp 100-120: the centre is computed first, when it is not there, and `circ` is the number computed from the
    centre stored and the points. -/
def Item.getCircularity (x : Item F) : Item F :=
  if !x.blob.circularity.found && x.blob.info.contour ≠ [] then
    { x.getCenter fl with blob := { (x.getCenter fl).blob with circularity := ⟨circ (x.getCenter fl).center.value (x.getCenter fl).blob.info, true⟩ } }
  else x

/-- A blob as `find` leaves it: `area` was not asked for; the centre was, if the circularity was (src/blob_detection.cpp 104). -/
def Item.of (b : Blob F) : Item F :=
  ⟨b, ⟨⟨0, 0, 0, 0⟩, false⟩, if b.circularity.found then ⟨centerOf fl.rnd b.info, true⟩ else ⟨(0, 0), false⟩⟩

/-- The questions a blob answers, src/blob_detection.h 195-296 -/
inductive Measure where
  | area | center | circularity | elongation | height | length | width | size
deriving DecidableEq, Repr

/-- The answers. src/blob_detection.h 195-296. -/
inductive Answer (F : Type) where
  | area (a : Area)
  | point (p : Rat × Rat)
  | number (x : F)
  | count (n : Nat)

/-- The function for a constant `BlobInfo`: the value stored. src/blob_detection.h 203-296. -/
def Item.read (x : Item F) : Measure → Answer F
  | .area => .area x.area.value
  | .center => .point x.center.value
  | .circularity => .number x.blob.circularity.value
  | .elongation => .number x.blob.elongation.value
  | .height => .count x.blob.height.value
  | .length => .number x.blob.length.value
  | .width => .count x.blob.width.value
  | .size => .count x.blob.info.point.length

/-- What is done before the value is returned when the `BlobInfo` is not constant; `none` is undefined. src/blob_detection.h 195-284. -/
def Item.compute (x : Item F) : Measure → Option (Item F)
  | .area => some x.getArea
  | .center => some (x.getCenter fl)
  | .circularity => some (x.getCircularity fl circ)
  | .elongation => (x.blob.getElongation fl).map fun b => { x with blob := b }
  | .height => x.blob.getHeight.map fun b => { x with blob := b }
  | .length => (x.blob.getLength fl).map fun b => { x with blob := b }
  | .width => x.blob.getWidth.map fun b => { x with blob := b }
  | .size => some x

/-- The function for a `BlobInfo` which is not constant. src/blob_detection.h 195-296. -/
def Item.ask (x : Item F) (q : Measure) : Option (Item F × Answer F) := (x.compute fl circ q).map fun y => (y, y.read q)

/-- The arguments of a search, and the memory at that time. src/blob_detection.h 340-341. -/
structure Search (F : Type) where
  m : BMem
  v : View
  w : Nat
  h : Nat
  lim : Limits F
  thr : UInt8

/-- src/blob_detection.cpp 192-195 -/
def Search.checks (c : Search F) : M BMem Unit := do
  validateRois [c.v] c.w c.h
  verifyGray [c.v.img]
  c.lim.circularity.verify fl
  c.lim.elongation.verify fl
  c.lim.height.verify
  c.lim.length.verify fl
  c.lim.size.verify
  c.lim.width.verify

/-- `BlobDetection::find` on a detector with the blobs `s`, src/blob_detection.cpp 189-484: whether it throws, and the blobs afterwards.  They are
    cleared after the checks (197) and replaced at the end (480-481). -/
def Search.run (c : Search F) (s : List (Item F)) : Option (Bool × List (Item F)) :=
  match c.checks fl c.m with
  | .ub => none
  | .throw _ => some (true, s)
  | .ok _ m =>
    match search c.v c.w c.h Params.none c.thr m with
    | .ub => none
    | .throw _ => some (true, [])
    | .ok bs _ => (c.lim.apply fl (bs.map (Blob.new fl))).map fun kept => (false, kept.map (Item.of fl))

/-- What a user does with a detector, and what they see. src/blob_detection.h 335-378. -/
inductive Event (F : Type) where
  | find (c : Search F) (threw : Bool)
  /-- a question to blob `i` of `get()` -/
  | ask (i : Nat) (q : Measure) (a : Answer F)
  /-- the same when `get()` is constant -/
  | read (i : Nat) (q : Measure) (a : Answer F)
  | best (c : Criterion) (x : Item F)
  | sort (c : Criterion)

/-- One use of a detector with the blobs `s`; undefined behaviour makes no step. src/blob_detection.h 335-378, src/blob_detection.cpp 486-533. -/
inductive Step : List (Item F) → Event F → List (Item F) → Prop
  | find {s s' : List (Item F)} {c : Search F} {threw : Bool} (e : c.run fl s = some (threw, s')) : Step s (.find c threw) s'
  | ask {s : List (Item F)} {i : Nat} {q : Measure} {x y : Item F} {a : Answer F} (hx : s[i]? = some x) (e : x.ask fl circ q = some (y, a)) :
      Step s (.ask i q a) (s.set i y)
  | read {s : List (Item F)} {i : Nat} {q : Measure} {x : Item F} (hx : s[i]? = some x) : Step s (.read i q (x.read q)) s
  | best {s : List (Item F)} {c : Criterion} {x : Item F} {b : Blob F} (e : best fl c (s.map (·.blob)) = some b) (hx : x ∈ s) (hb : x.blob = b) :
      Step s (.best c x) s
  | sort {s s' : List (Item F)} {c : Criterion} (hp : s'.Perm s) (hs : s'.Pairwise fun a b => less fl c a.blob b.blob = false) : Step s (.sort c) s'

/-- A detector from its constructor on. -/
inductive Run : List (Event F) → List (Item F) → Prop
  | start : Run [] []
  | step {es : List (Event F)} {s s' : List (Item F)} {e : Event F} (r : Run es s) (st : Step fl circ s e s') : Run (es ++ [e]) s'

end PV.Blob

namespace PV.Edge

/-- `positiveEdgePoint` and `negativeEdgePoint`, src/edge_detection.h 125-126 -/
abbrev Lists := List (ℚ × ℚ) × List (ℚ × ℚ)

/-- src/edge_detection.cpp 273-323, appending to the lists `o` -/
def rowsFrom (rnd fl : ℚ → ℚ) (v : View) (w h : Nat) (P : Params) (o : Lists) : M BMem Found :=
  loop (fun q => decide (q.1 < u32 (usub h P.group + 1))) (fun q => (u32 (q.1 + P.skip), q.2 + u32 (v.img.rowSize * P.skip)))
    (lineStep rnd fl P (P.direction = .leftToRight) v.img.data v.img.rowSize 1 w (rowPoints rnd P v.x v.y w))
    fuelMax (0, u32 (v.y * v.img.rowSize) + v.x) ⟨o.1, o.2, ⟨zeros w, zeros w, zeros w⟩⟩

/-- src/edge_detection.cpp 328-376, appending to the lists `o` -/
def columnsFrom (rnd fl : ℚ → ℚ) (v : View) (w h : Nat) (P : Params) (o : Lists) : M BMem Found :=
  loop (fun q => decide (q.1 < u32 (usub w P.group + 1))) (fun q => (u32 (q.1 + P.skip), q.2 + P.skip))
    (lineStep rnd fl P (P.direction = .topToBottom) v.img.data 1 v.img.rowSize (u32 (h * v.img.rowSize)) (columnPoints rnd P v.x v.y h))
    fuelMax (0, u32 (v.y * v.img.rowSize) + v.x) ⟨o.1, o.2, ⟨zeros h, zeros h, zeros h⟩⟩

/-- src/edge_detection.cpp 260-262 -/
def admit (v : View) (w h : Nat) (P : Params) : M BMem Unit := do
  verifyGray [v.img]
  validateRoi v w h
  P.verify

/-- `EdgeDetectionHelper::find`, src/edge_detection.cpp 256-375, which appends to the lists of the object: whether it throws, and the lists
    afterwards.  Nothing throws once points were appended. -/
def helper (rnd fl : ℚ → ℚ) (v : View) (w h : Nat) (P : Params) (m : BMem) (o : Lists) : Option (Bool × Lists) :=
  match admit v w h P m with
  | .ub => none
  | .throw _ => some (true, o)
  | .ok _ m =>
    if (P.horizontal ∧ w < 4) ∨ (¬ P.horizontal ∧ h < 4) then some (false, o)
    else
      match (if P.horizontal then rowsFrom rnd fl v w h P o else columnsFrom rnd fl v w h P o) m with
      | .ub => none
      | .throw _ => some (true, o)
      | .ok a _ => some (false, (a.pos, a.neg))

/-- `positiveEdgePoint.clear(); negativeEdgePoint.clear();`, src/edge_detection.h 107-108 -/
def cleared (_ : Lists) : Lists := ([], [])

/-- `EdgeDetectionBase::find` on an object with the lists `o`, src/edge_detection.h 105-110 -/
def again (rnd fl : ℚ → ℚ) (v : View) (w h : Nat) (P : Params) (m : BMem) (o : Lists) : Option (Bool × Lists) :=
  helper rnd fl v w h P m (cleared o)

/-- The arguments of a search, and the memory at that time. src/edge_detection.h 105. -/
structure Search where
  m : BMem
  v : View
  w : Nat
  h : Nat
  P : Params

/-- An object after a list of searches; `none` is undefined. src/edge_detection.h 96-127. -/
def searches (rnd fl : ℚ → ℚ) : List Search → Lists → Option Lists
  | [], o => some o
  | c :: cs, o => (again rnd fl c.v c.w c.h c.P c.m o).bind fun r => searches rnd fl cs r.2

end PV.Edge
