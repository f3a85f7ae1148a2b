import Verif.PixelFn
/-
  Model of blob detection, src/blob_detection.cpp 189-484.

  The map of pixel states is an image made inside of the call; it is the state of the inner
  monad, apart from the memory of the caller, which the call only reads.  The pairs of vectors
  `_pointX/_pointY`, `_edgeX/_edgeY`, `_contourX/_contourY` always grow together and are lists
  of pairs here.  The eight copies of the same code for the eight neighbours are one function
  applied to the list of the eight pointer moves and coordinate changes.  The parameters with
  floating-point values (circularity, elongation, length) are not modelled: they are taken as
  not set.
-/
namespace PV.Blob

open PV

/-- The map: size and contents; the values are those of `PixelState`, src/blob_detection.cpp 30-37:
    EMPTY 0, NOT_IN_USE 1, FOUND 2, EDGE 3, CONTOUR 4. -/
structure PMap where
  size : Nat
  cell : Nat → Nat

/-- `*position`. src/blob_detection.cpp 262-340. -/
def getCell (p : Nat) : M PMap Nat := fun s => if p < s.size then .ok (s.cell p) s else .ub

/-- The array behind the map after a store, src/blob_detection.cpp 220, 262-345. -/
def upd (c : Nat → Nat) (p v : Nat) : Nat → Nat := fun n => if n = p then v else c n

/-- `*position = v`. src/blob_detection.cpp 220, 262-345. -/
def setCell (p v : Nat) : M PMap Unit := fun s =>
  if p < s.size then .ok () { s with cell := upd s.cell p v } else .ub

/-- `*imageX`. src/blob_detection.cpp 219. -/
def readImg (m : BMem) (b i : Nat) : M PMap UInt8 := fun s => if m.Valid b i then .ok (m.byte b i) s else .ub

/-- `BlobInfo` as far as it is filled by `find`. src/blob_detection.h 149, 305-310. -/
structure BlobInfo where
  point : List (Nat × Nat)
  edge : List (Nat × Nat)
  contour : List (Nat × Nat)
deriving DecidableEq, Repr

/-- The numbers `find` works with: ROI position, ROI width, `mapWidth`. src/blob_detection.cpp 189, 208. -/
structure Geo where
  x : Nat
  y : Nat
  w : Nat
  mw : Nat

/-- `position`, src/blob_detection.cpp 260 and 360 -/
def Geo.position (g : Geo) (p : Nat × Nat) : Nat :=
  u32 (u32 (p.2 + 1 + (4294967296 - g.y)) * g.mw) + u32 (p.1 + 1 + (4294967296 - g.x))

/-- The point of a map position, src/blob_detection.cpp 240-241 and 345-346 -/
def Geo.point (g : Geo) (p : Nat) : Nat × Nat :=
  (u32 (p % g.mw + g.x + 4294967295), u32 (p / g.mw + g.y + 4294967295))

/-- Pointer moves and changes of x and y for the eight neighbours, after the move to the first of
    them, src/blob_detection.cpp 262-335 and 362-418; 4294967295 is the decrement. -/
def moves (w : Nat) : List (Nat × Nat × Nat) :=
  [(0, 4294967295, 4294967295), (1, 0, 4294967295), (1, 1, 4294967295), (w, 4294967295, 0), (2, 1, 0),
    (w, 4294967295, 1), (1, 0, 1), (1, 1, 1)]

/-- One neighbour in the search for points, e.g. src/blob_detection.cpp 263-270.  The state is
    the position, the points and the number of neighbours. -/
def lookPoint (pt : Nat × Nat) (mv : Nat × Nat × Nat) (a : Nat × List (Nat × Nat) × Nat) :
    M PMap (Nat × List (Nat × Nat) × Nat) := do
  let position := a.1 + mv.1
  let c ← getCell position
  if c ≠ 0 then
    if c = 1 then do
      setCell position 2
      pure (position, a.2.1 ++ [(u32 (pt.1 + mv.2.1), u32 (pt.2 + mv.2.2))], a.2.2 + 1)
    else pure (position, a.2.1, a.2.2 + 1)
  else pure (position, a.2.1, a.2.2)

/-- The body of the search loop for points, src/blob_detection.cpp 254-341. -/
def growPoint (g : Geo) (pt : Nat × Nat) (q e : List (Nat × Nat)) : M PMap (List (Nat × Nat) × List (Nat × Nat)) := do
  let position := g.position pt
  if position < g.mw + 1 then ubE
  else do
    let r ← fold (lookPoint pt) (moves g.w) (position - g.mw - 1, q, 0)
    if r.2.2 ≠ 8 then do
      setCell (r.1 - 1 - g.mw) 3
      pure (r.2.1, e ++ [pt])
    else pure (r.2.1, e)

/-- The search loop for points, src/blob_detection.cpp 252-341: `pointId` runs through the
    points, which grow meanwhile. -/
def growPoints (g : Geo) : Nat → Nat → List (Nat × Nat) → List (Nat × Nat) →
    M PMap (List (Nat × Nat) × List (Nat × Nat))
  | 0, _, _, _ => ubE
  | fuel + 1, pointId, q, e =>
    match q[pointId]? with
    | none => ubE
    | some pt => do
      let r ← growPoint g pt q e
      if pointId + 1 ≠ r.1.length then growPoints g fuel (pointId + 1) r.1 r.2 else pure r

/-- One neighbour in the search for contour points, e.g. src/blob_detection.cpp 363-367. -/
def lookContour (pt : Nat × Nat) (mv : Nat × Nat × Nat) (a : Nat × List (Nat × Nat)) :
    M PMap (Nat × List (Nat × Nat)) := do
  let position := a.1 + mv.1
  let c ← getCell position
  if c = 3 then do
    setCell position 4
    pure (position, a.2 ++ [(u32 (pt.1 + mv.2.1), u32 (pt.2 + mv.2.2))])
  else pure (position, a.2)

/-- The body of the search loop for contour points, src/blob_detection.cpp 356-418. -/
def growContour (g : Geo) (pt : Nat × Nat) (q : List (Nat × Nat)) : M PMap (List (Nat × Nat)) := do
  let position := g.position pt
  if position < g.mw + 1 then ubE
  else do
    let r ← fold (lookContour pt) (moves g.w) (position - g.mw - 1, q)
    pure r.2

/-- The search loop for contour points, src/blob_detection.cpp 350-419. -/
def growContours (g : Geo) : Nat → Nat → List (Nat × Nat) → M PMap (List (Nat × Nat))
  | 0, _, _ => ubE
  | fuel + 1, pointId, q =>
    match q[pointId]? with
    | none => ubE
    | some pt => do
      let q' ← growContour g pt q
      if pointId + 1 ≠ q'.length then growContours g fuel (pointId + 1) q' else pure q'

/-- One blob, src/blob_detection.cpp 229-419, `pos` being the position of `mapValueX`. -/
def findBlob (g : Geo) (pos : Nat) : M PMap BlobInfo := do
  let pt := g.point (u32 pos)
  setCell pos 2
  let r ← growPoints g fuelMax 0 [pt] []
  setCell pos 4
  let c ← growContours g fuelMax 0 [pt]
  pure ⟨r.1, r.2, c⟩

/-- The loop over the map, src/blob_detection.cpp 222-421. -/
def findAll (g : Geo) (endMap : Nat) : M PMap (List BlobInfo) :=
  loop (fun p => p != endMap) (fun p => p + 1) (fun p found => do
    let c ← getCell p
    if c = 1 then do
      let b ← findBlob g p
      pure (found ++ [b])
    else pure found) fuelMax g.mw []

/-- The map of pixels at or above the threshold, src/blob_detection.cpp 202-220. -/
def mark (m : BMem) (v : View) (w h mw : Nat) (threshold : UInt8) : M PMap Unit :=
  rowLoop2 v.img.rowSize 1 mw 1 (fun imageX mapValue _ => do
    let a ← readImg m v.img.data imageX
    if threshold ≤ a then setCell mapValue 1 else pure ())
    (u32 (v.y * v.img.rowSize) + v.x) (mw + 1) w h ()

/-- One filter, `Parameter< uint32_t >`, src/blob_detection.h 28-72: minimum and maximum, when
    they are checked. -/
structure Param where
  minimum : Option Nat
  maximum : Option Nat
deriving DecidableEq, Repr

/-- `verify`, src/blob_detection.h 43-48 -/
def Param.verify (p : Param) : M BMem Unit :=
  throwIf (match p.minimum, p.maximum with
    | some a, some b => decide (a > b)
    | _, _ => false)

/-- Whether a blob with this value is removed, e.g. src/blob_detection.cpp 463-465. -/
def Param.drops (p : Param) (n : Nat) : Bool :=
  (match p.maximum with | some b => decide (n > b) | none => false) ||
  (match p.minimum with | some a => decide (n < a) | none => false)

/-- `_getWidth`, src/blob_detection.cpp 180-187, and `_getHeight`, 155-162: the extent of the
    contour in one coordinate. -/
def extent (l : List Nat) : Nat :=
  u32 (u32 (l.foldl Nat.max 0 + (4294967296 - l.foldl Nat.min 4294967295)) + 1)

/-- The parameters of a search. src/blob_detection.h 74-93. -/
structure Params where
  height : Param
  size : Param
  width : Param

/-- No filter. src/blob_detection.h 31-41, 74-93. -/
def Params.none : Params := ⟨⟨.none, .none⟩, ⟨.none, .none⟩, ⟨.none, .none⟩⟩

/-- `remove_if` in the order of src/blob_detection.cpp 442-477. -/
def Params.apply (ps : Params) (bs : List BlobInfo) : List BlobInfo :=
  let bs := bs.filter fun b => !ps.height.drops (extent (b.contour.map Prod.snd))
  let bs := bs.filter fun b => !ps.size.drops b.point.length
  bs.filter fun b => !ps.width.drops (extent (b.contour.map Prod.fst))

/-- The search itself, src/blob_detection.cpp 199-483, on a new map. -/
def search (v : View) (w h : Nat) (ps : Params) (threshold : UInt8) : M BMem (List BlobInfo) := fun m =>
  match (do
      mark m v w h (u32 (w + 2)) threshold
      findAll ⟨v.x, v.y, w, u32 (w + 2)⟩ (u32 (u32 (w + 2) * u32 (h + 1))) : M PMap (List BlobInfo))
        ⟨u32 (w + 2) * u32 (h + 2), fun _ => 0⟩ with
  | .ok bs _ => .ok (ps.apply bs) m
  | .throw _ => .throw m
  | .ub => .ub

/-- `BlobDetection::find`, src/blob_detection.cpp 189-484. -/
def find (v : View) (w h : Nat) (ps : Params) (threshold : UInt8) : M BMem (List BlobInfo) := do
  validateRois [v] w h
  verifyGray [v.img]
  ps.height.verify
  ps.size.verify
  ps.width.verify
  search v w h ps threshold

end PV.Blob
