import Verif.SimdPatch
import Verif.PropsPixel
/-
  Model of `Median`, `Prewitt` and `Sobel` of src/filtering.cpp.
-/
namespace PV

variable {μ : Type}

/-- Subtraction of `uint32_t` values. -/
def usub (a b : Nat) : Nat := u32 (a + 4294967296 - b)

/-- `*value = v` for a pointer to element `i` of a local `std::vector<uint8_t>`. src/filtering.cpp 129. -/
def storeAt (data : List UInt8) (i : Nat) (v : UInt8) : M μ (List UInt8) :=
  if i < data.length then pure (data.set i v) else ubE

/-- src/filtering.cpp 119-130: fill `data` with the window whose first pixel is at `p`. -/
def readWindow (b row k p : Nat) (data : List UInt8) : M BMem (List UInt8) := do
  let r ← rowLoop1 row 1 (fun q (s : List UInt8 × Nat) => do
    let v ← readC b q
    let d ← storeAt s.1 s.2 v
    pure (d, s.2 + 1)) p k k (data, 0)
  pure r.1

/-- src/filtering.cpp 119-133: one output pixel.  `nth` is `std::nth_element` (see `NthElement`). -/
def medianPixel (nth : List UInt8 → Nat → List UInt8) (bi rowIn bo k : Nat) (outX inX : Nat)
    (data : List UInt8) : M BMem (List UInt8) := do
  let d ← readWindow bi rowIn k inX data
  let d' := nth d (d.length / 2)
  let v ← orUb d'[d.length / 2]?
  writeC bo outX v
  pure d'

/-- src/filtering.cpp 79-136, `Median` with regions.  `data` is the local vector of the window. -/
def Median (nth : List UInt8 → Nat → List UInt8) (inp out : View) (w h k : Nat) : M BMem Unit := do
  validateRois [inp, out] w h
  verifyGray [inp.img, out.img]
  throwIf (decide (k < 3) || k % 2 == 0 || decide (k ≥ w) || decide (k ≥ h))
  CopyRoi inp out w (k / 2)
  CopyRoi ⟨inp.img, inp.x, usub (u32 (inp.y + h)) (k / 2)⟩ ⟨out.img, out.x, usub (u32 (out.y + h)) (k / 2)⟩
    w (k / 2)
  CopyRoi ⟨inp.img, inp.x, u32 (inp.y + k / 2)⟩ ⟨out.img, out.x, u32 (out.y + k / 2)⟩
    (k / 2) (usub h (usub k 1))
  CopyRoi ⟨inp.img, usub (u32 (inp.x + w)) (k / 2), u32 (inp.y + k / 2)⟩
    ⟨out.img, usub (u32 (out.x + w)) (k / 2), u32 (out.y + k / 2)⟩ (k / 2) (usub h (usub k 1))
  let _ ← rowLoop2 out.img.rowSize 1 inp.img.rowSize 1
    (medianPixel nth inp.img.data inp.img.rowSize out.img.data k)
    (u32 (u32 (out.y + k / 2) * out.img.rowSize) + out.x + k / 2) (inp.start 1)
    (usub w (usub k 1)) (usub h (usub k 1)) (List.replicate (u32 (k * k)) 0)
  pure ()

/-! ### Gradient filters -/

/-- `*( p - d )`. src/filtering.cpp 229, 336. -/
def readBack (b p d : Nat) : M BMem UInt8 := if d ≤ p then readC b (p - d) else ubE

/-- `kernel.kernel[i][j]` for the table `T` of `size` x `size` bytes (src/filtering.cpp 31-45). -/
def tableAt (size : Nat) (T : Nat → Nat → UInt8) (i j : Nat) : M μ UInt8 :=
  if i < size ∧ j < size then pure (T i j) else ubE

/-- The value of a byte as `int32_t`. -/
def toInt (a : UInt8) : Int := (a.toNat : Int)

/-- src/filtering.cpp 226-229: the two gradients of `Prewitt` at the pixel `p`
    (`yPlusX = rowSizeIn + 1`, `yMinusX = rowSizeIn - 1`, lines 200-201, 32-bit). -/
def prewittAt (b row p : Nat) : M BMem (Int × Int) := do
  let a ← readBack b p (u32 (row + 1))
  let i ← readC b (p + u32 (row + 1))
  let partialG := toInt a - toInt i
  let d ← readBack b p 1
  let g ← readC b (p + usub row 1)
  let c ← readBack b p (usub row 1)
  let f ← readC b (p + 1)
  let e ← readBack b p row
  let j ← readC b (p + row)
  pure (partialG + toInt d + toInt g - toInt c - toInt f,
    partialG + toInt e + toInt c - toInt g - toInt j)

/-- src/filtering.cpp 333-336: the two gradients of `Sobel` at the pixel `p`. -/
def sobelAt (b row p : Nat) : M BMem (Int × Int) := do
  let a ← readBack b p (u32 (row + 1))
  let i ← readC b (p + u32 (row + 1))
  let partialG := toInt a - toInt i
  let g ← readC b (p + usub row 1)
  let c ← readBack b p (usub row 1)
  let d ← readBack b p 1
  let f ← readC b (p + 1)
  let e ← readBack b p row
  let j ← readC b (p + row)
  pure (partialG + toInt g - toInt c + 2 * (toInt d - toInt f),
    partialG + toInt c - toInt g + 2 * (toInt e - toInt j))

/-- src/filtering.cpp 214-232 and 321-339: one row of gradients; returns the output pointer. -/
def gradCells (grad : Nat → M BMem (Int × Int)) (size : Nat) (T : Nat → Nat → UInt8) (bo gw inX outX : Nat) :
    M BMem Nat :=
  loop (fun t => t != inX + gw) (fun t => t + 1) (fun t o => do
    let g ← grad t
    let v ← tableAt size T g.1.natAbs g.2.natAbs
    writeC bo o v
    pure (o + 1)) fuelMax inX outX

/-- src/filtering.cpp 208-212 and 315-319: `if ( startXOffset == 0u ) { *outX = 0; ++outX; }` -/
def firstZero (off bo outX : Nat) : M BMem Nat :=
  if off = 0 then do
    writeC bo outX 0
    pure (outX + 1)
  else pure outX

/-- src/filtering.cpp 234-237 and 341-344: `if ( endXOffset == 0u ) *outX = 0;` -/
def lastZero (off bo outX : Nat) : M BMem Unit := if off = 0 then writeC bo outX 0 else pure ()

/-- src/filtering.cpp 194-198 and 302-306: `if ( startYOffset == 0u ) { memset( outY, 0, width ); outY += rowSizeOut; }` -/
def topZero (off bo outY w row : Nat) : M BMem Nat :=
  if off = 0 then do
    memsetC bo outY 0 w
    pure (outY + row)
  else pure outY

/-- src/filtering.cpp 240-243 and 347-350: `if ( endYOffset == 0u ) memset( outY, 0, width );` -/
def bottomZero (off bo outY w : Nat) : M BMem Unit := if off = 0 then memsetC bo outY 0 w else pure ()

/-- src/filtering.cpp 205-238 and 312-345: one row. -/
def gradRow (grad : Nat → M BMem (Int × Int)) (size : Nat) (T : Nat → Nat → UInt8) (bo gw sx ex inY outY : Nat) :
    M BMem Unit := do
  let outX ← firstZero sx bo outY
  let outX ← gradCells grad size T bo gw inY outX
  lastZero ex bo outX

/-- src/filtering.cpp 167-244 (`Prewitt`) and 275-351 (`Sobel`), which differ in the gradient
    `grad` and in the size of the table.  The table itself is a parameter. -/
def gradientFilter (grad : Nat → M BMem (Int × Int)) (size : Nat) (T : Nat → Nat → UInt8) (inp out : View)
    (w h : Nat) : M BMem Unit := do
  validateRois [inp, out] w h
  verifyGray [inp.img, out.img]
  throwIf (decide (w < 3) || decide (h < 3))
  let sx := if inp.x > 0 then 1 else 0
  let sy := if inp.y > 0 then 1 else 0
  let ex := if u32 (u32 (inp.x + w) + 1) < inp.img.width then 1 else 0
  let ey := if u32 (u32 (inp.y + h) + 1) < inp.img.height then 1 else 0
  let gw := usub w ((if sx > 0 then 0 else 1) + (if ex > 0 then 0 else 1))
  let gh := usub h ((if sy > 0 then 0 else 1) + (if ey > 0 then 0 else 1))
  let inY := u32 (usub (u32 (inp.y + 1)) sy * inp.img.rowSize) + inp.x + 1 - sx
  let outY ← topZero sy out.img.data (out.start 1) w out.img.rowSize
  let outY ← loop (fun s => s != inY + u32 (gh * inp.img.rowSize)) (fun s => s + inp.img.rowSize)
    (fun s outY => do
      gradRow grad size T out.img.data gw sx ex s outY
      pure (outY + out.img.rowSize)) fuelMax inY outY
  bottomZero ey out.img.data outY w

/-- src/filtering.cpp 167-244 -/
def Prewitt (T : Nat → Nat → UInt8) (inp out : View) (w h : Nat) : M BMem Unit :=
  gradientFilter (prewittAt inp.img.data inp.img.rowSize) 768 T inp out w h

/-- src/filtering.cpp 275-351 -/
def Sobel (T : Nat → Nat → UInt8) (inp out : View) (w h : Nat) : M BMem Unit :=
  gradientFilter (sobelAt inp.img.data inp.img.rowSize) 1024 T inp out w h

end PV
