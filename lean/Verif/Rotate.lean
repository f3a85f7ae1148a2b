import Verif.Edge
/-
  Model of `Rotate` and `Shift` of src/image_function.cpp.

  `rnd` is the rounding of `double` operations.  The results of `cos` and `sin` are parameters:
  the functions of the C library are not modelled.
-/
namespace PV.Move

variable {μ : Type}

/-- `static_cast<uint32_t>( q )` of a floating-point value: undefined unless the truncated value fits (C++ [conv.fpint]) -/
def toU32 (q : ℚ) : M μ Nat := if -1 < q ∧ q < 4294967296 then pure ⌊q⌋.toNat else ubE

/-- `static_cast<uint8_t>( q )` of a floating-point value. src/image_function.cpp 1706. -/
def toU8 (q : ℚ) : M μ UInt8 := if -1 < q ∧ q < 256 then pure (UInt8.ofNat ⌊q⌋.toNat) else ubE

/-! ### `Rotate` -/

/-- src/image_function.cpp 1703-1704, `sum` -/
def rotateSum (rnd : ℚ → ℚ) (a b c d : UInt8) (cx cy : ℚ) : ℚ :=
  rnd (rnd (rnd (rnd (rnd (rnd (a.toNat * rnd (1 - cx)) * rnd (1 - cy)) + rnd (rnd (b.toNat * cx) * rnd (1 - cy)))
    + rnd (rnd (c.toNat * rnd (1 - cx)) * cy)) + rnd (rnd (d.toNat * cx) * cy)) + 1 / 2)

/-- src/image_function.cpp 1683-1708: one output pixel; `t` is (outX, posX, posY) -/
def rotatePixel (rnd : ℚ → ℚ) (bi rowIn : Nat) (minX minY : ℚ) (maxX maxY bo : Nat) (t : Nat × ℚ × ℚ) : M BMem Unit :=
  if t.2.1 < minX ∨ t.2.2 < minY then writeC bo t.1 0
  else do
    let x ← toU32 t.2.1
    let y ← toU32 t.2.2
    if maxX ≤ x ∨ maxY ≤ y then writeC bo t.1 0
    else do
      let p := u32 (y * rowIn) + x
      let a ← readC bi p
      let b ← readC bi (p + 1)
      let c ← readC bi (p + rowIn)
      let d ← readC bi (p + rowIn + 1)
      let v ← toU8 (rotateSum rnd a b c d (rnd (t.2.1 - x)) (rnd (t.2.2 - y)))
      writeC bo t.1 v

/-- src/image_function.cpp 1676-1709: one output row; `s` is (outY, inXPos, inYPos) -/
def rotateRow (rnd : ℚ → ℚ) (cosA sinA : ℚ) (bi rowIn : Nat) (minX minY : ℚ) (maxX maxY bo width : Nat) (s : Nat × ℚ × ℚ) : M BMem Unit :=
  loop (fun t => t.1 != s.1 + width) (fun t => (t.1 + 1, rnd (t.2.1 + cosA), rnd (t.2.2 - sinA)))
    (fun t _ => rotatePixel rnd bi rowIn minX minY maxX maxY bo t) fuelMax s ()

/-- src/image_function.cpp 1651-1711, `Rotate`; `cosA`, `sinA` are the results of `cos( angle )` and `sin( angle )` -/
def Rotate (rnd : ℚ → ℚ) (cosA sinA : ℚ) (inp : View) (cxIn cyIn : ℚ) (out : View) (cxOut cyOut : ℚ) (width height : Nat) :
    M BMem Unit := do
  validateRois [inp, out] width height
  verifyGray [inp.img, out.img]
  let outY := out.start 1
  let xPos := rnd (-(rnd (rnd (cosA * cxOut) + rnd (sinA * cyOut))) + cxIn)
  let yPos := rnd (-(rnd (rnd (-sinA * cxOut) + rnd (cosA * cyOut))) + cyIn)
  let maxX := usub (u32 (inp.x + width)) 1
  let maxY := usub (u32 (inp.y + height)) 1
  loop (fun s => s.1 != outY + u32 (height * out.img.rowSize))
    (fun s => (s.1 + out.img.rowSize, rnd (s.2.1 + sinA), rnd (s.2.2 + cosA)))
    (fun s _ => rotateRow rnd cosA sinA inp.img.data inp.img.rowSize inp.x inp.y maxX maxY out.img.data width s)
    fuelMax (outY, xPos, yPos) ()

/-! ### `Shift` -/

/-- `static_cast<int32_t>( q )` of a floating-point value: truncation, undefined unless the result fits -/
def truncInt (q : ℚ) : M μ Int := Edge.int32 (if 0 ≤ q then ⌊q⌋ else ⌈q⌉)

/-- src/image_function.cpp 1769-1779, for one axis: the whole part (`shiftXIntegral`) and the rest (`shiftX`) -/
def shiftSplit (rnd : ℚ → ℚ) (shift : ℚ) : M μ (Int × ℚ) := do
  let t ← truncInt shift
  let i ← Edge.int32 (-t)
  let f := rnd (shift + i)
  if f > 0 then do
    let j ← Edge.int32 (i - 1)
    pure (j, f)
  else pure (i, f)

/-- src/image_function.cpp 1781-1782, `coeffX` and `coeffY` -/
def shiftCoeff (rnd : ℚ → ℚ) (f : ℚ) : ℚ := if f < 0 then rnd (1 + f) else f

/-- src/image_function.cpp 1785-1788, one of `coeff0` … `coeff3` -/
def shiftWeight (rnd : ℚ → ℚ) (a b : ℚ) : M μ Nat := toU32 (rnd (rnd (rnd (a * b) * 16384) + 1 / 2))

/-- src/image_function.cpp 1793-1794 and 1800-1801, `emptyLeftArea` and `emptyTopArea` -/
def emptyBefore (i : Int) (start : Nat) : M μ Nat :=
  if i < 0 then do
    let n ← Edge.int32 (-i)
    pure (if start < n.toNat then usub n.toNat start else 0)
  else pure 0

/-- src/image_function.cpp 1795-1797 and 1802-1804, `emptyRightArea` and `emptyBottomArea` -/
def emptyAfter (i : Int) (start size limit : Nat) : Nat :=
  if i > 0 ∧ limit < u32 (u32 (start + size) + i.toNat) then usub (u32 (u32 (start + size) + i.toNat)) limit else 0

/-- Reading at a position which may be before the block. src/image_function.cpp 1703-1704. -/
def readI (b : Nat) (p : Int) : M BMem UInt8 := if 0 ≤ p then readC b p.toNat else ubE

/-- src/image_function.cpp 1831-1836: one output pixel; `t` is (outX, inX) -/
def shiftPixel (bi rowIn : Nat) (k0 k1 k2 k3 bo : Nat) (t : Nat × Int) : M BMem Unit := do
  let a ← readI bi t.2
  let d0 := u32 (a.toNat * k0)
  let b ← readI bi (t.2 + rowIn)
  let d1 := u32 (d0 + u32 (b.toNat * k3))
  let c ← readI bi (t.2 + 1)
  let d2 := u32 (d1 + u32 (c.toNat * k1))
  let d ← readI bi (t.2 + 1 + rowIn)
  let d3 := u32 (d2 + u32 (d.toNat * k2))
  writeC bo t.1 (UInt8.ofNat (u32 (d3 + 8192) / 16384))

/-- src/image_function.cpp 1823-1839: one output row with input; `s` is (outY, inY) -/
def shiftRow (bi rowIn : Nat) (k0 k1 k2 k3 bo emptyLeft realWidth emptyRight : Nat) (s : Nat × Int) : M BMem Unit := do
  memsetC bo s.1 0 emptyLeft
  loop (fun t => t.1 != s.1 + emptyLeft + realWidth) (fun t => (t.1 + 1, t.2 + 1))
    (fun t _ => shiftPixel bi rowIn k0 k1 k2 k3 bo t) fuelMax (s.1, s.2 + emptyLeft) ()
  memsetC bo (s.1 + emptyLeft + realWidth) 0 emptyRight

/-- src/image_function.cpp 1815-1817 and 1842-1844: `n` rows of zeros from `outY` on -/
def zeroRows (bo outY rowOut width n : Nat) : M BMem Unit :=
  loop (fun s => s != outY + u32 (n * rowOut)) (fun s => s + rowOut) (fun s _ => memsetC bo s 0 width) fuelMax outY ()

/-- src/image_function.cpp 1784-1844: `Shift` after the shift has been split -/
def shiftRows (rnd : ℚ → ℚ) (inp out : View) (width height : Nat) (iX iY : Int) (cx cy : ℚ) : M BMem Unit := do
  let k0 ← shiftWeight rnd cx cy
  let k1 ← shiftWeight rnd (rnd (1 - cx)) cy
  let k2 ← shiftWeight rnd (rnd (1 - cx)) (rnd (1 - cy))
  let k3 ← shiftWeight rnd cx (rnd (1 - cy))
  let emptyLeft ← emptyBefore iX inp.x
  let emptyRight := emptyAfter iX inp.x width (usub inp.img.width 1)
  let realWidth := usub (usub width emptyLeft) emptyRight
  let emptyTop ← emptyBefore iY inp.y
  let emptyBottom := emptyAfter iY inp.y height (usub inp.img.height 1)
  let realHeight := usub (usub height emptyTop) emptyBottom
  let rowIn := inp.img.rowSize
  let rowOut := out.img.rowSize
  let prod ← Edge.int32 (iY * Edge.toInt rowIn)
  let step ← Edge.int32 (iX + prod)
  let inY : Int := (inp.start 1 : Nat) + step
  let outY := out.start 1
  zeroRows out.img.data outY rowOut width emptyTop
  let inY : Int := inY + (u32 (emptyTop * rowIn) : Nat)
  let outY := outY + u32 (emptyTop * rowOut)
  loop (fun s : Nat × Int => s.1 != outY + u32 (realHeight * rowOut)) (fun s => (s.1 + rowOut, s.2 + rowIn))
    (fun s _ => shiftRow inp.img.data rowIn k0 k1 k2 k3 out.img.data emptyLeft realWidth emptyRight s) fuelMax (outY, inY) ()
  let outY := outY + u32 (realHeight * rowOut)
  zeroRows out.img.data outY rowOut width emptyBottom

/-- src/image_function.cpp 1759-1845, `Shift` -/
def Shift (rnd : ℚ → ℚ) (inp out : View) (width height : Nat) (shiftX shiftY : ℚ) : M BMem Unit := do
  validateRois [inp, out] width height
  verifyGray [inp.img, out.img]
  throwIf (decide (|shiftX| > usub width 1) || decide (|shiftY| > usub height 1))
  let a ← shiftSplit rnd shiftX
  let b ← shiftSplit rnd shiftY
  shiftRows rnd inp out width height a.1 b.1 (shiftCoeff rnd a.2) (shiftCoeff rnd b.2)

end PV.Move
