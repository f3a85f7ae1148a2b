import Verif.Arr
import Verif.Otsu
import Verif.Normalize
/-
  Model of src/fft.cpp without the transforms themselves (which are done by a third-party library).

  A `ComplexData` object is a width, a height and an array of pairs; the array is absent when nothing was allocated.
  Numbers are rationals, `rnd` is the rounding of each operation.  complexMultiplication takes three objects which may
  be the same object, so there the arrays are blocks of a memory of pairs.
-/
namespace PV.Fft
open PV

/-- src/math/fft_base.h 113-115. -/
structure Data where
  width : Nat
  height : Nat
  data : Option (Arr (ℚ × ℚ))

/-- src/fft.cpp 54-85 -/
def setImage (img : Image) : M BMem Data := do
  throwIf (img.empty || img.cc != 1)
  let r ← rowLoop1 img.rowSize 1 (fun inX (q : Nat × Arr (ℚ × ℚ)) => do
    let a ← readC img.data inX
    let d ← q.2.wr q.1 ((a.toNat : ℚ), 0)
    pure (q.1 + 1, d)) 0 img.width img.height (0, ⟨u32 (img.width * img.height), fun _ => (0, 0)⟩)
  pure ⟨img.width, img.height, some r.2⟩

/-- The copying loop of src/fft.cpp 92-99; the vector has as many elements as the loop has rounds. -/
def copyVector (v : List ℚ) (n : Nat) (d : Arr (ℚ × ℚ)) : M BMem (Arr (ℚ × ℚ)) :=
  loop (fun k => k != n) (fun k => k + 1) (fun k d => do
    let a ← orUb v[k]?
    d.wr k (a, 0)) fuelMax 0 d

/-- src/fft.cpp 87-100; `_data` is not allocated only if width and height are zero. -/
def setVector (v : List ℚ) (c : Data) : M BMem Data := do
  throwIf (v.isEmpty || c.width == 0 || c.height == 0 || v.length != u32 (c.width * c.height))
  let d ← orUb c.data
  let d ← copyVector v (u32 (c.width * c.height)) d
  pure { c with data := some d }

/-- `outY` and `outX` (src/fft.cpp 115 and 120) -/
def shifted (k middle : Nat) : Nat := if k < middle then u32 (middle + k) else k - middle

/-- `static_cast<uint8_t>( r / static_cast<float>( size ) + 0.5 )` (src/fft.cpp, line 121) -/
def toPixel (rnd : ℚ → ℚ) (r : ℚ) (size : Nat) : M BMem UInt8 := do
  let q ← divD rnd r size
  orUb (castU8 (fun _ => none) (rnd (q + 1 / 2)))

/-- `Image( width, height, 1, 1 )`: block `b` with arbitrary contents. src/fft.cpp 102-107. -/
def newGray (b w h : Nat) : M BMem Image := fun m =>
  .ok ⟨b, w, h, 1, w⟩ { m with size := fun k => if k = b then h * w else m.size k }

/-- src/fft.cpp 102-126; `b` is the block allocated for the image. -/
def getImage (rnd : ℚ → ℚ) (c : Data) (b : Nat) : M BMem Image :=
  match c.data with
  | none => pure ⟨0, 0, 0, 1, 0⟩
  | some d => do
    let img ← newGray b c.width c.height
    forLoop 0 c.height (fun inY _ =>
      forLoop 0 c.width (fun inX _ => do
        let a ← d.rd (u32 (u32 (inY * c.width) + inX))
        let v ← toPixel rnd a.1 (u32 (c.width * c.height))
        writeC b (u32 (u32 (shifted inY (c.height / 2) * c.width) + shifted inX (c.width / 2))) v) ()) ()
    pure img

/-- One step of src/fft.cpp 197-200: the two members are written one after the other. -/
def multiplyAt (rnd : ℚ → ℚ) (p q o k : Nat) : M (Mem (ℚ × ℚ)) Unit := do
  let a ← readC p k
  let b ← readC q k
  let c ← readC o k
  writeC o k (rnd (rnd (a.1 * b.1) - rnd (a.2 * b.2)), c.2)
  let a ← readC p k
  let b ← readC q k
  let c ← readC o k
  writeC o k (c.1, rnd (rnd (a.1 * b.2) + rnd (a.2 * b.1)))

/-- An object whose array is block `data`. src/math/fft_base.h 113-115. -/
structure Obj where
  width : Nat
  height : Nat
  data : Nat

/-- src/fft.cpp 181-201 -/
def complexMultiplication (rnd : ℚ → ℚ) (p q o : Obj) : M (Mem (ℚ × ℚ)) Unit := do
  throwIf (!(p.width == q.width && p.height == q.height) || !(p.width == o.width && p.height == o.height) || p.width == 0 || p.height == 0)
  loop (fun k => k != u32 (p.width * p.height)) (fun k => k + 1) (fun k _ => multiplyAt rnd p.data q.data o.data k) fuelMax 0 ()

end PV.Fft
