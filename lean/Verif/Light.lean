import Verif.Rounding
import Verif.Otsu
import Verif.Arr
import Verif.PixelFn
/-
  Model of src/tool/light_correction.cpp.

  The state is the memory with the pixels and one object of the class.  The class has no constructor, so width and height
  of a new object have no value (`none`); to read them is undefined.
-/
namespace PV.Light
open PV

/-- The members of `LightCorrection` (src/tool/light_correction.h 40-42) -/
structure Obj where
  size : Option (Nat × Nat)
  data : Arr Nat

/-- Not in the code: machinery of the model. -/
abbrev LMem := BMem × Obj

/-- An action on the pixels only. Not in the code: machinery of the model. -/
def onPix {α : Type} (x : M BMem α) : M LMem α := fun s =>
  match x s.1 with
  | .ok a m => .ok a (m, s.2)
  | .throw m => .throw (m, s.2)
  | .ub => .ub

/-- `LightCorrection light;`. src/tool/light_correction.h 40-42. -/
def newObj : Obj := ⟨none, ⟨0, fun _ => 0⟩⟩

/-- `_width` and `_height`. src/tool/light_correction.h 41-42. -/
def getSize : M LMem (Nat × Nat) := fun s =>
  match s.2.size with
  | some q => .ok q s
  | none => .ub

/-- `_width = ...; _height = ...; _data.resize( n );` (src/tool/light_correction.cpp, lines 28-31): new elements are zero. -/
def setSize (w h n : Nat) : M LMem Unit := fun s =>
  .ok () (s.1, ⟨some (w, h), ⟨n, fun i => if i < s.2.data.len then s.2.data.at' i else 0⟩⟩)

/-- `_data`, src/tool/light_correction.h 40. -/
def getData : M LMem (Arr Nat) := fun s => .ok s.2.data s
/-- `_data`, src/tool/light_correction.h 40. -/
def setData (d : Arr Nat) : M LMem Unit := fun s => .ok () (s.1, { s.2 with data := d })

/-- The loops of src/tool/light_correction.cpp 36-51 -/
def analyzeMinMax (img : Image) : M LMem (UInt8 × UInt8) :=
  rowLoop1 img.rowSize 1 (fun imageX s => do
    let a ← onPix (readC img.data imageX)
    pure (if a < s.1 ∧ a > 0 then a else s.1, if a > s.2 ∧ a < 255 then a else s.2)) 0 img.width img.height (255, 0)

/-- `static_cast<unsigned int>( q )`. src/tool/light_correction.cpp 70. -/
def toUInt (q : ℚ) : M LMem Nat := if -1 < q ∧ q < 4294967296 then pure ⌊q⌋.toNat else ubE

/-- src/tool/light_correction.cpp 65-70 -/
def tableValue (rnd : ℚ → ℚ) (mn mx a : UInt8) : M LMem Nat :=
  if a > mx then pure 4194304
  else if a < mn then pure 4194304
  else do
    let q ← divD rnd (rnd ((a.toNat : ℚ) * 4194304)) mx.toNat
    let n ← toUInt q
    pure (u32 (n + 1))

/-- src/tool/light_correction.cpp 24-73 -/
def analyze (rnd : ℚ → ℚ) (img : Image) : M LMem Unit := do
  validateImage img
  setSize img.width img.height (u32 (img.width * img.height))
  let s ← analyzeMinMax img
  throwIf (decide (s.1 ≥ s.2))
  let d ← getData
  let r ← rowLoop1 img.rowSize 1 (fun imageX (q : Nat × Arr Nat) => do
    let a ← onPix (readC img.data imageX)
    let v ← tableValue rnd s.1 s.2 a
    let d ← q.2.wr q.1 v
    pure (q.1 + 1, d)) 0 img.width img.height (0, d)
  setData r.2

/-- `( ( ( *imageX ) << 22 ) + ( ( *dataX ) >> 1u ) ) / ( *dataX )` limited to 255 (src/tool/light_correction.cpp, lines 99-106) -/
def corrected {μ : Type} (a : UInt8) (d : Nat) : M μ UInt8 :=
  if d = 0 then ubE
  else pure (if u32 (a.toNat * 4194304 + d / 2) / d > 255 then 255 else UInt8.ofNat (u32 (a.toNat * 4194304 + d / 2) / d))

/-- src/tool/light_correction.cpp 82-108 -/
def correct (v : View) (w h : Nat) : M LMem Unit := do
  validateRoi v w h
  let size ← getSize
  throwIf (size.1 == 0 || size.2 == 0)
  let d ← getData
  rowLoop2 v.img.rowSize 1 size.1 1 (fun imageX dataX _ => do
    let a ← onPix (readC v.img.data imageX)
    let e ← d.rd dataX
    let b ← corrected a e
    onPix (writeC v.img.data imageX b)) (v.start 1) (v.x + u32 (v.y * size.1)) w h ()

/-- src/tool/light_correction.cpp 75-80 -/
def correctImage (img : Image) : M LMem Unit := do
  validateImage img
  correct ⟨img, 0, 0⟩ img.width img.height

/-- src/tool/light_correction.cpp 110-129; `y` and `x` count the rounds, as `uint32_t`. -/
def findIncorrectPixels (img : Image) : M LMem (List (Nat × Nat)) := do
  let size ← getSize
  loop (fun s : Nat × Nat => s.1 != u32 (size.2 * img.rowSize)) (fun s => (s.1 + img.rowSize, u32 (s.2 + 1)))
    (fun s l => loop (fun t : Nat × Nat => t.1 != s.1 + size.1) (fun t => (t.1 + 1, u32 (t.2 + 1))) (fun t l => do
      let a ← onPix (readC img.data t.1)
      if a = 0 ∨ a = 255 then pure (l ++ [(t.2, s.2)]) else pure l) fuelMax (s.1, 0) l) fuelMax (0, 0) []

end PV.Light
