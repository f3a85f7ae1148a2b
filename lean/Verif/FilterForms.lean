import Verif.Forms
import Verif.Filter
/-
  Model of the forms of the filters which return a new image, or work on whole images, src/filtering.cpp.

  They have the structure of the other functions of one image (Forms.lean): `Image out( width, height )` gives the image which
  `generate` gives there, of one colour.
-/
namespace PV.Forms

/-- src/filtering.cpp 49-76 -/
def median (nth : List UInt8 → Nat → List UInt8) (k : Nat) : Fn1 where full v o w h := Median nth v o w h k; cc _ := 1

/-- src/filtering.cpp 138-164 -/
def prewitt (T : Nat → Nat → UInt8) : Fn1 where full := Prewitt T; cc _ := 1

/-- src/filtering.cpp 246-272 -/
def sobel (T : Nat → Nat → UInt8) : Fn1 where full := Sobel T; cc _ := 1

end PV.Forms
