import Verif.Dilate
/-
  The forms of BinaryDilate and BinaryErode for whole images, and sequences of calls.
-/
namespace PV

/-- src/image_function.cpp 271-276 -/
def BinaryDilateAll (img : Image) (dilationX dilationY : Nat) : M BMem Unit := do
  validateImage img
  BinaryDilate ⟨img, 0, 0⟩ img.width img.height dilationX dilationY

/-- src/image_function.cpp 283-288 -/
def BinaryErodeAll (img : Image) (erosionX erosionY : Nat) : M BMem Unit := do
  validateImage img
  BinaryErode ⟨img, 0, 0⟩ img.width img.height erosionX erosionY

/-- What a user calls closing: src/image_function.cpp 278-281 followed by 290-293 -/
def Closing (v : View) (w h dx dy : Nat) : M BMem Unit := do
  BinaryDilate v w h dx dy
  BinaryErode v w h dx dy

/-- What a user calls opening: src/image_function.cpp 290-293 followed by 278-281 -/
def Opening (v : View) (w h dx dy : Nat) : M BMem Unit := do
  BinaryErode v w h dx dy
  BinaryDilate v w h dx dy

end PV
