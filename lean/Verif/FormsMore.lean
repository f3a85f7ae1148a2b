import Verif.Forms
import Verif.Reduce
import Verif.Convert16
/-
  Model of the forms of src/image_function_helper.cpp and src/image_function.cpp that take whole images, or return numbers
  instead of filling a vector of the caller, and are not in `Forms`.

  The pointer to the long form each of them takes is the function of src/image_function.cpp.
-/
namespace PV.FormsMore

/-! ### Numbers from images -/

/-- `void Accumulate( image, result )`. src/image_function_helper.cpp 109-114. -/
def accumulateWhole (image : Image) : M VMem Unit := do
  validateImage image
  Accumulate ⟨image, 0, 0⟩ image.width image.height

/-- `std::vector Histogram( image )`. src/image_function_helper.cpp 442-449. -/
def histogramNew (image : Image) : M BMem (List UInt32) :=
  withVec (Histogram ⟨image, 0, 0⟩ image.width image.height)

/-- `void Histogram( image, histogramTable )`. src/image_function_helper.cpp 451-456. -/
def histogramWhole (image : Image) : M VMem Unit := do
  validateImage image
  Histogram ⟨image, 0, 0⟩ image.width image.height

/-- `std::vector Histogram( image, x, y, width, height )`. src/image_function_helper.cpp 458-467. -/
def histogramNewRoi (image : View) (w h : Nat) : M BMem (List UInt32) := do
  validateRoi image w h
  withVec (Histogram image w h)

/-- `std::vector Histogram( image, mask )`. src/image_function_helper.cpp 469-478. -/
def maskedNew (image mask : Image) : M BMem (List UInt32) := do
  validateImages2 image mask
  withVec (HistogramMask ⟨image, 0, 0⟩ ⟨mask, 0, 0⟩ image.width image.height)

/-- `void Histogram( image, mask, histogramTable )`. src/image_function_helper.cpp 480-485. -/
def maskedWhole (image mask : Image) : M VMem Unit := do
  validateImages2 image mask
  HistogramMask ⟨image, 0, 0⟩ ⟨mask, 0, 0⟩ image.width image.height

/-- `std::vector Histogram( image, x, y, mask, maskX, maskY, width, height )`. src/image_function_helper.cpp 487-497. -/
def maskedNewRoi (image mask : View) (w h : Nat) : M BMem (List UInt32) := do
  validateRois [image, mask] w h
  withVec (HistogramMask image mask w h)

/-- `std::vector ProjectionProfile( image, horizontal )`. src/image_function_helper.cpp 685-692. -/
def profileNew (image : Image) (horizontal : Bool) : M BMem (List UInt32) :=
  withVec (ProjectionProfile ⟨image, 0, 0⟩ image.width image.height horizontal)

/-- `void ProjectionProfile( image, horizontal, projection )`. src/image_function_helper.cpp 694-697. -/
def profileWhole (image : Image) (horizontal : Bool) : M VMem Unit :=
  ProjectionProfile ⟨image, 0, 0⟩ image.width image.height horizontal

/-- `std::vector ProjectionProfile( image, x, y, width, height, horizontal )`. src/image_function_helper.cpp 699-707. -/
def profileNewRoi (image : View) (w h : Nat) (horizontal : Bool) : M BMem (List UInt32) :=
  withVec (ProjectionProfile image w h horizontal)

/-- `bool IsEqual( in1, in2 )`. src/image_function_helper.cpp 528-533. -/
def isEqualWhole (in1 in2 : Image) : M BMem Bool := do
  validateImages2 in1 in2
  IsEqual ⟨in1, 0, 0⟩ ⟨in2, 0, 0⟩ in1.width in1.height

/-- `bool IsBinary( image )`. src/image_function.cpp 1008-1013. -/
def isBinaryWhole (image : Image) : M BMem Bool := do
  validateImage image
  IsBinary ⟨image, 0, 0⟩ image.width image.height

/-- `uint32_t Sum( image )`. src/image_function.cpp 1942-1945. -/
def sumWhole (image : Image) : M BMem UInt32 := Sum ⟨image, 0, 0⟩ image.width image.height

/-! ### Images from images -/

/-- `void Merge( in1, in2, in3, out )`. src/image_function_helper.cpp 606-612. -/
def mergeWhole (in1 in2 in3 out : Image) : M BMem Unit := do
  validateImages [in1, in2, in3]
  validateImages2 in1 out
  Merge ⟨in1, 0, 0⟩ ⟨in2, 0, 0⟩ ⟨in3, 0, 0⟩ ⟨out, 0, 0⟩ out.width out.height

/-- `void Split( in, out1, out2, out3 )`. src/image_function_helper.cpp 894-900. -/
def splitWhole (inp out1 out2 out3 : Image) : M BMem Unit := do
  validateImages [inp, out1, out2]
  validateImages2 inp out3
  Split ⟨inp, 0, 0⟩ ⟨out1, 0, 0⟩ ⟨out2, 0, 0⟩ ⟨out3, 0, 0⟩ inp.width inp.height

/-- `void Transpose( in, out )`. src/image_function_helper.cpp 1003-1009. -/
def transposeWhole (inp out : Image) : M BMem Unit := do
  validateImage inp
  validateImage out
  Transpose ⟨inp, 0, 0⟩ ⟨out, 0, 0⟩ inp.width inp.height

/-- `void Resize( in, out )`. src/image_function_helper.cpp 720-726. -/
def resizeWhole (inp out : Image) : M BMem Unit := do
  validateImage inp
  validateImage out
  Resize ⟨inp, 0, 0⟩ inp.width inp.height ⟨out, 0, 0⟩ out.width out.height

/-- `void ConvertTo16Bit( in, out )`. src/image_function_helper.cpp 206-212. -/
def to16Whole (src : BMem) (inp out : Image) : M (Mem UInt16) Unit := do
  validateImage inp
  validateImage out
  ConvertTo16Bit src ⟨inp, 0, 0⟩ ⟨out, 0, 0⟩ inp.width inp.height

/-- `void ConvertTo8Bit( in, out )`. src/image_function_helper.cpp 214-220. -/
def to8Whole (src : Mem UInt16) (inp out : Image) : M BMem Unit := do
  validateImage inp
  validateImage out
  ConvertTo8Bit src ⟨inp, 0, 0⟩ ⟨out, 0, 0⟩ inp.width inp.height

end PV.FormsMore
