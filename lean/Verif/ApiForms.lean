import Verif.Library
import Verif.FormsMore
import Verif.SimdBuild
/-
  The functions a program calls: those of the namespace `Image_Function_Simd` (src/image_function_simd.cpp 3234-3608) with all their forms, and
  those of the namespace `penguinV` (src/penguinv/penguinv.cpp 65-634) for images in the memory of the host (`type()` is 0).

  Not here: ConvertTo16Bit and ConvertTo8Bit, whose whole-image forms with an image of the caller are in `FormsMore`.
-/
namespace PV.Api
open PV PV.Forms PV.Library PV.TypeManager PV.Simd

/-! ### `Image_Function_Simd` -/

/-- src/image_function_simd.cpp 3396-3414 -/
def simdToRgb (s : Setup) : Fn1 where full := Simd.Api.ConvertToRgb s; cc _ := 3
/-- src/image_function_simd.cpp 3416-3435 -/
def simdFlip (s : Setup) (hor ver : Bool) : Fn1 where full v o w h := Simd.Api.Flip s v o w h hor ver; cc _ := 1
/-- src/image_function_simd.cpp 3437-3455 -/
def simdInvert (s : Setup) : Fn1 where full := Simd.Api.Invert s; cc n := n
/-- src/image_function_simd.cpp 3516-3534 -/
def simdRgbToBgr (s : Setup) : Fn1 where full := Simd.Api.RgbToBgr s; cc _ := 3
/-- src/image_function_simd.cpp 3567-3586 -/
def simdThreshold (s : Setup) (t : UInt8) : Fn1 where full v o w h := Simd.Api.Threshold s v o w h t; cc _ := 1
/-- src/image_function_simd.cpp 3588-3607 -/
def simdThreshold2 (s : Setup) (lo hi : UInt8) : Fn1 where full v o w h := Simd.Api.Threshold2 s v o w h lo hi; cc _ := 1

/-- `Accumulate( image, result )`. src/image_function_simd.cpp 3259-3262, src/image_function_helper.cpp 109-114. -/
def simdAccumulateWhole (s : Setup) (image : Image) : M VMem Unit := do
  validateImage image
  Simd.Api.Accumulate s ⟨image, 0, 0⟩ image.width image.height

/-- `ProjectionProfile( image, horizontal )`. src/image_function_simd.cpp 3499-3502, src/image_function_helper.cpp 685-692. -/
def simdProfileNew (s : Setup) (image : Image) (horizontal : Bool) : M BMem (List UInt32) :=
  withVec (Simd.Api.ProjectionProfile s ⟨image, 0, 0⟩ image.width image.height horizontal)

/-- `ProjectionProfile( image, horizontal, projection )`. src/image_function_simd.cpp 3503-3506, src/image_function_helper.cpp 694-697. -/
def simdProfileWhole (s : Setup) (image : Image) (horizontal : Bool) : M VMem Unit :=
  Simd.Api.ProjectionProfile s ⟨image, 0, 0⟩ image.width image.height horizontal

/-- `ProjectionProfile( image, x, y, width, height, horizontal )`. src/image_function_simd.cpp 3507-3510, src/image_function_helper.cpp 699-707. -/
def simdProfileNewRoi (s : Setup) (image : View) (w h : Nat) (horizontal : Bool) : M BMem (List UInt32) :=
  withVec (Simd.Api.ProjectionProfile s image w h horizontal)

/-- `Sum( image )`. src/image_function_simd.cpp 3557-3560. -/
def simdSumWhole (s : Setup) (image : Image) : M BMem UInt32 := Simd.Api.Sum s ⟨image, 0, 0⟩ image.width image.height

/-! ### `penguinV` -/

/-- A program: the files with functions it is linked with, in the order their tables are registered; whether it has enabled conversions between
    types of images; and the build, processor and switches of the SIMD functions. src/image_function_helper.cpp 1043-1160. -/
structure Program where
  files : List Module
  conversion : Bool
  setup : Setup

/-- The macro `initialize` and the call after it, for images of the host: `base` is the function of src/image_function.cpp, `simd` the one of
    src/image_function_simd.cpp. A function for images of a device would use addresses of the host on the device: undefined behaviour.
    `manager( image )` returns an image of the right type as it is (src/penguinv/image_manager.h 69-91). src/penguinv/penguinv.cpp 46-62. -/
def host {μ α : Type} (p : Program) (s : Slot) (base simd : M μ α) : M μ α :=
  match invoke (linked p.files p.conversion) s 0 with
  | some (.direct f) => if f = address .base s then base else if f = address .simd s then simd else ubE
  | some .throws => throwE
  | _ => ubE

/-- src/penguinv/penguinv.cpp 163-182 -/
def convertToGrayScale (p : Program) : Fn1 where
  full v o w h := host p .ConvertToGrayScale (ConvertToGrayScale v o w h) ubE
  cc _ := 1
/-- src/penguinv/penguinv.cpp 184-202 -/
def convertToRgb (p : Program) : Fn1 where
  full v o w h := host p .ConvertToRgb (ConvertToRgb v o w h) (Simd.Api.ConvertToRgb p.setup v o w h)
  cc _ := 3
/-- src/penguinv/penguinv.cpp 209-217 -/
def copy (p : Program) : Fn1 where
  full v o w h := host p .Copy (CopyRoi v o w h) ubE
  cc n := n
/-- src/penguinv/penguinv.cpp 219-238 -/
def extractChannel (p : Program) (ch : Nat) : Fn1 where
  full v o w h := host p .ExtractChannel (ExtractChannel v o w h ch) ubE
  cc _ := 1
/-- src/penguinv/penguinv.cpp 250-269 -/
def flip (p : Program) (hor ver : Bool) : Fn1 where
  full v o w h := host p .Flip (Flip v o w h hor ver) (Simd.Api.Flip p.setup v o w h hor ver)
  cc _ := 1
/-- src/penguinv/penguinv.cpp 271-290 -/
def gammaCorrection (p : Program) (rnd : ℚ → ℚ) (pow : ℚ → ℚ → ℚ) (a gamma : ℚ) : Fn1 where
  full v o w h := host p .GammaCorrection (GammaCorrection rnd pow v o w h a gamma) ubE
  cc _ := 1
/-- src/penguinv/penguinv.cpp 323-341 -/
def invert (p : Program) : Fn1 where
  full v o w h := host p .Invert (Invert v o w h) (Simd.Api.Invert p.setup v o w h)
  cc n := n
/-- src/penguinv/penguinv.cpp 354-373 -/
def lookupTable (p : Program) (table : List UInt8) : Fn1 where
  full v o w h := host p .LookupTable (LookupTable v o w h table) ubE
  cc _ := 1
/-- src/penguinv/penguinv.cpp 439-457 -/
def normalize (p : Program) (rnd : ℚ → ℚ) (oob : ℚ → Option UInt8) : Fn1 where
  full v o w h := host p .Normalize (Normalize rnd oob v o w h) ubE
  cc _ := 1
/-- src/penguinv/penguinv.cpp 500-518 -/
def rgbToBgr (p : Program) : Fn1 where
  full v o w h := host p .RgbToBgr (RgbToBgr v o w h) (Simd.Api.RgbToBgr p.setup v o w h)
  cc _ := 3
/-- src/penguinv/penguinv.cpp 573-592 -/
def threshold (p : Program) (t : UInt8) : Fn1 where
  full v o w h := host p .Threshold (Threshold v o w h t) (Simd.Api.Threshold p.setup v o w h t)
  cc _ := 1
/-- src/penguinv/penguinv.cpp 594-613 -/
def threshold2 (p : Program) (lo hi : UInt8) : Fn1 where
  full v o w h := host p .Threshold2 (Threshold2 v o w h lo hi) (Simd.Api.Threshold2 p.setup v o w h lo hi)
  cc _ := 1

/-- src/penguinv/penguinv.cpp 67-88 -/
def absoluteDifference (p : Program) : Fn2 := fun a b o w h =>
  host p .AbsoluteDifference (AbsoluteDifference a b o w h) (Simd.Api.AbsoluteDifference p.setup a b o w h)
/-- src/penguinv/penguinv.cpp 100-119 -/
def bitwiseAnd (p : Program) : Fn2 := fun a b o w h => host p .BitwiseAnd (BitwiseAnd a b o w h) (Simd.Api.BitwiseAnd p.setup a b o w h)
/-- src/penguinv/penguinv.cpp 121-140 -/
def bitwiseOr (p : Program) : Fn2 := fun a b o w h => host p .BitwiseOr (BitwiseOr a b o w h) (Simd.Api.BitwiseOr p.setup a b o w h)
/-- src/penguinv/penguinv.cpp 142-161 -/
def bitwiseXor (p : Program) : Fn2 := fun a b o w h => host p .BitwiseXor (BitwiseXor a b o w h) (Simd.Api.BitwiseXor p.setup a b o w h)
/-- src/penguinv/penguinv.cpp 375-394 -/
def maximum (p : Program) : Fn2 := fun a b o w h => host p .Maximum (Maximum a b o w h) (Simd.Api.Maximum p.setup a b o w h)
/-- src/penguinv/penguinv.cpp 418-437 -/
def minimum (p : Program) : Fn2 := fun a b o w h => host p .Minimum (Minimum a b o w h) (Simd.Api.Minimum p.setup a b o w h)
/-- src/penguinv/penguinv.cpp 541-560 -/
def subtract (p : Program) : Fn2 := fun a b o w h => host p .Subtract (Subtract a b o w h) (Simd.Api.Subtract p.setup a b o w h)

/-- `~ImageTemplate` for an image that may be empty. src/image_buffer.h 78-81, 99-109. -/
def destroy (img : Image) : M Heap Unit := fun d => .ok () (if img.data = 0 then d else d.release img)

/-- `Copy( in, out )`: the image returned is the new value of `out`. The assignment exchanges `out` and the temporary image, which is
    destroyed at the end of the statement. src/penguinv/penguinv.cpp 204-207, src/image_buffer.h 65-70, 199-210. -/
def copyWhole (p : Program) (inp out : Image) : M Heap Image := do
  let new ← (copy p).newRoi ⟨inp, 0, 0⟩ inp.width inp.height
  destroy out
  pure new

/-! ### Other functions of `penguinV` -/

/-- `Accumulate( image, x, y, width, height, result )`. src/penguinv/penguinv.cpp 95-98. -/
def accumulate (p : Program) (v : View) (w h : Nat) : M VMem Unit := host p .Accumulate (Accumulate v w h) (Simd.Api.Accumulate p.setup v w h)
/-- `Accumulate( image, result )`. src/penguinv/penguinv.cpp 90-93. -/
def accumulateWhole (p : Program) (image : Image) : M VMem Unit := do
  validateImage image
  accumulate p ⟨image, 0, 0⟩ image.width image.height
/-- `Fill( image, x, y, width, height, value )`. src/penguinv/penguinv.cpp 245-248. -/
def fill (p : Program) (v : View) (w h : Nat) (value : UInt8) : M BMem Unit := host p .Fill (Fill v w h value) ubE
/-- src/penguinv/penguinv.cpp 292-296 -/
def getPixel (p : Program) (image : Image) (x y : Nat) : M BMem UInt8 := host p .GetPixel (GetPixel image x y) ubE
/-- `Histogram( image, x, y, width, height, histogram )`. src/penguinv/penguinv.cpp 318-321. -/
def histogram (p : Program) (v : View) (w h : Nat) : M VMem Unit := host p .Histogram (Histogram v w h) ubE
/-- `Histogram( image )`. src/penguinv/penguinv.cpp 303-306. -/
def histogramNew (p : Program) (image : Image) : M BMem (List UInt32) := withVec (histogram p ⟨image, 0, 0⟩ image.width image.height)
/-- `Histogram( image, histogram )`. src/penguinv/penguinv.cpp 308-311. -/
def histogramWhole (p : Program) (image : Image) : M VMem Unit := do
  validateImage image
  histogram p ⟨image, 0, 0⟩ image.width image.height
/-- `Histogram( image, x, y, width, height )`. src/penguinv/penguinv.cpp 313-316. -/
def histogramNewRoi (p : Program) (image : View) (w h : Nat) : M BMem (List UInt32) := do
  validateRoi image w h
  withVec (histogram p image w h)
/-- `IsEqual( in1, startX1, startY1, in2, startX2, startY2, width, height )`. src/penguinv/penguinv.cpp 348-352. -/
def isEqual (p : Program) (v1 v2 : View) (w h : Nat) : M BMem Bool := host p .IsEqual (IsEqual v1 v2 w h) ubE
/-- `IsEqual( in1, in2 )`. src/penguinv/penguinv.cpp 343-346. -/
def isEqualWhole (p : Program) (in1 in2 : Image) : M BMem Bool := do
  validateImages2 in1 in2
  isEqual p ⟨in1, 0, 0⟩ ⟨in2, 0, 0⟩ in1.width in1.height
/-- `Merge` with rectangles. src/penguinv/penguinv.cpp 412-416. -/
def merge (p : Program) (v1 v2 v3 out : View) (w h : Nat) : M BMem Unit := host p .Merge (Merge v1 v2 v3 out w h) ubE
/-- `Merge( in1, in2, in3 )`. src/penguinv/penguinv.cpp 396-399, src/image_function_helper.cpp 595-604. -/
def mergeNew (p : Program) (a b c : Image) : M Heap Image := do
  onMem (validateImages [a, b, c])
  let out ← generate a.width a.height 3
  filled out (merge p ⟨a, 0, 0⟩ ⟨b, 0, 0⟩ ⟨c, 0, 0⟩ ⟨out, 0, 0⟩ out.width out.height)
/-- `Merge( in1, in2, in3, out )`. src/penguinv/penguinv.cpp 401-404, src/image_function_helper.cpp 606-612. -/
def mergeWhole (p : Program) (in1 in2 in3 out : Image) : M BMem Unit := do
  validateImages [in1, in2, in3]
  validateImages2 in1 out
  merge p ⟨in1, 0, 0⟩ ⟨in2, 0, 0⟩ ⟨in3, 0, 0⟩ ⟨out, 0, 0⟩ out.width out.height
/-- `Merge` of rectangles into a new image. src/penguinv/penguinv.cpp 406-410, src/image_function_helper.cpp 614-624. -/
def mergeNewRoi (p : Program) (v1 v2 v3 : View) (w h : Nat) : M Heap Image := do
  onMem (validateRois [v1, v2, v3] w h)
  let out ← generate w h 3
  filled out (merge p v1 v2 v3 ⟨out, 0, 0⟩ w h)
/-- `ProjectionProfile( image, x, y, width, height, horizontal, projection )`. src/penguinv/penguinv.cpp 474-477. -/
def profile (p : Program) (v : View) (w h : Nat) (horizontal : Bool) : M VMem Unit :=
  host p .ProjectionProfile (ProjectionProfile v w h horizontal) (Simd.Api.ProjectionProfile p.setup v w h horizontal)
/-- `ProjectionProfile( image, horizontal )`. src/penguinv/penguinv.cpp 459-462. -/
def profileNew (p : Program) (image : Image) (horizontal : Bool) : M BMem (List UInt32) :=
  withVec (profile p ⟨image, 0, 0⟩ image.width image.height horizontal)
/-- `ProjectionProfile( image, horizontal, projection )`. src/penguinv/penguinv.cpp 464-467. -/
def profileWhole (p : Program) (image : Image) (horizontal : Bool) : M VMem Unit :=
  profile p ⟨image, 0, 0⟩ image.width image.height horizontal
/-- `ProjectionProfile( image, x, y, width, height, horizontal )`. src/penguinv/penguinv.cpp 469-472. -/
def profileNewRoi (p : Program) (image : View) (w h : Nat) (horizontal : Bool) : M BMem (List UInt32) := withVec (profile p image w h horizontal)
/-- `Resize` with rectangles. src/penguinv/penguinv.cpp 494-498. -/
def resize (p : Program) (v : View) (wi hi : Nat) (out : View) (wo ho : Nat) : M BMem Unit := host p .Resize (Resize v wi hi out wo ho) ubE
/-- `Resize( in, widthOut, heightOut )`. src/penguinv/penguinv.cpp 479-482, src/image_function_helper.cpp 709-718. -/
def resizeNew (p : Program) (img : Image) (wo ho : Nat) : M Heap Image := do
  onMem (validateImage img)
  let out ← generate wo ho 1
  filled out (resize p ⟨img, 0, 0⟩ img.width img.height ⟨out, 0, 0⟩ wo ho)
/-- `Resize( in, out )`. src/penguinv/penguinv.cpp 484-487, src/image_function_helper.cpp 720-726. -/
def resizeWhole (p : Program) (inp out : Image) : M BMem Unit := do
  validateImage inp
  validateImage out
  resize p ⟨inp, 0, 0⟩ inp.width inp.height ⟨out, 0, 0⟩ out.width out.height
/-- `Resize` of a rectangle into a new image. src/penguinv/penguinv.cpp 489-492, src/image_function_helper.cpp 728-738. -/
def resizeNewRoi (p : Program) (v : View) (wi hi wo ho : Nat) : M Heap Image := do
  onMem (validateRoi v wi hi)
  let out ← generate wo ho 1
  filled out (resize p v wi hi ⟨out, 0, 0⟩ wo ho)
/-- `SetPixel( image, x, y, value )`. src/penguinv/penguinv.cpp 520-523. -/
def setPixel (p : Program) (image : Image) (x y : Nat) (value : UInt8) : M BMem Unit := host p .SetPixel (SetPixel image x y value) ubE
/-- `SetPixel( image, X, Y, value )`. src/penguinv/penguinv.cpp 525-528. -/
def setPixels (p : Program) (image : Image) (X Y : List Nat) (value : UInt8) : M BMem Unit := host p .SetPixel2 (SetPixels image X Y value) ubE
/-- `Split` with rectangles. src/penguinv/penguinv.cpp 535-539. -/
def split (p : Program) (v o1 o2 o3 : View) (w h : Nat) : M BMem Unit := host p .Split (Split v o1 o2 o3 w h) ubE
/-- `Split( in, out1, out2, out3 )`. src/penguinv/penguinv.cpp 530-533, src/image_function_helper.cpp 894-900. -/
def splitWhole (p : Program) (inp out1 out2 out3 : Image) : M BMem Unit := do
  validateImages [inp, out1, out2]
  validateImages2 inp out3
  split p ⟨inp, 0, 0⟩ ⟨out1, 0, 0⟩ ⟨out2, 0, 0⟩ ⟨out3, 0, 0⟩ inp.width inp.height
/-- `Sum( image, x, y, width, height )`. src/penguinv/penguinv.cpp 567-571. -/
def sum (p : Program) (v : View) (w h : Nat) : M BMem UInt32 := host p .Sum (Sum v w h) (Simd.Api.Sum p.setup v w h)
/-- `Sum( image )`. src/penguinv/penguinv.cpp 562-565. -/
def sumWhole (p : Program) (image : Image) : M BMem UInt32 := sum p ⟨image, 0, 0⟩ image.width image.height
/-- `Transpose` with rectangles. src/penguinv/penguinv.cpp 630-633. -/
def transpose (p : Program) (v out : View) (w h : Nat) : M BMem Unit := host p .Transpose (Transpose v out w h) ubE
/-- `Transpose( in )`. src/penguinv/penguinv.cpp 615-618, src/image_function_helper.cpp 992-1001. -/
def transposeNew (p : Program) (img : Image) : M Heap Image := do
  onMem (validateImage img)
  let out ← generate img.height img.width 1
  filled out (transpose p ⟨img, 0, 0⟩ ⟨out, 0, 0⟩ img.width img.height)
/-- `Transpose( in, out )`. src/penguinv/penguinv.cpp 620-623, src/image_function_helper.cpp 1003-1009. -/
def transposeWhole (p : Program) (inp out : Image) : M BMem Unit := do
  validateImage inp
  validateImage out
  transpose p ⟨inp, 0, 0⟩ ⟨out, 0, 0⟩ inp.width inp.height
/-- `Transpose` of a rectangle into a new image. src/penguinv/penguinv.cpp 625-628, src/image_function_helper.cpp 1011-1020. -/
def transposeNewRoi (p : Program) (v : View) (w h : Nat) : M Heap Image := do
  onMem (validateRoi v w h)
  let out ← generate h w 1
  filled out (transpose p v ⟨out, 0, 0⟩ w h)

end PV.Api
