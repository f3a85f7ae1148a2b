import Verif.TypeManager
/-
  The library as it is linked: the objects `functionRegistrator` of src/image_function.cpp, src/image_function_simd.cpp,
  src/cuda/image_function_cuda.cu and src/opencl/image_function_opencl.cpp, and the functions of src/penguinv/penguinv.cpp.

  C++ does not say in which order objects of different files are initialised, and a program may be linked without some of the files.
-/
namespace PV.Library
open PV PV.TypeManager

/-- The files with functions for images. src/image_function.cpp 76, src/image_function_simd.cpp 75, src/cuda/image_function_cuda.cu 64,
    src/opencl/image_function_opencl.cpp 69. -/
inductive Module
  | base
  | simd
  | cuda
  | opencl
deriving DecidableEq, Repr

/-- The address of function `s` of a file; overloads are named as the members of the table they fit. Not in the code: machinery of the model. -/
def address (m : Module) (s : Slot) : Nat := 64 * m.ctorIdx + s.ctorIdx

/-- The entries of the table of src/image_function.cpp 34-70: member and function -/
def baseEntries : List (Slot × Slot) :=
  [(.AbsoluteDifference, .AbsoluteDifference), (.Accumulate, .Accumulate), (.BitwiseAnd, .BitwiseAnd), (.BitwiseOr, .BitwiseOr), (.BitwiseXor, .BitwiseXor),
   (.ConvertTo16Bit, .ConvertTo16Bit), (.ConvertTo8Bit, .ConvertTo8Bit), (.ConvertToGrayScale, .ConvertToGrayScale), (.ConvertToRgb, .ConvertToRgb),
   (.Copy, .Copy), (.ExtractChannel, .ExtractChannel), (.Fill, .Fill), (.Flip, .Flip), (.GammaCorrection, .GammaCorrection), (.GetPixel, .GetPixel),
   (.Histogram, .Histogram), (.Invert, .Invert), (.IsEqual, .IsEqual), (.LookupTable, .LookupTable), (.Maximum, .Maximum), (.Merge, .Merge),
   (.Minimum, .Minimum), (.Normalize, .Normalize), (.ProjectionProfile, .ProjectionProfile), (.Resize, .Resize), (.RgbToBgr, .RgbToBgr),
   (.RgbToRgba, .RgbToRgba), (.RgbaToRgb, .RgbaToRgb), (.SetPixel, .SetPixel), (.SetPixel2, .SetPixel2), (.Shift, .Shift), (.Split, .Split),
   (.Subtract, .Subtract), (.Sum, .Sum), (.Threshold, .Threshold), (.Threshold2, .Threshold2), (.Transpose, .Transpose)]

/-- src/image_function_simd.cpp 52-69 -/
def simdEntries : List (Slot × Slot) :=
  [(.AbsoluteDifference, .AbsoluteDifference), (.Accumulate, .Accumulate), (.BitwiseAnd, .BitwiseAnd), (.BitwiseOr, .BitwiseOr), (.BitwiseXor, .BitwiseXor),
   (.ConvertTo16Bit, .ConvertTo16Bit), (.ConvertTo8Bit, .ConvertTo8Bit), (.ConvertToRgb, .ConvertToRgb), (.Flip, .Flip), (.Invert, .Invert),
   (.Maximum, .Maximum), (.Minimum, .Minimum), (.ProjectionProfile, .ProjectionProfile), (.RgbToBgr, .RgbToBgr), (.Subtract, .Subtract), (.Sum, .Sum),
   (.Threshold, .Threshold), (.Threshold2, .Threshold2)]

/-- src/cuda/image_function_cuda.cu 37-56 -/
def cudaEntries : List (Slot × Slot) :=
  [(.AbsoluteDifference, .AbsoluteDifference), (.BitwiseAnd, .BitwiseAnd), (.BitwiseOr, .BitwiseOr), (.BitwiseXor, .BitwiseXor),
   (.ConvertToGrayScale, .ConvertToGrayScale), (.ConvertToRgb, .ConvertToRgb), (.Copy, .Copy), (.ExtractChannel, .ExtractChannel), (.Fill, .Fill),
   (.GammaCorrection, .GammaCorrection), (.Histogram, .Histogram), (.Invert, .Invert), (.LookupTable, .LookupTable), (.SetPixel, .SetPixel),
   (.Maximum, .Maximum), (.Minimum, .Minimum), (.ProjectionProfile, .ProjectionProfile), (.Subtract, .Subtract), (.Threshold, .Threshold),
   (.Threshold2, .Threshold2)]

/-- src/opencl/image_function_opencl.cpp 41-61 -/
def openclEntries : List (Slot × Slot) :=
  [(.AbsoluteDifference, .AbsoluteDifference), (.BitwiseAnd, .BitwiseAnd), (.BitwiseOr, .BitwiseOr), (.BitwiseXor, .BitwiseXor),
   (.ConvertToGrayScale, .ConvertToGrayScale), (.ConvertToRgb, .ConvertToRgb), (.Copy, .Copy), (.ExtractChannel, .ExtractChannel), (.Fill, .Fill),
   (.GammaCorrection, .GammaCorrection), (.Histogram, .Histogram), (.Invert, .Invert), (.IsEqual, .IsEqual), (.LookupTable, .LookupTable),
   (.Maximum, .Maximum), (.Minimum, .Minimum), (.ProjectionProfile, .ProjectionProfile), (.SetPixel, .SetPixel), (.Subtract, .Subtract),
   (.Threshold, .Threshold), (.Threshold2, .Threshold2)]

/-- The entries of a file. src/image_function.cpp 34-70, src/image_function_simd.cpp 52-69, src/cuda/image_function_cuda.cu 37-56,
    src/opencl/image_function_opencl.cpp 41-61. -/
def entries : Module → List (Slot × Slot)
  | .base => baseEntries
  | .simd => simdEntries
  | .cuda => cudaEntries
  | .opencl => openclEntries

/-- The table of a file: the members that are not set are null (src/image_function_helper.h 486-522). -/
def table (m : Module) : Table := fun s => ((entries m).find? fun e => e.1 = s).map fun e => address m e.2

/-- `type()` of the images the functions of a file are made for: src/image_buffer.h 281, src/cuda/image_buffer_cuda.cuh 34,
    src/opencl/image_buffer_opencl.h 43 -/
def imageType : Module → Nat
  | .base => 0
  | .simd => 0
  | .cuda => 1
  | .opencl => 3

/-- `type()` of `ImageCudaPinned`, src/cuda/image_buffer_cuda_pinned.cuh 34 -/
def pinnedType : Nat := 2

/-- The last argument of `setFunctionTable`: src/image_function.cpp 72, src/image_function_simd.cpp 71, src/cuda/image_function_cuda.cu 58,
    src/opencl/image_function_opencl.cpp 63 -/
def forced : Module → Bool
  | .simd => true
  | _ => false

/-- The constructor of `FunctionRegistrator`: src/image_function.cpp 32-73, src/image_function_simd.cpp 50-72, src/cuda/image_function_cuda.cu
    35-61, src/opencl/image_function_opencl.cpp 39-66 -/
def registrator (m : Module) : List Op :=
  .setTable (imageType m) (table m) (forced m) ::
    match m with
    | .cuda => [.setConvert 0 1, .setConvert 1 0]
    | .opencl => [.setConvert 0 3, .setConvert 3 0]
    | _ => []

/-- The manager when the objects of the files `l` have been initialised in this order, and the program has called
    `enableIntertypeConversion( on )`. src/image_function_helper.cpp 1091-1094. -/
def linked (l : List Module) (on : Bool) : Mgr := run (l.flatMap registrator ++ [.enable on])

/-- The member of the table used by a function of src/penguinv/penguinv.cpp 66-632, named as the table names the overload; `none` if the file has
    no such function. -/
def member : Slot → Option Slot
  | .AbsoluteDifference => some .AbsoluteDifference
  | .Accumulate => some .Accumulate
  | .BitwiseAnd => some .BitwiseAnd
  | .BitwiseOr => some .BitwiseOr
  | .BitwiseXor => some .BitwiseXor
  | .ConvertTo16Bit => none
  | .ConvertTo8Bit => none
  | .ConvertToGrayScale => some .ConvertToGrayScale
  | .ConvertToRgb => some .ConvertToRgb
  | .Copy => some .Copy
  | .ExtractChannel => some .ExtractChannel
  | .Fill => some .Fill
  | .Flip => some .Flip
  | .GammaCorrection => some .GammaCorrection
  | .GetPixel => some .GetPixel
  | .Histogram => some .Histogram
  | .Invert => some .Invert
  | .IsEqual => some .IsEqual
  | .LookupTable => some .LookupTable
  | .Maximum => some .Maximum
  | .Merge => some .Merge
  | .Minimum => some .Minimum
  | .Normalize => some .Normalize
  | .ProjectionProfile => some .ProjectionProfile
  | .Resize => some .Resize
  | .RgbToBgr => some .RgbToBgr
  | .RgbToRgba => none
  | .RgbaToRgb => none
  | .SetPixel => some .SetPixel
  | .SetPixel2 => some .SetPixel2
  | .Shift => none
  | .Split => some .Split
  | .Subtract => some .Subtract
  | .Sum => some .Sum
  | .Threshold => some .Threshold
  | .Threshold2 => some .Threshold2
  | .Transpose => some .Transpose

/-- The functions of src/penguinv/penguinv.cpp which pass `manager( image )` for their images: lines 87, 181, 320, 591. -/
def managed : Slot → Bool
  | .AbsoluteDifference => true
  | .ConvertToGrayScale => true
  | .Histogram => true
  | .Threshold => true
  | _ => false

/-- What a call comes to -/
inductive Outcome
  /-- The function at this address is called with the images. -/
  | direct (f : Nat)
  /-- The function is called with converted images, see `call1` and `call2`. -/
  | converted (f type : Nat)
  /-- The function is called with images of a type it is not made for, see `callPlain`. -/
  | mixed (f type : Nat)
  /-- An exception -/
  | throws
deriving DecidableEq, Repr

/-- A call of the function of src/penguinv/penguinv.cpp with images of one type: the macro `initialize` (46-62) and the line after it -/
def invoke (m : Mgr) (s : Slot) (type : Nat) : Option Outcome :=
  (member s).map fun k =>
    match select m k type with
    | none => .throws
    | some (f, t) => if t = type then .direct f else if managed s then .converted f t else .mixed f t

/-- Whether a file has the function: declarations in src/image_function.h 27-234, src/image_function_simd.h 26-120,
    src/cuda/image_function_cuda.cuh 27-164, src/opencl/image_function_opencl.h 27-153 -/
def provides : Module → Slot → Bool
  | .base, _ => true
  | .simd, s => (simdEntries.map Prod.fst).contains s
  | .cuda, s => (cudaEntries.map Prod.fst).contains s || s = .Flip || s = .IsEqual || s = .SetPixel2
  | .opencl, s => (openclEntries.map Prod.fst).contains s || s = .Flip || s = .Normalize || s = .SetPixel2

end PV.Library
