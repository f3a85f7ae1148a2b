import Verif.Forms
import Verif.Cuda
import Verif.OpenCl
/-
  Model of the forms of image functions which return a new image, or work on whole images, on CUDA and OpenCL devices
  (src/cuda/image_function_cuda.cu 406-1237, src/opencl/image_function_opencl.cpp 393-1314).  All of them call the same
  function of src/image_function_helper.cpp as the host does, with the form for rectangles of the device as an argument.

  The form for rectangles returns while the device is still at work: its value, of type `α` here, is that work.
  The memory of a device is a heap like that of the host, see src/image_buffer.h 288-296 and Forms.lean.
-/
namespace PV.Forms

/-- A block of code that fills the local variable `out` on a device and ends with `return out`; an exception destroys it.
    For example src/image_function_helper.cpp 83-87. -/
def pending {α : Type} (out : Image) (f : M BMem α) : M Heap (Image × α) := fun d =>
  match onMem f d with
  | .ok a d' => .ok (out, a) d'
  | .throw d' => .throw (d'.release out)
  | .ub => .ub

/-- A function of one image on a device: the form with two rectangles and the colour count of the images it returns.
    The pointers to functions, src/image_function_helper.h 27-110. -/
structure Call1 (α : Type) where
  full : View → View → Nat → Nat → M BMem α
  cc : Nat → Nat

/-- `Image F( in )`, for example src/image_function_helper.cpp 499-508 -/
def Call1.newWhole {α : Type} (f : Call1 α) (img : Image) : M Heap (Image × α) := do
  onMem (validateImage img)
  let out ← generate img.width img.height (f.cc img.cc)
  pending out (f.full ⟨img, 0, 0⟩ ⟨out, 0, 0⟩ img.width img.height)

/-- `Image F( in, startX, startY, width, height )`, for example src/image_function_helper.cpp 517-526 -/
def Call1.newRoi {α : Type} (f : Call1 α) (v : View) (w h : Nat) : M Heap (Image × α) := do
  onMem (validateRoi v w h)
  let out ← generate w h (f.cc v.img.cc)
  pending out (f.full v ⟨out, 0, 0⟩ w h)

/-- `void F( in, out )`, for example src/image_function_helper.cpp 510-515 -/
def Call1.whole {α : Type} (f : Call1 α) (a b : Image) : M BMem α := do
  validateImages2 a b
  f.full ⟨a, 0, 0⟩ ⟨b, 0, 0⟩ a.width a.height

/-- A function of two images on a device. The pointers to functions, src/image_function_helper.h 27-110. -/
abbrev Call2 (α : Type) := View → View → View → Nat → Nat → M BMem α

/-- `Image F( in1, in2 )`, src/image_function_helper.cpp 79-88 (AbsoluteDifference), 116-125 (BitwiseAnd), 146-155 (BitwiseOr),
    176-185 (BitwiseXor), 565-574 (Maximum), 626-635 (Minimum), 902-911 (Subtract) -/
def callWhole2 {α : Type} (f : Call2 α) (a b : Image) : M Heap (Image × α) := do
  onMem (validateImages [a, b])
  let out ← generate a.width a.height a.cc
  pending out (f ⟨a, 0, 0⟩ ⟨b, 0, 0⟩ ⟨out, 0, 0⟩ out.width out.height)

/-- `Image F( in1, startX1, startY1, in2, startX2, startY2, width, height )`, src/image_function_helper.cpp 97-107, 134-144,
    164-174, 194-204, 583-593, 644-654, 920-930 -/
def callRoi2 {α : Type} (f : Call2 α) (v1 v2 : View) (w h : Nat) : M Heap (Image × α) := do
  onMem (validateRois [v1, v2] w h)
  let out ← generate w h v1.img.cc
  pending out (f v1 v2 ⟨out, 0, 0⟩ out.width out.height)

/-- `void F( in1, in2, out )`, src/image_function_helper.cpp 90-95, 127-132, 157-162, 187-192, 576-581, 637-642, 913-918 -/
def callInto2 {α : Type} (f : Call2 α) (a b c : Image) : M BMem α := do
  validateImages [a, b, c]
  f ⟨a, 0, 0⟩ ⟨b, 0, 0⟩ ⟨c, 0, 0⟩ c.width c.height

/-! ### CUDA devices -/

namespace OnCuda

/-- src/cuda/image_function_cuda.cu 617-630 -/
def convertToGrayScale (d : CudaDevice) : Call1 Launch where full := Cuda.ConvertToGrayScale d; cc _ := 1
/-- src/cuda/image_function_cuda.cu 655-668 -/
def convertToRgb (d : CudaDevice) : Call1 Launch where full := Cuda.ConvertToRgb d; cc _ := 3
/-- src/cuda/image_function_cuda.cu 700-703 (only the form with a rectangle) -/
def copy (d : CudaDevice) : Call1 Launch where full := Cuda.Copy d; cc n := n
/-- src/cuda/image_function_cuda.cu 723-736 -/
def extractChannel (d : CudaDevice) (ch : Nat) : Call1 Launch where full v o w h := Cuda.ExtractChannel d v o w h ch; cc _ := 1
/-- src/cuda/image_function_cuda.cu 777-791 -/
def flip (d : CudaDevice) (hor ver : Bool) : Call1 Launch where full v o w h := Cuda.Flip d v o w h hor ver; cc _ := 1
/-- src/cuda/image_function_cuda.cu 816-829 -/
def gammaCorrection (rnd : ℚ → ℚ) (pow : ℚ → ℚ → ℚ) (d : CudaDevice) (a gamma : ℚ) : Call1 Launch where
  full v o w h := Cuda.GammaCorrection rnd pow d v o w h a gamma
  cc _ := 1
/-- src/cuda/image_function_cuda.cu 882-895 -/
def invert (d : CudaDevice) : Call1 Launch where full := Cuda.Invert d; cc n := n
/-- src/cuda/image_function_cuda.cu 943-957 -/
def lookupTable (d : CudaDevice) (table : List UInt8) : Call1 Launch where full v o w h := Cuda.LookupTable d v o w h table; cc _ := 1
/-- src/cuda/image_function_cuda.cu 1191-1204 -/
def threshold (d : CudaDevice) (t : UInt8) : Call1 Launch where full v o w h := Cuda.Threshold d v o w h t; cc _ := 1
/-- src/cuda/image_function_cuda.cu 1222-1236 -/
def threshold2 (d : CudaDevice) (lo hi : UInt8) : Call1 Launch where full v o w h := Cuda.Threshold2 d v o w h lo hi; cc _ := 1

end OnCuda

/-! ### OpenCL devices -/

/-- A call that always launches a kernel. Not in the code: machinery of the model. -/
def launched (f : M BMem Launch) : M BMem (Option Launch) := do
  let L ← f
  pure (some L)

namespace OnOpenCl

/-- src/opencl/image_function_opencl.cpp 611-624 -/
def convertToGrayScale (total : Nat) : Call1 (Option Launch) where full := OpenCl.ConvertToGrayScale total; cc _ := 1
/-- src/opencl/image_function_opencl.cpp 651-664 -/
def convertToRgb (total : Nat) : Call1 (Option Launch) where full := OpenCl.ConvertToRgb total; cc _ := 3
/-- src/opencl/image_function_opencl.cpp 697-700 (only the form with a rectangle) -/
def copy (total : Nat) : Call1 (Option Launch) where full v o w h := launched (OpenCl.Copy total v o w h); cc n := n
/-- src/opencl/image_function_opencl.cpp 723-736 -/
def extractChannel (total ch : Nat) : Call1 (Option Launch) where
  full v o w h := launched (OpenCl.ExtractChannel total v o w h ch)
  cc _ := 1
/-- src/opencl/image_function_opencl.cpp 782-795 -/
def flip (total : Nat) (hor ver : Bool) : Call1 (Option Launch) where
  full v o w h := launched (OpenCl.Flip total v o w h hor ver)
  cc _ := 1
/-- src/opencl/image_function_opencl.cpp 822-835 -/
def gammaCorrection (rnd : ℚ → ℚ) (pow : ℚ → ℚ → ℚ) (total : Nat) (a gamma : ℚ) : Call1 (Option Launch) where
  full v o w h := launched (OpenCl.GammaCorrection rnd pow total v o w h a gamma)
  cc _ := 1
/-- src/opencl/image_function_opencl.cpp 891-904 -/
def invert (total : Nat) : Call1 (Option Launch) where full v o w h := launched (OpenCl.Invert total v o w h); cc n := n
/-- src/opencl/image_function_opencl.cpp 959-972 -/
def lookupTable (total : Nat) (table : List UInt8) : Call1 (Option Launch) where
  full v o w h := launched (OpenCl.LookupTable total v o w h table)
  cc _ := 1
/-- src/opencl/image_function_opencl.cpp 1265-1278 -/
def threshold (total : Nat) (t : UInt8) : Call1 (Option Launch) where
  full v o w h := launched (OpenCl.Threshold total v o w h t)
  cc _ := 1
/-- src/opencl/image_function_opencl.cpp 1300-1313 -/
def threshold2 (total : Nat) (lo hi : UInt8) : Call1 (Option Launch) where
  full v o w h := launched (OpenCl.Threshold2 total v o w h lo hi)
  cc _ := 1

end OnOpenCl

end PV.Forms
