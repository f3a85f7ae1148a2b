import Verif.PixelFn
import Verif.Channel
import Verif.Resize
import Verif.Normalize
import Verif.Rotate
/-
  Model of the forms of image functions which return a new image, or work on whole images
  (src/image_function_helper.cpp 77-1021).

  A heap is a memory with the number of the next block `new[]` returns; a block starts with arbitrary contents
  (what the memory holds at its number), and has the size zero before and after its life.  Allocation does not fail.
-/
namespace PV.Forms

/-- Not in the code: machinery of the model. -/
structure Heap where
  mem : BMem
  next : Nat

/-- A computation on the memory of the heap. Not in the code: machinery of the model. -/
def onMem {α : Type} (f : M BMem α) : M Heap α := fun d =>
  match f d.mem with
  | .ok a m => .ok a { d with mem := m }
  | .throw m => .throw { d with mem := m }
  | .ub => .ub

/-- `new uint8_t[n]`. src/memory/cpu_memory.h 53-77. -/
def Heap.grow (d : Heap) (n : Nat) : Heap :=
  ⟨{ d.mem with size := fun b => if b = d.next then n else d.mem.size b }, d.next + 1⟩

/-- `ImageTemplate::generate( width, height, colorCount )`, src/image_buffer.h 263-273, with `resize`, 83-98 -/
def generate (w h cc : Nat) : M Heap Image := fun d =>
  if w = 0 ∨ h = 0 then .ok ⟨0, 0, 0, cc, 0⟩ d
  else .ok ⟨d.next, w, h, cc, u32 (w * cc)⟩ (d.grow (h * u32 (w * cc)))

/-- `~ImageTemplate`. src/image_buffer.h 78-81, 99-105. -/
def Heap.release (d : Heap) (img : Image) : Heap :=
  { d with mem := { d.mem with size := fun b => if b = img.data then 0 else d.mem.size b } }

/-- A block of code that fills the local variable `out` and ends with `return out`; an exception destroys it.
    For example src/image_function_helper.cpp 83-87. -/
def filled (out : Image) (f : M BMem Unit) : M Heap Image := fun d =>
  match onMem f d with
  | .ok _ d' => .ok out d'
  | .throw d' => .throw (d'.release out)
  | .ub => .ub

/-! ### Functions of one image -/

/-- A function of one image: the form with two rectangles, the colour count of the images it returns, and the colours its
    short forms ask for. The pointers to functions, src/image_function_helper.h 27-110. -/
structure Fn1 where
  full : View → View → Nat → Nat → M BMem Unit
  cc : Nat → Nat
  check : Image → M BMem Unit := fun _ => pure ()
  check2 : Image → Image → M BMem Unit := fun _ _ => pure ()

/-- `Image F( in )`, for example src/image_function_helper.cpp 499-508; some functions pass the size of `in`, others the
    same size of `out` -/
def Fn1.newWhole (f : Fn1) (img : Image) : M Heap Image := do
  onMem (validateImage img)
  onMem (f.check img)
  let out ← generate img.width img.height (f.cc img.cc)
  filled out (f.full ⟨img, 0, 0⟩ ⟨out, 0, 0⟩ img.width img.height)

/-- `Image F( in, startX, startY, width, height )`, for example src/image_function_helper.cpp 517-526 -/
def Fn1.newRoi (f : Fn1) (v : View) (w h : Nat) : M Heap Image := do
  onMem (validateRoi v w h)
  onMem (f.check v.img)
  let out ← generate w h (f.cc v.img.cc)
  filled out (f.full v ⟨out, 0, 0⟩ w h)

/-- `void F( in, out )`, for example src/image_function_helper.cpp 510-515 -/
def Fn1.whole (f : Fn1) (a b : Image) : M BMem Unit := do
  validateImages2 a b
  f.check2 a b
  f.full ⟨a, 0, 0⟩ ⟨b, 0, 0⟩ a.width a.height

/-- src/image_function_helper.cpp 222-250 -/
def convertToGrayScale : Fn1 where full := ConvertToGrayScale; cc _ := 1
/-- src/image_function_helper.cpp 252-279 -/
def convertToRgb : Fn1 where full := ConvertToRgb; cc _ := 3
/-- src/image_function_helper.cpp 281-290 (only the form with a rectangle) -/
def copy : Fn1 where full := CopyRoi; cc n := n
/-- src/image_function_helper.cpp 292-320 -/
def extractChannel (ch : Nat) : Fn1 where full v o w h := ExtractChannel v o w h ch; cc _ := 1
/-- src/image_function_helper.cpp 322-349 -/
def flip (hor ver : Bool) : Fn1 where full v o w h := Flip v o w h hor ver; cc _ := 1
/-- src/image_function_helper.cpp 351-379 -/
def gammaCorrection (rnd : ℚ → ℚ) (pow : ℚ → ℚ → ℚ) (a gamma : ℚ) : Fn1 where
  full v o w h := GammaCorrection rnd pow v o w h a gamma
  cc _ := 1
/-- src/image_function_helper.cpp 499-526 -/
def invert : Fn1 where full := Invert; cc n := n
/-- src/image_function_helper.cpp 535-563 -/
def lookupTable (table : List UInt8) : Fn1 where full v o w h := LookupTable v o w h table; cc _ := 1
/-- src/image_function_helper.cpp 656-683 -/
def normalize (rnd : ℚ → ℚ) (oob : ℚ → Option UInt8) : Fn1 where full := Normalize rnd oob; cc _ := 1
/-- src/image_function_helper.cpp 740-767 -/
def rgbToBgr : Fn1 where full := RgbToBgr; cc _ := 3
/-- src/image_function_helper.cpp 769-800 -/
def rgbToRgba : Fn1 where
  full := RgbToRgba
  cc _ := 4
  check img := verifyRgb [img]
  check2 a b := do
    verifyRgb [a]
    verifyRgba [b]
/-- src/image_function_helper.cpp 802-833 -/
def rgbaToRgb : Fn1 where
  full := RgbaToRgb
  cc _ := 3
  check img := verifyRgba [img]
  check2 a b := do
    verifyRgba [a]
    verifyRgb [b]
/-- src/image_function_helper.cpp 867-892 -/
def shift (rnd : ℚ → ℚ) (sx sy : ℚ) : Fn1 where full v o w h := Move.Shift rnd v o w h sx sy; cc _ := 1
/-- src/image_function_helper.cpp 932-960 -/
def threshold (t : UInt8) : Fn1 where full v o w h := Threshold v o w h t; cc _ := 1
/-- src/image_function_helper.cpp 962-990 -/
def threshold2 (lo hi : UInt8) : Fn1 where full v o w h := Threshold2 v o w h lo hi; cc _ := 1

/-! ### Functions of two images -/

/-- A function of two images; the short forms of all of them are the same.
    The pointers to functions, src/image_function_helper.h 27-110. -/
abbrev Fn2 := View → View → View → Nat → Nat → M BMem Unit

/-- `Image F( in1, in2 )`, src/image_function_helper.cpp 79-88 (AbsoluteDifference), 116-125 (BitwiseAnd), 146-155 (BitwiseOr),
    176-185 (BitwiseXor), 565-574 (Maximum), 626-635 (Minimum), 902-911 (Subtract) -/
def newWhole2 (f : Fn2) (a b : Image) : M Heap Image := do
  onMem (validateImages [a, b])
  let out ← generate a.width a.height a.cc
  filled out (f ⟨a, 0, 0⟩ ⟨b, 0, 0⟩ ⟨out, 0, 0⟩ out.width out.height)

/-- `Image F( in1, startX1, startY1, in2, startX2, startY2, width, height )`, src/image_function_helper.cpp 97-107, 134-144,
    164-174, 194-204, 583-593, 644-654, 920-930 -/
def newRoi2 (f : Fn2) (v1 v2 : View) (w h : Nat) : M Heap Image := do
  onMem (validateRois [v1, v2] w h)
  let out ← generate w h v1.img.cc
  filled out (f v1 v2 ⟨out, 0, 0⟩ out.width out.height)

/-- `void F( in1, in2, out )`, src/image_function_helper.cpp 90-95, 127-132, 157-162, 187-192, 576-581, 637-642, 913-918 -/
def whole2 (f : Fn2) (a b c : Image) : M BMem Unit := do
  validateImages [a, b, c]
  f ⟨a, 0, 0⟩ ⟨b, 0, 0⟩ ⟨c, 0, 0⟩ c.width c.height

/-! ### The other functions -/

/-- src/image_function_helper.cpp 595-604 -/
def newMerge (a b c : Image) : M Heap Image := do
  onMem (validateImages [a, b, c])
  let out ← generate a.width a.height 3
  filled out (Merge ⟨a, 0, 0⟩ ⟨b, 0, 0⟩ ⟨c, 0, 0⟩ ⟨out, 0, 0⟩ out.width out.height)

/-- src/image_function_helper.cpp 614-624 -/
def newMergeRoi (v1 v2 v3 : View) (w h : Nat) : M Heap Image := do
  onMem (validateRois [v1, v2, v3] w h)
  let out ← generate w h 3
  filled out (Merge v1 v2 v3 ⟨out, 0, 0⟩ w h)

/-- src/image_function_helper.cpp 709-718 -/
def newResize (img : Image) (wo ho : Nat) : M Heap Image := do
  onMem (validateImage img)
  let out ← generate wo ho 1
  filled out (Resize ⟨img, 0, 0⟩ img.width img.height ⟨out, 0, 0⟩ wo ho)

/-- src/image_function_helper.cpp 728-738 -/
def newResizeRoi (v : View) (wi hi wo ho : Nat) : M Heap Image := do
  onMem (validateRoi v wi hi)
  let out ← generate wo ho 1
  filled out (Resize v wi hi ⟨out, 0, 0⟩ wo ho)

/-- src/image_function_helper.cpp 835-844 -/
def newRotate (rnd : ℚ → ℚ) (cosA sinA : ℚ) (img : Image) (cx cy : ℚ) : M Heap Image := do
  onMem (validateImage img)
  onMem (verifyGray [img])
  let out ← generate img.width img.height 1
  filled out (Move.Rotate rnd cosA sinA ⟨img, 0, 0⟩ cx cy ⟨out, 0, 0⟩ cx cy img.width img.height)

/-- src/image_function_helper.cpp 854-865 -/
def newRotateRoi (rnd : ℚ → ℚ) (cosA sinA : ℚ) (v : View) (cx cy : ℚ) (w h : Nat) : M Heap Image := do
  onMem (validateRoi v w h)
  onMem (verifyGray [v.img])
  let out ← generate w h v.img.cc
  filled out (Move.Rotate rnd cosA sinA v cx cy ⟨out, 0, 0⟩ cx cy w h)

/-- src/image_function_helper.cpp 992-1001 -/
def newTranspose (img : Image) : M Heap Image := do
  onMem (validateImage img)
  let out ← generate img.height img.width 1
  filled out (Transpose ⟨img, 0, 0⟩ ⟨out, 0, 0⟩ img.width img.height)

/-- src/image_function_helper.cpp 1011-1020 -/
def newTransposeRoi (v : View) (w h : Nat) : M Heap Image := do
  onMem (validateRoi v w h)
  let out ← generate h w 1
  filled out (Transpose v ⟨out, 0, 0⟩ w h)

end PV.Forms
