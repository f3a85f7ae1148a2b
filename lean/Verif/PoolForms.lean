import Verif.DeviceForms
import Verif.PropsPoolMore
/-
  Model of the forms of pooled functions which return a new image, or work on whole images (src/function_pool.cpp 544-1109).
  All of them call a function of src/image_function_helper.cpp with the pooled form for rectangles as an argument.

  The pooled form is the set-up, executed by the calling thread, followed by the tasks, executed by the threads of the pool in
  any order: the forms below return what the set-up returned, and the statements run the tasks in all interleavings, as for
  the long forms (Pool.lean, PoolLocal.lean).  The caller gets the image when all tasks are done, see PoolLife.lean.
-/
namespace PV.Forms

/-- A pooled function of one image: the set-up for `n` threads, the colour count of the images it returns, and the task. -/
structure Pooled1 where
  setup : View → View → Nat → Nat → Nat → M BMem (List Tile × List Tile)
  cc : Nat → Nat
  task : View → View → List Tile × List Tile → Nat → M BMem Unit

/-- The function in a pool of `n` threads, up to the tasks; its forms are those of `Call1`. -/
def Pooled1.call (f : Pooled1) (n : Nat) : Call1 (List Tile × List Tile) where
  full v o w h := f.setup v o w h n
  cc := f.cc

namespace OnPool

/-- src/function_pool.cpp 629-648 and 189-194 -/
def convertToGrayScale : Pooled1 where
  setup := poolSetup2
  cc _ := 1
  task := task2 ConvertToGrayScale

/-- src/function_pool.cpp 650-668 -/
def convertToRgb : Pooled1 where
  setup := poolSetup2
  cc _ := 3
  task := task2 ConvertToRgb

/-- src/function_pool.cpp 670-692 -/
def extractChannel (ch : Nat) : Pooled1 where
  setup := poolSetup2
  cc _ := 1
  task := task2 fun v1 v2 w h => ExtractChannel v1 v2 w h ch

/-- src/function_pool.cpp 694-721: the form for rectangles checks the images itself before it calls the task -/
def flip (hor ver : Bool) : Pooled1 where
  setup v o w h n := do
    validateRois [v, o] w h
    verifyGray [v.img, o.img]
    poolSetupFlip v o w h hor ver n
  cc _ := 1
  task := task2 fun v1 v2 w h => Flip v1 v2 w h hor ver

/-- src/function_pool.cpp 723-742 -/
def gammaCorrection (rnd : ℚ → ℚ) (pow : ℚ → ℚ → ℚ) (a gamma : ℚ) : Pooled1 where
  setup v o w h n := poolSetupGamma v o w h a gamma n
  cc _ := 1
  task := task2 fun v1 v2 w h => GammaCorrection rnd pow v1 v2 w h a gamma

/-- src/function_pool.cpp 764-782 -/
def invert : Pooled1 where
  setup := poolSetup2
  cc n := n
  task := task2 Invert

/-- src/function_pool.cpp 796-815 -/
def lookupTable (table : List UInt8) : Pooled1 where
  setup := poolSetup2
  cc _ := 1
  task := task2 fun v1 v2 w h => LookupTable v1 v2 w h table

/-- src/function_pool.cpp 974-992 -/
def rgbToBgr : Pooled1 where
  setup := poolSetup2
  cc _ := 3
  task := task2 RgbToBgr

/-- src/function_pool.cpp 1046-1065 -/
def threshold (t : UInt8) : Pooled1 where
  setup := poolSetup2
  cc _ := 1
  task := task2 fun v1 v2 w h => Threshold v1 v2 w h t

/-- src/function_pool.cpp 1067-1086 -/
def threshold2 (lo hi : UInt8) : Pooled1 where
  setup v o w h n := Props.poolSetupThreshold2 v o w h lo hi n
  cc _ := 1
  task := task2 fun v1 v2 w h => Threshold2 v1 v2 w h lo hi

/-- A pooled function of two images, up to the tasks: src/function_pool.cpp 544-627, 817-836, 860-879, 994-1004, 1025-1034 -/
def two (n : Nat) : Call2 (List Tile × List Tile × List Tile) := fun v1 v2 o w h => poolSetup3 v1 v2 o w h n

/-- The form of Transpose for rectangles up to the tasks, src/function_pool.cpp 1103-1110 and 373-378 -/
def transposeSetup (n : Nat) (v o : View) (w h : Nat) : M BMem (List Tile × List Tile) := do
  validateRois [v] w h
  validateRois [o] h w
  verifyGray [v.img, o.img]
  poolSetupSizes v w h o h w true n

/-- `Image Transpose( in )`, src/function_pool.cpp 1088-1091 and src/image_function_helper.cpp 992-1001 -/
def transposeImage (n : Nat) (img : Image) : M Heap (Image × (List Tile × List Tile)) := do
  onMem (validateImage img)
  let out ← generate img.height img.width 1
  pending out (transposeSetup n ⟨img, 0, 0⟩ ⟨out, 0, 0⟩ img.width img.height)

/-- `Image Transpose( in, startX, startY, width, height )`, src/function_pool.cpp 1098-1101 and
    src/image_function_helper.cpp 1014-1023 -/
def transposeRoi (n : Nat) (v : View) (w h : Nat) : M Heap (Image × (List Tile × List Tile)) := do
  onMem (validateRoi v w h)
  let out ← generate h w 1
  pending out (transposeSetup n v ⟨out, 0, 0⟩ w h)

/-- `Image Resize( in, widthOut, heightOut )`, src/function_pool.cpp 950-953 and src/image_function_helper.cpp 709-718 -/
def resizeImage (n : Nat) (img : Image) (wo ho : Nat) : M Heap (Image × (List Tile × List Tile)) := do
  onMem (validateImage img)
  let out ← generate wo ho 1
  pending out (poolSetupResize ⟨img, 0, 0⟩ img.width img.height ⟨out, 0, 0⟩ wo ho n)

/-- `Image Resize( in, startX, startY, widthIn, heightIn, widthOut, heightOut )`, src/function_pool.cpp 960-963 and
    src/image_function_helper.cpp 728-738 -/
def resizeRoi (n : Nat) (v : View) (wi hi wo ho : Nat) : M Heap (Image × (List Tile × List Tile)) := do
  onMem (validateRoi v wi hi)
  let out ← generate wo ho 1
  pending out (poolSetupResize v wi hi ⟨out, 0, 0⟩ wo ho n)

/-- `Image Merge( in1, in2, in3 )`, src/function_pool.cpp 838-841 and src/image_function_helper.cpp 595-604 -/
def mergeImage (n : Nat) (a b c : Image) : M Heap (Image × (List Tile × List Tile × List Tile × List Tile)) := do
  onMem (validateImages [a, b, c])
  let out ← generate a.width a.height 3
  pending out (poolSetup4 ⟨a, 0, 0⟩ ⟨b, 0, 0⟩ ⟨c, 0, 0⟩ ⟨out, 0, 0⟩ out.width out.height n)

/-- `Image Merge( in1, …, width, height )`, src/function_pool.cpp 848-852 and src/image_function_helper.cpp 614-624 -/
def mergeRoi (n : Nat) (v1 v2 v3 : View) (w h : Nat) : M Heap (Image × (List Tile × List Tile × List Tile × List Tile)) := do
  onMem (validateRois [v1, v2, v3] w h)
  let out ← generate w h 3
  pending out (poolSetup4 v1 v2 v3 ⟨out, 0, 0⟩ w h n)

end OnPool

end PV.Forms
