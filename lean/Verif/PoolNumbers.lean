import Verif.PoolForms
import Verif.FormsMore
/-
  Model of the pooled functions which return a number, a vector or a truth value (src/function_pool.cpp): all their forms, and the
  forms of pooled Split and Normalize.

  A call is made of three parts: the calling thread checks the arguments and cuts the rectangle into parts (`setup`); the threads of
  the pool execute one task for each part, in any order (`task`); the calling thread puts the results of the tasks together (`collect`).
-/
namespace PV.Forms

/-- A pooled call -/
structure PooledCall (Γ A B : Type) where
  setup : M BMem Γ
  count : Γ → Nat
  task : Γ → Nat → M BMem A
  collect : List A → M BMem B

/-- The same call after a check of the calling thread -/
def PooledCall.after {Γ A B : Type} (check : M BMem Unit) (c : PooledCall Γ A B) : PooledCall Γ A B where
  setup := do
    check
    c.setup
  count := c.count
  task := c.task
  collect := c.collect

namespace OnPool

/-- `Sum( image, x, y, width, height )` in a pool of `n` threads. src/function_pool.cpp 1041-1044, 344-350. -/
def sum (n : Nat) (v : View) (w h : Nat) : PooledCall (List Tile) UInt32 UInt32 where
  setup := poolSetup1 v w h n
  count a := a.length
  task := task1 Sum v
  collect := getSum

/-- `Sum( image )`. src/function_pool.cpp 1036-1039. -/
def sumWhole (n : Nat) (image : Image) : PooledCall (List Tile) UInt32 UInt32 := sum n ⟨image, 0, 0⟩ image.width image.height

/-- `Histogram( image, x, y, width, height, histogram )`; the vector of the caller is overwritten. src/function_pool.cpp 759-762, 252-258. -/
def histogram (n : Nat) (v : View) (w h : Nat) : PooledCall (List Tile) (List UInt32) (List UInt32) where
  setup := poolSetup1 v w h n
  count a := a.length
  task := task1 (fun v w h => withVec (Histogram v w h)) v
  collect := getArray

/-- `Histogram( image )`. src/function_pool.cpp 744-747, src/image_function_helper.cpp 442-449. -/
def histogramNew (n : Nat) (image : Image) := histogram n ⟨image, 0, 0⟩ image.width image.height

/-- `Histogram( image, histogram )`. src/function_pool.cpp 749-752, src/image_function_helper.cpp 451-456. -/
def histogramWhole (n : Nat) (image : Image) := (histogram n ⟨image, 0, 0⟩ image.width image.height).after (validateImage image)

/-- `Histogram( image, x, y, width, height )`. src/function_pool.cpp 754-757, src/image_function_helper.cpp 458-467. -/
def histogramNewRoi (n : Nat) (v : View) (w h : Nat) := (histogram n v w h).after (validateRoi v w h)

/-- `IsEqual( in1, startX1, startY1, in2, startX2, startY2, width, height )`. src/function_pool.cpp 791-794, 266-272. -/
def isEqual (n : Nat) (v1 v2 : View) (w h : Nat) : PooledCall (List Tile × List Tile) Bool Bool where
  setup := poolSetup2 v1 v2 w h n
  count a := a.1.length
  task := task2 IsEqual v1 v2
  collect := getEqual

/-- `IsEqual( in1, in2 )`. src/function_pool.cpp 784-789. -/
def isEqualWhole (n : Nat) (a b : Image) := (isEqual n ⟨a, 0, 0⟩ ⟨b, 0, 0⟩ a.width a.height).after (validateImages2 a b)

/-- `ProjectionProfile( image, x, y, width, height, horizontal, projection )`. src/function_pool.cpp 945-948, 306-315. -/
def profile (n : Nat) (v : View) (w h : Nat) (horizontal : Bool) : PooledCall (List Tile) (List UInt32) (List UInt32) where
  setup := poolSetup1 v w h n
  count a := a.length
  task := task1 (fun v w h => withVec (ProjectionProfile v w h horizontal)) v
  collect := getProjection (if horizontal then w else h)

/-- `ProjectionProfile( image, horizontal )` and `ProjectionProfile( image, horizontal, projection )`.
    src/function_pool.cpp 930-938, src/image_function_helper.cpp 685-692. -/
def profileWhole (n : Nat) (image : Image) (horizontal : Bool) := profile n ⟨image, 0, 0⟩ image.width image.height horizontal

/-- `ProjectionProfile( image, x, y, width, height, horizontal )`. src/function_pool.cpp 940-943, src/image_function_helper.cpp 699-707. -/
def profileNewRoi (n : Nat) (v : View) (w h : Nat) (horizontal : Bool) := profile n v w h horizontal

/-- `Split` with rectangles up to the tasks. src/function_pool.cpp 1014-1023, 337-342. -/
def splitSetup (n : Nat) (v o1 o2 o3 : View) (w h : Nat) : M BMem (List Tile × List Tile × List Tile × List Tile) := do
  validateRois [v] w h
  validateRois [o1, o2, o3] w h
  verifyRgb [v.img]
  verifyGray [o1.img, o2.img, o3.img]
  poolSetup4 v o1 o2 o3 w h n

/-- `Split( in, out1, out2, out3 )` up to the tasks. src/function_pool.cpp 1004-1012, src/image_function_helper.cpp 894-900. -/
def splitWholeSetup (n : Nat) (inp o1 o2 o3 : Image) : M BMem (List Tile × List Tile × List Tile × List Tile) := do
  validateImages [inp, o1, o2]
  validateImages2 inp o3
  verifyRgb [inp]
  verifyGray [o1, o2, o3]
  validateImages [inp, o1, o2]
  validateImages2 inp o3
  splitSetup n ⟨inp, 0, 0⟩ ⟨o1, 0, 0⟩ ⟨o2, 0, 0⟩ ⟨o3, 0, 0⟩ inp.width inp.height

/-- The first part of `Normalize( in, startX, startY, width, height )`, which returns a new image: the checks and the image.
    src/function_pool.cpp 890-893, src/image_function_helper.cpp 675-683. -/
def normalizeRoiImage (v : View) (w h : Nat) : M Heap Image := do
  onMem (validateRoi v w h)
  generate w h 1

end OnPool

end PV.Forms
