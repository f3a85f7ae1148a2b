import Mathlib.Algebra.Order.Floor.Ring
import Mathlib.Data.Rat.Floor
import Verif.GpuVal
import Verif.Fft
/-
  Model of the kernels of src/cuda/cuda_fft.cu and of the functions which launch them.

  A memory cell is a number: a pixel, a `float`, or one member of a `cufftComplex` (value k of an array of complex numbers is in the cells
  2k and 2k + 1).  Numbers are elements of an ordered field (rationals here, reals in CudaGauss.lean), `rnd` is the rounding of each operation.  The arrays as objects (allocation, release, copies) are
  modelled in CplxData.lean; here an object is its size and its block, and the block of a new array or image is given.
-/
namespace PV.CudaFft
open PV

variable {R : Type}

/-- A new block of n cells with arbitrary contents. src/cuda/cuda_fft.cu 122, 157. -/
def newBlock (b n : Nat) : M (Mem R) Unit := fun m => .ok () { m with size := fun k => if k = b then n else m.size k }

/-- `y * width + x` (src/cuda/cuda_fft.cu, lines 36, 48, 60, 82) -/
def ident (width x y : Nat) : Nat := u32 (u32 (y * width) + x)

/-- src/cuda/cuda_fft.cu, kernels 30-40 and 42-52: the values are pixels or floats. -/
def copyFrom [Zero R] (inp out width : Nat) (x y : Nat) : Prog R Unit := do
  let v ← Prog.load inp (ident width x y)
  Prog.store out (2 * ident width x y) v
  Prog.store out (2 * ident width x y + 1) 0

/-- `outX`, `outY` (src/cuda/cuda_fft.cu, lines 62-66) -/
def swapped (k size : Nat) : Nat := if k < size / 2 then u32 (size / 2 + k) else k - size / 2

/-- `static_cast<uint8_t>( r / size + 0.5f )` (src/cuda/cuda_fft.cu, line 68): values outside of the range are undefined. -/
def pixelOf [Field R] [LinearOrder R] [FloorRing R] (rnd : R → R) (r size : R) : Option R :=
  if size = 0 then none
  else
    let q := rnd (rnd (r / size) + 1 / 2)
    if -1 < q ∧ q < 256 then some (⌊q⌋.toNat : R) else none

/-- src/cuda/cuda_fft.cu, kernel 54-70 -/
def copyToImage [Field R] [LinearOrder R] [FloorRing R] (rnd : R → R) (inp out : Nat) (size : R) (width height : Nat) (x y : Nat) : Prog R Unit := do
  let v ← Prog.load inp (2 * ident width x y)
  match pixelOf rnd v size with
  | some p => Prog.store out (ident width (swapped x width) (swapped y height)) p
  | none => .ub

/-- src/cuda/cuda_fft.cu, kernel 72-86 -/
def multiply [Field R] (rnd : R → R) (in1 in2 out width : Nat) (x y : Nat) : Prog R Unit := do
  let k := ident width x y
  let a ← Prog.load in1 (2 * k)
  let c ← Prog.load in2 (2 * k)
  let b ← Prog.load in1 (2 * k + 1)
  let e ← Prog.load in2 (2 * k + 1)
  Prog.store out (2 * k) (rnd (rnd (a * c) - rnd (b * e)))
  let a ← Prog.load in1 (2 * k)
  let e ← Prog.load in2 (2 * k + 1)
  let b ← Prog.load in1 (2 * k + 1)
  let c ← Prog.load in2 (2 * k)
  Prog.store out (2 * k + 1) (rnd (rnd (a * e) + rnd (b * c)))

/-- `set( image )` src/cuda/cuda_fft.cu 115-129; b is the block of the new array. -/
def setImage [Zero R] (d : CudaDevice) (img : Image) (b : Nat) : M (Mem R) (Fft.Obj × VLaunch R) := do
  throwIf (img.empty || img.cc != 1)
  newBlock b (2 * u32 (img.width * img.height))
  let l ← vlaunch2D d img.width img.height (vguarded img.width img.height (copyFrom img.data b img.width))
  pure (⟨img.width, img.height, b⟩, l)

/-- `set( array )` src/cuda/cuda_fft.cu 131-138 for an array of `count` floats in block `data` -/
def setArray [Zero R] (d : CudaDevice) (c : Fft.Obj) (data count : Nat) : M (Mem R) (VLaunch R) := do
  throwIf (count == 0 || c.width == 0 || c.height == 0 || count != u32 (c.width * c.height))
  vlaunch2D d c.width c.height (vguarded c.width c.height (copyFrom data c.data c.width))

/-- `get()` src/cuda/cuda_fft.cu 140-153; b is the block of the new image, whose rows have no padding.  An empty object gives an empty image and no launch. -/
def getImage [Field R] [LinearOrder R] [FloorRing R] (rnd : R → R) (d : CudaDevice) (c : Fft.Obj) (b : Nat) : M (Mem R) (Image × Option (VLaunch R)) :=
  if c.data = 0 then pure (⟨0, 0, 0, 1, 0⟩, none)
  else do
    newBlock b (c.height * c.width)
    let l ← vlaunch2D d c.width c.height (vguarded c.width c.height (copyToImage rnd c.data b (rnd (u32 (c.width * c.height) : R)) c.width c.height))
    pure (⟨b, c.width, c.height, 1, c.width⟩, some l)

/-- `complexMultiplication` src/cuda/cuda_fft.cu 210-217 by an executor of `width` x `height`: these are the sizes of the launch. -/
def complexMultiplication [Field R] (rnd : R → R) (d : CudaDevice) (width height : Nat) (p q o : Fft.Obj) : M (Mem R) (VLaunch R) := do
  throwIf (!(p.width == q.width && p.height == q.height) || !(p.width == o.width && p.height == o.height) || p.width == 0 || q.height == 0)
  vlaunch2D d width height (vguarded width height (multiply rnd p.data q.data o.data width))

end PV.CudaFft
