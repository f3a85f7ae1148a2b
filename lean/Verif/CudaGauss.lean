import Mathlib.Data.Rat.Cast.Defs
import Verif.CudaFft
import Verif.Gauss
/-
  Model of src/cuda/filtering_cuda.cu.

  Kernels run one after the other (they are all launched in the same stream); `order` is the order in which the threads of a launch make
  their accesses.  `T` stands for cuFFT: the values which a transform of the given direction and dimensions stores.  Allocations, plans
  and transforms succeed (for failures see CplxData.lean, DevArray.lean, FftExec.lean); the blocks they get are given.  The numbers of the
  host are rationals, those of the device elements of an ordered field.
-/
namespace PV.CudaGauss
open PV PV.CudaFft

variable {R : Type}

/-- The order of the accesses of the threads of every launch. Not in the code: machinery of the model. -/
abbrev Order (R : Type) := (L : VLaunch R) → Mem R → List L.Thread

/-- The thread has gone wrong. Not in the code: machinery of the model. -/
def wrong : Prog R Unit → Bool
  | .throw => true
  | .ub => true
  | _ => false

/-- A launch until its end. The launches, src/cuda/cuda_helper.cuh 76-79. -/
def wait (order : Order R) (L : VLaunch R) : M (Mem R) Unit := fun m =>
  let s := (L.sys m).exec (order L m)
  if L.threads.any fun t => wrong (s.task t) then .ub else .ok () s.mem

/-- What a transform stores: for a direction (`true` is inverse), the dimensions of slow and fast index and the complex numbers in the
    array, the complex numbers afterwards. src/cuda/cuda_fft.cu 192, 206. -/
abbrev Cufft (R : Type) := Bool → Nat → Nat → (Nat → R × R) → Nat → R × R

/-- The cells of the memory after a transform of the array in block b. src/cuda/cuda_fft.cu 192, 206. -/
def transformed (T : Cufft R) (inverse : Bool) (nx ny b : Nat) (m : Mem R) (k i : Nat) : R :=
  if k = b ∧ i < 2 * (nx * ny) then
    let v := T inverse nx ny (fun j => (m.byte b (2 * j), m.byte b (2 * j + 1))) (i / 2)
    if i % 2 = 0 then v.1 else v.2
  else m.byte k i

/-- `cufftExecC2C` in place with a plan for nx by ny values: an array which is too small is undefined.
    src/cuda/cuda_fft.cu 192, 206. -/
def cufftExec (T : Cufft R) (inverse : Bool) (nx ny b : Nat) : M (Mem R) Unit := fun m =>
  if b ≠ 0 ∧ 2 * (nx * ny) ≤ m.size b then .ok () ⟨m.size, transformed T inverse nx ny b m⟩ else .ub

/-- `directTransform( data )` and `inverseTransform( data )`, src/cuda/cuda_fft.cu 182-208, of an executor of `width` x `height` whose plan
    was made by lines 228-232: the dimensions of the plan are width and height, in this order. -/
def transform (T : Cufft R) (inverse : Bool) (width height : Nat) (c : Fft.Obj) : M (Mem R) Unit := do
  throwIf (!(width == c.width && height == c.height))
  cufftExec T inverse width height c.data

/-- `Image_Function::GetGaussianKernel( data, ... )` in the memory of the host (src/cuda/filtering_cuda.cu, line 67) -/
def hostKernel (ex : ℚ → ℚ) (w h k : Nat) (sigma : ℚ) : M (Mem R) (Mem ℚ) := fun m =>
  match GetGaussianKernel id ex w h k sigma ⟨fun _ => 0, fun _ _ => 0⟩ with
  | .ok _ v => .ok v m
  | .throw _ => .throw m
  | .ub => .ub

/-- `multiCuda::Array<float> cudaData( data )` (src/cuda/filtering_cuda.cu, line 69): a new block with the numbers of the vector -/
def upload [RatCast R] (b : Nat) (v : Mem ℚ) : M (Mem R) Unit := fun m =>
  .ok () ⟨fun k => if k = b then v.size 1 else m.size k, fun k i => if k = b then (v.byte 1 i : R) else m.byte k i⟩

/-- The blocks of the image as complex data, of the vector and the complex data of the kernel, and of the result.
    src/cuda/filtering_cuda.cu 49-50, 61, 69. -/
structure Blocks where
  image : Nat
  vector : Nat
  filter : Nat
  result : Nat

/-- `GetGaussianKernel`, src/cuda/filtering_cuda.cu 64-76 -/
def gaussKernel [Zero R] [RatCast R] (ex : ℚ → ℚ) (order : Order R) (d : CudaDevice) (bs : Blocks) (w h k : Nat) (sigma : ℚ) : M (Mem R) Fft.Obj := do
  let v ← hostKernel ex w h k sigma
  upload bs.vector v
  newBlock bs.filter (2 * u32 (w * h))
  let l ← setArray d ⟨w, h, bs.filter⟩ bs.vector (v.size 1)
  wait order l
  pure ⟨w, h, bs.filter⟩

/-- `Gaussian( in, out, kernelSize, sigma )`, src/cuda/filtering_cuda.cu 42-62.  The result is what `out` is afterwards. -/
def Gaussian [Field R] [LinearOrder R] [FloorRing R] (T : Cufft R) (ex : ℚ → ℚ) (rnd : R → R) (order : Order R) (d : CudaDevice) (bs : Blocks)
    (inp out : Image) (k : Nat) (sigma : ℚ) : M (Mem R) Image := do
  validateImages2 inp out
  throwIf (decide (sigma < 0))
  let image ← setImage d inp bs.image
  wait order image.2
  let filter ← gaussKernel ex order d bs inp.width inp.height k sigma
  transform T false inp.width inp.height image.1
  transform T false inp.width inp.height filter
  let l ← complexMultiplication rnd d inp.width inp.height image.1 filter image.1
  wait order l
  transform T true inp.width inp.height image.1
  let r ← getImage rnd d image.1 bs.result
  match r.2 with
  | some l => wait order l
  | none => pure ()
  pure r.1

/-- `Gaussian( in, kernelSize, sigma )`, src/cuda/filtering_cuda.cu 31-40; `b` is the block of the image made by line 35. -/
def GaussianOf [Field R] [LinearOrder R] [FloorRing R] (T : Cufft R) (ex : ℚ → ℚ) (rnd : R → R) (order : Order R) (d : CudaDevice) (bs : Blocks)
    (inp : Image) (b k : Nat) (sigma : ℚ) : M (Mem R) Image := do
  validateImage inp
  newBlock b (inp.height * inp.width)
  Gaussian T ex rnd order d bs inp ⟨b, inp.width, inp.height, 1, inp.width⟩ k sigma

end PV.CudaGauss
