import Verif.OpenCl
import Verif.CudaSetPixel
/-
  `SetPixel` on an OpenCL device (src/opencl/image_function_opencl.cpp 329-348, 1217-1263).

  Two kernels have the same name `setPixelOpenCL` (marked `overloadable`).  What `clCreateKernel` does with this name depends on the driver:
  it is a parameter of the model, one of the two kernels or an error.

  The arguments are given one after the other.  `clSetKernelArg` knows the parameters of the kernel and compares: an index behind the last
  parameter, a value of another size than the parameter, and a number where a buffer is expected are errors.  The arrays into which the list
  form copies its points are numbers of blocks here; the way in which their memory is obtained is left out.
-/
namespace PV.OpenCl

/-- A parameter of a kernel: a buffer, `uint` or `uchar`. src/opencl/image_function_opencl.cpp 329, 336-337. -/
inductive Param where
  | buffer
  | uint
  | uchar
deriving DecidableEq

/-- A value given to `setArgument`: the handle of a buffer (8 bytes), `uint32_t` (4), `size_t` (8) or `uint8_t` (1).
    src/opencl/opencl_device.h 135-146. -/
inductive Value where
  | buffer (b : Nat)
  | num (n : Nat)
  | size (n : Nat)
  | byte (v : UInt8)
deriving DecidableEq

/-- Whether `clSetKernelArg` accepts a value for a parameter; called in src/opencl/opencl_device.cpp 222. -/
def Param.accepts : Param → Value → Bool
  | .buffer, .buffer _ => true
  | .uint, .num _ => true
  | .uchar, .byte _ => true
  | _, _ => false

/-- `setArgument` with several values, for the parameters which are left. src/opencl/opencl_device.h 135-146, opencl_device.cpp 220-224. -/
def giveArguments {μ : Type} : List Param → List Value → M μ Unit
  | _, [] => pure ()
  | [], _ :: _ => throwE
  | p :: ps, v :: vs => if p.accepts v then giveArguments ps vs else throwE

/-- The kernels with the name `setPixelOpenCL`. src/opencl/image_function_opencl.cpp 329-348. -/
inductive SetPixelKernel where
  | point
  | list
deriving DecidableEq

/-- The parameters in src/opencl/image_function_opencl.cpp 329 and 336-337 -/
def SetPixelKernel.params : SetPixelKernel → List Param
  | .point => [.buffer, .uint, .uint, .uint, .uint, .uint, .uint, .uchar]
  | .list => [.buffer, .uint, .uint, .uint, .uint, .buffer, .buffer, .uint, .uint]

/-- `data[offset + y * rowSize + x]` for `uint` (32 bits). src/opencl/image_function_opencl.cpp 332. -/
def pointAddr (offset rowSize x y : Nat) : Nat := u32 (u32 (offset + u32 (y * rowSize)) + x)

/-- src/opencl/image_function_opencl.cpp, kernel 329-334; it does not look at the position of its thread. -/
def kernelSetPixel (b offset rowSize width height x y : Nat) (value : UInt8) (_ _ : Nat) : Prog UInt8 Unit :=
  if x < width ∧ y < height then Prog.store b (pointAddr offset rowSize x y) value else .ret ()

/-- `launchKernel1D`, src/opencl/opencl_helper.cpp 239-244, 265-268 and `runKernel` 76-84 -/
def launch1D {μ : Type} (total w : Nat) (kernel : Nat → Nat → Prog UInt8 Unit) : M μ Launch := do
  let r ← getRange1 total w
  pure ⟨⟨r.global.x / r.loc.x, r.global.y / r.loc.y, r.loc.x, r.loc.y, size64⟩, kernel⟩

/-- The launch of the kernel with the arguments set before; the driver refuses a kernel without all its arguments.
    src/opencl/opencl_helper.cpp 76-84.  The kernel of lists (image_function_opencl.cpp 336-348) is never reached with all its
    arguments (`C168_list_rejected`): its body is left out. -/
def launchSet {μ : Type} (total w : Nat) : SetPixelKernel → List Value → M μ Launch
  | .point, [.buffer b, .num offset, .num rowSize, .num width, .num height, .num x, .num y, .byte value] =>
    launch1D total w (kernelSetPixel b offset rowSize width height x y value)
  | _, _ => throwE

/-- src/opencl/image_function_opencl.cpp, call 1217-1235; `found` is what the driver finds under the name (1222) -/
def SetPixel (total : Nat) (found : Option SetPixelKernel) (img : Image) (x y : Nat) (value : UInt8) : M BMem Launch := do
  validateImage img
  match found with
  | none => throwE
  | some k => do
    throwIf (img.empty || decide (x ≥ img.width) || decide (y ≥ img.height))
    let offset := u32 (u32 (x * img.rowSize) + y)
    let args := [.buffer img.data, .num offset, .num img.rowSize, .num img.width, .num img.height, .num x, .num y, .byte value]
    giveArguments k.params args
    launchSet total 1 k args

/-- src/opencl/image_function_opencl.cpp, call 1237-1263; `bx` and `by'` are the arrays with the points (1257-1258) -/
def SetPixels (total : Nat) (found : Option SetPixelKernel) (img : Image) (X Y : List Nat) (bx by' : Nat) (value : UInt8) : M BMem Launch := do
  validateImage img
  match found with
  | none => throwE
  | some k => do
    throwIf (img.empty || X.isEmpty || X.length != Y.length)
    fold (fun p _ => throwIf (decide (p.1 ≥ img.width) || decide (p.2 ≥ img.height))) (X.zip Y) ()
    let args := [.buffer img.data, .num img.rowSize, .num img.width, .num img.height, .buffer bx, .buffer by', .size X.length, .byte value]
    giveArguments k.params args
    launchSet total (u32 X.length) k args

/-! ### Launches in one dimension -/

theorem launch1D_ok {total w : Nat} (d : Device total) (hw : 0 < w) (hw2 : w < 4294967296) (kernel : Nat → Nat → Prog UInt8 Unit)
    {μ : Type} : ∃ L : Launch, (launch1D total w kernel : M μ Launch) = pure L ∧ L.kernel = kernel ∧ L.Covers w 1 := by
  have h1 := d.pos
  have h2 := d.few
  obtain ⟨s1, s2, _⟩ := blocks_span h1 hw
  refine ⟨⟨⟨(w + total - 1) / total * total / total, 1 / 1, total, 1, size64⟩, kernel⟩, ?_, rfl, ?_⟩
  · rw [launch1D, getRange1, roundUp_eq h1 (by omega) hw, pure_bind', pure_bind']
  · rw [Nat.mul_div_cancel _ h1]
    exact Geometry.covers (N := 18446744073709551616) size64_keeps s1 (Nat.le_refl 1)
      (by show (w + total - 1) / total * total ≤ _; omega) (by show 1 / 1 * 1 ≤ _; omega)

end PV.OpenCl
