import Verif.GpuKernel
import Verif.Normalize
/-
  Model of src/cuda/image_function_cuda.cu: the functions that write a rectangle of an image.

  A call is the part on the host: it checks its arguments, chooses the size of the launch and returns
  the launch (`M BMem Launch`); the effect is that of the launch (`Launch.Always`).  `BMem` is here the memory of the device;
  pixel data of all images are there.

  Not modelled: streams (calls on one stream run one after the other), errors reported by the driver after a
  launch, and the way in which device memory is obtained for lookup tables.  A kernel that reads the same input byte
  twice in one expression is modelled with one read (no thread writes an input byte of another thread).
-/
namespace PV.Cuda

/-- `launchKernel2D`, src/cuda/cuda_helper.cuh 76-79: all arguments after the sizes are parameters of the kernel. -/
def launch2D {μ : Type} (d : CudaDevice) (w h : Nat) (kernel : Nat → Nat → Prog UInt8 Unit) : M μ Launch := do
  let g ← getGrid2 d w h
  pure ⟨⟨g.blocks.x, g.blocks.y, g.threads.x, g.threads.y, u32⟩, kernel⟩

/-- `data + y * rowSize + x` with a 32-bit product. For example src/cuda/image_function_cuda.cu 74-76. -/
def ptrAddr (p : Nat × Nat) (rowSize : Nat) : Addr := fun x y => (p.1, p.2 + u32 (y * rowSize) + x)
/-- `data[y * rowSize + x]` with a 32-bit index. For example src/cuda/image_function_cuda.cu 88-90, 169. -/
def idxAddr (p : Nat × Nat) (rowSize : Nat) : Addr := fun x y => (p.1, p.2 + u32 (u32 (y * rowSize) + x))

/-- `image.data() + startY * rowSize + startX * colorCount`. For example src/cuda/image_function_cuda.cu 435-437. -/
def base (v : View) (cc : Nat) : Nat × Nat := (v.img.data, v.start cc)

/-! ### Kernels with one output byte per thread -/

/-- src/cuda/image_function_cuda.cu 77: `((*in1X) > (*in2X)) ? ((*in1X) - (*in2X)) : ((*in2X) - (*in1X))` -/
def absDiffK (a b : UInt8) : UInt8 := if a > b then a - b else b - a
/-- src/cuda/image_function_cuda.cu 259: `((*in1X) > (*in2X)) ? (*in1X) : (*in2X)` -/
def maxK (a b : UInt8) : UInt8 := if a > b then a else b
/-- src/cuda/image_function_cuda.cu 273: `((*in1X) < (*in2X)) ? (*in1X) : (*in2X)` -/
def minK (a b : UInt8) : UInt8 := if a < b then a else b
/-- src/cuda/image_function_cuda.cu 377: `((*in1X) > (*in2X)) ? ((*in1X) - (*in2X)) : 0` -/
def subK (a b : UInt8) : UInt8 := if a > b then a - b else 0
/-- src/cuda/image_function_cuda.cu 388: `(in[..] < threshold) ? 0 : 255` -/
def thrK (t a : UInt8) : UInt8 := if a < t then 0 else 255
/-- src/cuda/image_function_cuda.cu 400: `((in[idIn] < minThreshold) || (in[idIn] > maxThreshold)) ? 0 : 255` -/
def thr2K (lo hi a : UInt8) : UInt8 := if a < lo ∨ a > hi then 0 else 255

/-- The host part shared by the functions with two inputs and one output, for example src/cuda/image_function_cuda.cu 423-441.
    `addr` is the form of the addresses in the kernel. -/
def binary (addr : Nat × Nat → Nat → Addr) (f : UInt8 → UInt8 → UInt8) (d : CudaDevice) (in1 in2 out : View) (w h : Nat) :
    M BMem Launch := do
  validateRois [in1, in2, out] w h
  checkCommonColorCount in1.img [in2.img, out.img]
  let colorCount := in1.img.cc
  let width := u32 (w * colorCount)
  launch2D d width h (guarded width h (kernelBinary f (addr (base in1 colorCount) in1.img.rowSize)
    (addr (base in2 colorCount) in2.img.rowSize) (addr (base out colorCount) out.img.rowSize)))

/-- src/cuda/image_function_cuda.cu, kernel 67-79, call 423-441 -/
def AbsoluteDifference := binary ptrAddr absDiffK
/-- src/cuda/image_function_cuda.cu, kernel 81-93, call 459-477 -/
def BitwiseAnd := binary idxAddr (· &&& ·)
/-- src/cuda/image_function_cuda.cu, kernel 95-107, call 495-513 -/
def BitwiseOr := binary idxAddr (· ||| ·)
/-- src/cuda/image_function_cuda.cu, kernel 109-121, call 531-549 -/
def BitwiseXor := binary idxAddr (· ^^^ ·)
/-- src/cuda/image_function_cuda.cu, kernel 249-261, call 998-1016 -/
def Maximum := binary ptrAddr maxK
/-- src/cuda/image_function_cuda.cu, kernel 263-275, call 1034-1052 -/
def Minimum := binary ptrAddr minK
/-- src/cuda/image_function_cuda.cu, kernel 367-379, call 1171-1189 -/
def Subtract := binary ptrAddr subK

/-- The host part shared by Copy (src/cuda/image_function_cuda.cu 705-721) and Invert (897-913). -/
def unary (f : UInt8 → UInt8) (d : CudaDevice) (inp out : View) (w h : Nat) : M BMem Launch := do
  validateRois [inp, out] w h
  checkCommonColorCount inp.img [out.img]
  let colorCount := inp.img.cc
  let width := u32 (w * colorCount)
  launch2D d width h (guarded width h (kernelUnary f (idxAddr (base inp colorCount) inp.img.rowSize)
    (idxAddr (base out colorCount) out.img.rowSize)))

/-- src/cuda/image_function_cuda.cu, kernel 163-171, call 705-721 -/
def Copy := unary id
/-- src/cuda/image_function_cuda.cu, kernel 217-225, call 897-913 -/
def Invert := unary (~~~ ·)

/-- The host part of the two forms of Threshold (src/cuda/image_function_cuda.cu 1206-1220, 1238-1252). -/
def unaryGray (f : UInt8 → UInt8) (d : CudaDevice) (inp out : View) (w h : Nat) : M BMem Launch := do
  validateRois [inp, out] w h
  verifyGray [inp.img, out.img]
  launch2D d w h (guarded w h (kernelUnary f (idxAddr (base inp 1) inp.img.rowSize) (idxAddr (base out 1) out.img.rowSize)))

/-- src/cuda/image_function_cuda.cu, kernel 381-390, call 1206-1220 -/
def Threshold (d : CudaDevice) (inp out : View) (w h : Nat) (t : UInt8) : M BMem Launch := unaryGray (thrK t) d inp out w h
/-- src/cuda/image_function_cuda.cu, kernel 392-402, call 1238-1252; unlike the function on the host it accepts `lo > hi` -/
def Threshold2 (d : CudaDevice) (inp out : View) (w h : Nat) (lo hi : UInt8) : M BMem Launch :=
  unaryGray (thr2K lo hi) d inp out w h

/-- src/cuda/image_function_cuda.cu, kernel 238-247: `table` is the copy of the table on the device, an access outside is undefined. -/
def kernelLookup (table : List UInt8) (a ao : Addr) (x y : Nat) : Prog UInt8 Unit := do
  let p ← Prog.load (a x y).1 (a x y).2
  match table[p.toNat]? with
  | some v => Prog.store (ao x y).1 (ao x y).2 v
  | none => .ub

/-- src/cuda/image_function_cuda.cu, call 959-980 -/
def LookupTable (d : CudaDevice) (inp out : View) (w h : Nat) (table : List UInt8) : M BMem Launch := do
  validateRois [inp, out] w h
  throwIf (table.length != 256)
  checkCommonColorCount inp.img [out.img]
  let colorCount := inp.img.cc
  let width := u32 (w * colorCount)
  launch2D d width h (guarded width h (kernelLookup table (idxAddr (base inp colorCount) inp.img.rowSize)
    (idxAddr (base out colorCount) out.img.rowSize)))

/-- src/cuda/image_function_cuda.cu, call 831-840; the table is made on the host. -/
def GammaCorrection (rnd : ℚ → ℚ) (pow : ℚ → ℚ → ℚ) (d : CudaDevice) (inp out : View) (w h : Nat) (a gamma : ℚ) : M BMem Launch := do
  validateRois [inp, out] w h
  verifyGray [inp.img, out.img]
  let value ← GetGammaCorrectionLookupTable rnd pow a gamma
  LookupTable d inp out w h value

/-- src/cuda/image_function_cuda.cu, kernel 183-190, call 764-775 -/
def Fill (d : CudaDevice) (image : View) (w h : Nat) (value : UInt8) : M BMem Launch := do
  validateRois [image] w h
  verifyGray [image.img]
  launch2D d w h (guarded w h (kernelFill value (idxAddr (base image 1) image.img.rowSize)))

/-- src/cuda/image_function_cuda.cu, kernel 173-181: the input index is `y * rowSizeIn + x * colorCount`; call 738-757 -/
def ExtractChannel (d : CudaDevice) (inp out : View) (w h channelId : Nat) : M BMem Launch := do
  validateRois [inp, out] w h
  verifyGray [out.img]
  throwIf (decide (channelId ≥ inp.img.cc))
  let colorCount := inp.img.cc
  launch2D d w h (guarded w h (kernelUnary id
    (fun x y => idxAddr (inp.img.data, inp.start colorCount + channelId) inp.img.rowSize (u32 (x * colorCount)) y)
    (idxAddr (base out 1) out.img.rowSize)))

/-- src/cuda/image_function_cuda.cu, kernel 192-204: `outX = horizontal ? (width - 1 - inX) : inX`, in 32 bits -/
def flipCoord (flag : Bool) (n i : Nat) : Nat := if flag then u32 (n + 4294967295 - i) else i

/-- src/cuda/image_function_cuda.cu, call 793-814 -/
def Flip (d : CudaDevice) (inp out : View) (w h : Nat) (horizontal vertical : Bool) : M BMem Launch := do
  validateRois [inp, out] w h
  verifyGray [inp.img, out.img]
  if !horizontal && !vertical then
    Copy d inp out w h
  else do
    let colorCount := inp.img.cc
    let width := u32 (w * colorCount)
    launch2D d width h (guarded width h (kernelUnary id (idxAddr (base inp colorCount) inp.img.rowSize)
      (fun x y => idxAddr (base out colorCount) out.img.rowSize (flipCoord horizontal width x) (flipCoord vertical h y))))

/-! ### Kernels that read or write all channels of a pixel -/

/-- src/cuda/image_function_cuda.cu, kernel 123-142; the loop over `[data, dataEnd)` is written as a loop over the channels. -/
def kernelGray (colorCount : Nat) (a : Addr) (ao : Addr) (x y : Nat) : Prog UInt8 Unit := do
  let sum ← Prog.fold (fun c sum => do
    let v ← Prog.load (a x y).1 ((a x y).2 + c)
    pure (u32 (sum + v.toNat))) (List.range colorCount) 0
  if colorCount = 0 then .ub else
  Prog.store (ao x y).1 (ao x y).2 (UInt8.ofNat (sum / colorCount))

/-- src/cuda/image_function_cuda.cu, call 632-653 -/
def ConvertToGrayScale (d : CudaDevice) (inp out : View) (w h : Nat) : M BMem Launch := do
  validateRois [inp, out] w h
  verifyGray [out.img]
  if inp.img.cc == 1 then
    Copy d inp out w h
  else do
    let colorCount := inp.img.cc
    launch2D d w h (guarded w h (kernelGray colorCount
      (fun x y => (inp.img.data, inp.start colorCount + u32 (y * inp.img.rowSize) + u32 (x * colorCount)))
      (idxAddr (base out 1) out.img.rowSize)))

/-- src/cuda/image_function_cuda.cu, kernel 144-160; the loop over `[dataOut, dataOutEnd)` is written as a loop over the channels. -/
def kernelRgb (colorCount : Nat) (a : Addr) (ao : Addr) (x y : Nat) : Prog UInt8 Unit :=
  Prog.fold (fun c _ => do
    let v ← Prog.load (a x y).1 (a x y).2
    Prog.store (ao x y).1 ((ao x y).2 + c) v) (List.range colorCount) ()

/-- src/cuda/image_function_cuda.cu, call 670-691.  For any input that is not RGB the input is read as a gray-scale image. -/
def ConvertToRgb (d : CudaDevice) (inp out : View) (w h : Nat) : M BMem Launch := do
  validateRois [inp, out] w h
  verifyRgb [out.img]
  if inp.img.cc == 3 then
    Copy d inp out w h
  else do
    let colorCount := out.img.cc
    launch2D d w h (guarded w h (kernelRgb colorCount (ptrAddr (base inp 1) inp.img.rowSize)
      (fun x y => (out.img.data, out.start colorCount + u32 (y * out.img.rowSize) + u32 (x * colorCount)))))

/-! ### Lemmas -/

theorem launch2D_ok {d : CudaDevice} {w h : Nat} (s : d.Serves w h) (hw : 0 < w) (hh : 0 < h) (kernel : Nat → Nat → Prog UInt8 Unit)
    {μ : Type} : ∃ L : Launch, (launch2D d w h kernel : M μ Launch) = pure L ∧ L.kernel = kernel ∧ L.Covers w h := by
  obtain ⟨g, e, hg⟩ := getGrid2_ok (μ := μ) s hw hh
  refine ⟨⟨⟨g.blocks.x, g.blocks.y, g.threads.x, g.threads.y, u32⟩, kernel⟩, by rw [launch2D, e, pure_bind'], rfl, ?_⟩
  have tx : g.threads.x ≤ d.threads := by
    have : g.threads.x * 1 ≤ g.threads.x * g.threads.y := Nat.mul_le_mul_left _ hg.block.ypos
    have := hg.block.total
    omega
  have ty : g.threads.y ≤ d.threads := by
    have : 1 * g.threads.y ≤ g.threads.x * g.threads.y := Nat.mul_le_mul_right _ hg.block.xpos
    have := hg.block.total
    omega
  have := s.wsmall
  have := s.hsmall
  have := hg.spanX
  have := hg.spanY
  exact Geometry.covers (N := 4294967296) u32_keeps hg.spanX.1 hg.spanY.1 (by show g.blocks.x * g.threads.x ≤ _; omega)
    (by show g.blocks.y * g.threads.y ≤ _; omega)

/-- 32-bit arithmetic inside a rectangle does not wrap. -/
theorem row_small {m : BMem} {v : View} {w h : Nat} (wf : v.img.WF m) (fit : v.Fits w h) {X Y : Nat} (hX : X < w * v.img.cc)
    (hY : Y < h) : Y * v.img.rowSize + X < 4294967296 := by
  obtain ⟨_, _, _, _, _, h6, _, _, _, h10⟩ := View.facts wf fit
  have : (Y + 1) * v.img.rowSize ≤ h * v.img.rowSize := Nat.mul_le_mul_right _ hY
  rw [Nat.add_mul] at this
  omega

theorem ptrAddr_cell {m : BMem} {v : View} {w h : Nat} (wf : v.img.WF m) (fit : v.Fits w h) {x y c : Nat} (hx : x < w) (hy : y < h)
    (hc : c < v.img.cc) : ptrAddr (base v v.img.cc) v.img.rowSize (x * v.img.cc + c) y = (v.img.data, v.cell x y c) := by
  have := row_small wf fit (mul_add_lt hx hc) hy
  rw [ptrAddr, base, u32_of_lt (n := y * v.img.rowSize) (by omega), View.start_cell wf fit]

theorem idxAddr_cell {m : BMem} {v : View} {w h : Nat} (wf : v.img.WF m) (fit : v.Fits w h) {x y c : Nat} (hx : x < w) (hy : y < h)
    (hc : c < v.img.cc) : idxAddr (base v v.img.cc) v.img.rowSize (x * v.img.cc + c) y = (v.img.data, v.cell x y c) := by
  have := row_small wf fit (mul_add_lt hx hc) hy
  rw [idxAddr, base, u32_of_lt (n := y * v.img.rowSize) (by omega), u32_of_lt (by omega), ← Nat.add_assoc, View.start_cell wf fit]

theorem addr_of {m : BMem} {v : View} {w h cc : Nat} (wf : v.img.WF m) (fit : v.Fits w h) (hcc : v.img.cc = cc) (h0 : 0 < cc)
    {addr : Nat × Nat → Nat → Addr} (ha : addr = ptrAddr ∨ addr = idxAddr) :
    (addr (base v cc) v.img.rowSize).Of v (PosMap.bytes w h cc h0) := by
  subst hcc
  intro X Y hX hY
  have h1 : X / v.img.cc < w := by rw [Nat.div_lt_iff_lt_mul h0]; exact hX
  have e : X = X / v.img.cc * v.img.cc + X % v.img.cc := by rw [Nat.mul_comm, Nat.div_add_mod]
  rcases ha with rfl | rfl
  · have := ptrAddr_cell wf fit h1 hY (Nat.mod_lt X h0)
    rw [← e] at this
    exact this
  · have := idxAddr_cell wf fit h1 hY (Nat.mod_lt X h0)
    rw [← e] at this
    exact this

end PV.Cuda
