import Verif.CudaReduce
/-
  Model of src/opencl/image_function_opencl.cpp.

  A call is the part on the host: it checks its arguments and returns the launch of the kernel with its arguments
  set; the effect is that of the launch (`Launch.Always`, `ALaunch.Always`).  `BMem` is the memory of the device: `image.data()` is the
  handle of a buffer, here the number of a block.

  `total` is `threadsPerBlock( kernel )` of the device (src/opencl/opencl_device.cpp), and `size_t` on the device has 64 bits.

  Not modelled: compiling and finding the program, queues, errors reported by the driver while a kernel runs, and
  transfers.  SetPixel is in `ClSetPixel`.  A kernel that reads the same
  input byte twice in one expression is modelled with one read.
-/
namespace PV.OpenCl
open PV.Cuda (absDiffK maxK minK subK thrK thr2K kernelLookup kernelGray kernelRgb)

/-- `launchKernel2D`, src/opencl/opencl_helper.cpp 246-253, 270-273 and `runKernel` 76-84 -/
def geometry {μ : Type} (total w h : Nat) : M μ Geometry := do
  let r ← getRange2 total w h
  pure ⟨r.global.x / r.loc.x, r.global.y / r.loc.y, r.loc.x, r.loc.y, size64⟩

/-- src/opencl/opencl_helper.cpp 76-84, 246-253. -/
def launch2D {μ : Type} (total w h : Nat) (kernel : Nat → Nat → Prog UInt8 Unit) : M μ Launch := do
  let g ← geometry total w h
  pure ⟨g, kernel⟩

/-- src/opencl/opencl_helper.cpp 76-84, 246-253. -/
def launchA {μ β : Type} (total w h : Nat) (kernel : Nat → Nat → AProg) (vec : List UInt32) (result : List UInt32 → β) : M μ (ALaunch β) := do
  let g ← geometry total w h
  pure ⟨g, kernel, vec, result⟩

/-- `startY * rowSize + startX * colorCount`, in 32 bits. For example src/opencl/image_function_opencl.cpp 425. -/
def offYX (v : View) (cc : Nat) : Nat := u32 (u32 (v.y * v.img.rowSize) + u32 (v.x * cc))
/-- `startX * rowSize + startY * colorCount`, in 32 bits. For example src/opencl/image_function_opencl.cpp 643, 775. -/
def offXY (v : View) (cc : Nat) : Nat := u32 (u32 (v.x * v.img.rowSize) + u32 (v.y * cc))

/-- `data[offset + y * rowSize + x]`, in 64 bits. For example src/opencl/image_function_opencl.cpp 81-83. -/
def addr (b offset rowSize : Nat) : Addr := fun x y => (b, size64 (size64 (offset + size64 (y * rowSize)) + x))
/-- `data + offset + (rowSize * y) + x * colorCount`, in 64 bits. src/opencl/image_function_opencl.cpp 137, 159. -/
def pixAddr (b offset rowSize colorCount : Nat) : Addr := fun x y => (b, offset + size64 (rowSize * y) + size64 (x * colorCount))

/-- The host part shared by the functions with two inputs and one output, for example src/opencl/image_function_opencl.cpp 410-432. -/
def binary (f : UInt8 → UInt8 → UInt8) (total : Nat) (in1 in2 out : View) (w h : Nat) : M BMem Launch := do
  validateRois [in1, in2, out] w h
  checkCommonColorCount in1.img [in2.img, out.img]
  let colorCount := in1.img.cc
  let width := u32 (w * colorCount)
  launch2D total width h (guarded width h (kernelBinary f (addr in1.img.data (offYX in1 colorCount) in1.img.rowSize)
    (addr in2.img.data (offYX in2 colorCount) in2.img.rowSize) (addr out.img.data (offYX out colorCount) out.img.rowSize)))

/-- src/opencl/image_function_opencl.cpp, kernel 74-86, call 410-432 -/
def AbsoluteDifference := binary absDiffK
/-- src/opencl/image_function_opencl.cpp, kernel 88-100, call 449-471 -/
def BitwiseAnd := binary (· &&& ·)
/-- src/opencl/image_function_opencl.cpp, kernel 102-114, call 488-510 -/
def BitwiseOr := binary (· ||| ·)
/-- src/opencl/image_function_opencl.cpp, kernel 116-128, call 527-549 -/
def BitwiseXor := binary (· ^^^ ·)
/-- src/opencl/image_function_opencl.cpp, kernel 265-277, call 1016-1038 -/
def Maximum := binary maxK
/-- src/opencl/image_function_opencl.cpp, kernel 279-291, call 1055-1077 -/
def Minimum := binary minK
/-- src/opencl/image_function_opencl.cpp, kernel 315-327, call 1193-1215 -/
def Subtract := binary subK

/-- src/opencl/image_function_opencl.cpp, kernel 234-241, call 906-925 -/
def Invert (total : Nat) (inp out : View) (w h : Nat) : M BMem Launch := do
  validateRois [inp, out] w h
  checkCommonColorCount inp.img [out.img]
  let colorCount := inp.img.cc
  let width := u32 (w * colorCount)
  launch2D total width h (guarded width h (kernelUnary (~~~ ·) (addr inp.img.data (offYX inp colorCount) inp.img.rowSize)
    (addr out.img.data (offYX out colorCount) out.img.rowSize)))

/-- src/opencl/image_function_opencl.cpp, kernel 168-176: the output index is `rowSizeOut + y * rowSizeOut + x`, the argument `offsetOut` is not used.
    call 702-721: the input offset is `startXIn * rowSizeIn + startYIn * colorCount`. -/
def Copy (total : Nat) (inp out : View) (w h : Nat) : M BMem Launch := do
  validateRois [inp, out] w h
  checkCommonColorCount inp.img [out.img]
  let colorCount := inp.img.cc
  let width := u32 (w * colorCount)
  launch2D total width h (guarded width h (kernelUnary id (addr inp.img.data (offXY inp colorCount) inp.img.rowSize)
    (addr out.img.data out.img.rowSize out.img.rowSize)))

/-- The host part of the two forms of Threshold (src/opencl/image_function_opencl.cpp 1280-1298, 1315-1333): the input offset is `startXIn * rowSizeIn + startYIn`. -/
def unaryGray (f : UInt8 → UInt8) (total : Nat) (inp out : View) (w h : Nat) : M BMem Launch := do
  validateRois [inp, out] w h
  verifyGray [inp.img, out.img]
  launch2D total w h (guarded w h (kernelUnary f (addr inp.img.data (offXY inp 1) inp.img.rowSize)
    (addr out.img.data (offYX out 1) out.img.rowSize)))

/-- src/opencl/image_function_opencl.cpp, kernel 350-359, call 1280-1298 -/
def Threshold (total : Nat) (inp out : View) (w h : Nat) (t : UInt8) : M BMem Launch := unaryGray (thrK t) total inp out w h
/-- src/opencl/image_function_opencl.cpp, kernel 361-371, call 1315-1333 -/
def Threshold2 (total : Nat) (inp out : View) (w h : Nat) (lo hi : UInt8) : M BMem Launch := unaryGray (thr2K lo hi) total inp out w h

/-- src/opencl/image_function_opencl.cpp, kernel 255-263, call 974-999: the input offset is `startXIn * rowSizeIn + startYIn * colorCount`. -/
def LookupTable (total : Nat) (inp out : View) (w h : Nat) (table : List UInt8) : M BMem Launch := do
  validateRois [inp, out] w h
  throwIf (table.length != 256)
  checkCommonColorCount inp.img [out.img]
  let colorCount := inp.img.cc
  let width := u32 (w * colorCount)
  launch2D total width h (guarded width h (kernelLookup table (addr inp.img.data (offXY inp colorCount) inp.img.rowSize)
    (addr out.img.data (offYX out colorCount) out.img.rowSize)))

/-- src/opencl/image_function_opencl.cpp, call 837-846 -/
def GammaCorrection (rnd : ℚ → ℚ) (pow : ℚ → ℚ → ℚ) (total : Nat) (inp out : View) (w h : Nat) (a gamma : ℚ) : M BMem Launch := do
  validateRois [inp, out] w h
  verifyGray [inp.img, out.img]
  let value ← GetGammaCorrectionLookupTable rnd pow a gamma
  LookupTable total inp out w h value

/-- src/opencl/image_function_opencl.cpp, kernel 188-195, call 766-780: the offset is `x * rowSize + y`. -/
def Fill (total : Nat) (image : View) (w h : Nat) (value : UInt8) : M BMem Launch := do
  validateRois [image] w h
  verifyGray [image.img]
  launch2D total w h (guarded w h (kernelFill value (addr image.img.data (offXY image 1) image.img.rowSize)))

/-- src/opencl/image_function_opencl.cpp, kernel 178-186: the input index is `offsetIn + (y * rowSizeIn + x) * colorCount + channelId`;
    call 738-759: the input offset is `startXIn * rowSizeIn + startYIn * colorCount`. -/
def ExtractChannel (total : Nat) (inp out : View) (w h channelId : Nat) : M BMem Launch := do
  validateRois [inp, out] w h
  verifyGray [out.img]
  throwIf (decide (channelId ≥ inp.img.cc))
  launch2D total w h (guarded w h (kernelUnary id
    (fun x y => (inp.img.data, size64 (size64 (offXY inp inp.img.cc + size64 (size64 (size64 (y * inp.img.rowSize) + x) * inp.img.cc)) + channelId)))
    (addr out.img.data (offYX out 1) out.img.rowSize)))

/-- src/opencl/image_function_opencl.cpp 204: `(horizontal != 0) ? (width - 1 - inX) : inX`, in 64 bits -/
def flipCoord (flag : Bool) (n i : Nat) : Nat := if flag then size64 (n + 18446744073709551615 - i) else i

/-- src/opencl/image_function_opencl.cpp, kernel 197-209, call 797-820: the size given to the kernel and the size of the launch are those of the image `in`, not `width` and `height`. -/
def Flip (total : Nat) (inp out : View) (w h : Nat) (horizontal vertical : Bool) : M BMem Launch := do
  validateRois [inp, out] w h
  verifyGray [inp.img, out.img]
  if !horizontal && !vertical then
    Copy total inp out w h
  else
    launch2D total inp.img.width inp.img.height (guarded inp.img.width inp.img.height (kernelUnary id
      (addr inp.img.data (offYX inp 1) inp.img.rowSize)
      (fun x y => addr out.img.data (offYX out 1) out.img.rowSize (flipCoord horizontal inp.img.width x) (flipCoord vertical inp.img.height y))))

/-- src/opencl/image_function_opencl.cpp, kernel 130-148, call 626-649: the input offset is `startXIn * rowSizeIn + startYIn * colorCount`.
    A gray-scale input is handed to `Copy( in, out )` for whole images (690-695), which refuses images of different sizes and else makes
    `out` a copy of `in`; the result `none` stands for that. -/
def ConvertToGrayScale (total : Nat) (inp out : View) (w h : Nat) : M BMem (Option Launch) := do
  validateRois [inp, out] w h
  verifyGray [out.img]
  if inp.img.cc == 1 then do
    throwIf (decide (inp.img.width ≠ out.img.width ∨ inp.img.height ≠ out.img.height))
    pure none
  else do
    let L ← launch2D total w h (guarded w h (kernelGray inp.img.cc (pixAddr inp.img.data (offXY inp inp.img.cc) inp.img.rowSize inp.img.cc)
      (addr out.img.data (offYX out out.img.cc) out.img.rowSize)))
    pure (some L)

/-- src/opencl/image_function_opencl.cpp, kernel 150-166, call 666-688, with the same remarks.  For any input that is not RGB the input is read as a gray-scale image. -/
def ConvertToRgb (total : Nat) (inp out : View) (w h : Nat) : M BMem (Option Launch) := do
  validateRois [inp, out] w h
  verifyRgb [out.img]
  if inp.img.cc == 3 then do
    throwIf (decide (inp.img.width ≠ out.img.width ∨ inp.img.height ≠ out.img.height))
    pure none
  else do
    let L ← launch2D total w h (guarded w h (kernelRgb out.img.cc (addr inp.img.data (offXY inp inp.img.cc) inp.img.rowSize)
      (pixAddr out.img.data (offYX out out.img.cc) out.img.rowSize out.img.cc)))
    pure (some L)

/-- src/opencl/image_function_opencl.cpp, kernel 211-220, call 868-889: the offset is `x * rowSize + y`. -/
def Histogram (total : Nat) (image : View) (w h : Nat) : M BMem (ALaunch (List UInt32)) := do
  validateRois [image] w h
  verifyGray [image.img]
  launchA total w h (guardedA w h (kernelHistogram (addr image.img.data (offXY image 1) image.img.rowSize))) (List.replicate 256 0) id

/-- src/opencl/image_function_opencl.cpp, kernel 243-253, call 934-957; `differenceCount.get() == 0` -/
def IsEqual (total : Nat) (in1 in2 : View) (w h : Nat) : M BMem (ALaunch Bool) := do
  validateRois [in1, in2] w h
  checkCommonColorCount in1.img [in2.img]
  let colorCount := in1.img.cc
  let width := u32 (w * colorCount)
  launchA total width h (guardedA width h (kernelCountDiff (addr in1.img.data (offYX in1 colorCount) in1.img.rowSize)
    (addr in2.img.data (offYX in2 colorCount) in2.img.rowSize))) [0] fun vec => vec == [0]

/-- src/opencl/image_function_opencl.cpp, kernels 293-313, call 1151-1176 -/
def ProjectionProfile (total : Nat) (image : View) (w h : Nat) (horizontal : Bool) : M BMem (ALaunch (List UInt32)) := do
  validateRois [image] w h
  let colorCount := image.img.cc
  let width := u32 (w * colorCount)
  launchA total width h (guardedA width h (kernelProjection horizontal (addr image.img.data (offYX image colorCount) image.img.rowSize)))
    (List.replicate (if horizontal then width else h) 0) id

/-- `setArgument` with `n` values for a kernel with `parameters` parameters (src/opencl/opencl_device.h 137-149, opencl_device.cpp 220-224):
    `clSetKernelArg` refuses an index that is not that of a parameter, and `openCLCheck` throws. Arguments of a wrong size,
    which are refused too, do not occur otherwise. -/
def setArguments {μ : Type} (parameters n : Nat) : M μ Unit := throwIf (decide (parameters < n))

/-- src/opencl/image_function_opencl.cpp, call 1094-1134: nine arguments are given to the kernel 222-232, which has six parameters.  What would follow is not modelled. -/
def Normalize (inp out : View) (w h : Nat) : M BMem Launch := do
  validateRois [inp, out] w h
  checkCommonColorCount inp.img [out.img]
  setArguments 6 9
  ubE

/-! ### Lemmas -/

/-- What is asked of the device: some threads in a block, and not absurdly many. Not in the code: for statements and proofs. -/
structure Device (total : Nat) : Prop where
  pos : 0 < total
  few : total < 4611686018427387904

theorem geometry_ok {total w h : Nat} (d : Device total) (hw : 0 < w) (hh : 0 < h) (hw2 : w < 4294967296) (hh2 : h < 4294967296) {μ : Type} :
    ∃ g : Geometry, (geometry total w h : M μ Geometry) = pure g ∧ g.Covers w h := by
  have := d.pos
  have := d.few
  obtain ⟨r, e, hr⟩ := getRange2_ok (μ := μ) (total := total) (w := w) (h := h) d.pos (by omega) hw hh (by omega) (by omega)
  refine ⟨_, by rw [geometry, e, pure_bind'], ?_⟩
  have tx : r.loc.x ≤ total := by
    have : r.loc.x * 1 ≤ r.loc.x * r.loc.y := Nat.mul_le_mul_left _ hr.ypos
    have := hr.total
    omega
  have ty : r.loc.y ≤ total := by
    have : 1 * r.loc.y ≤ r.loc.x * r.loc.y := Nat.mul_le_mul_right _ hr.xpos
    have := hr.total
    omega
  have ex : r.global.x / r.loc.x * r.loc.x = r.global.x := Nat.div_mul_cancel hr.divX
  have ey : r.global.y / r.loc.y * r.loc.y = r.global.y := Nat.div_mul_cancel hr.divY
  have := hr.spanX
  have := hr.spanY
  refine Geometry.covers (N := 18446744073709551616) size64_keeps ?_ ?_ ?_ ?_
  · show w ≤ r.global.x / r.loc.x * r.loc.x; omega
  · show h ≤ r.global.y / r.loc.y * r.loc.y; omega
  · show r.global.x / r.loc.x * r.loc.x ≤ _; omega
  · show r.global.y / r.loc.y * r.loc.y ≤ _; omega

end PV.OpenCl
