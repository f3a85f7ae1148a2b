import Verif.Forms
import Verif.PixelCopy
import Verif.GpuGrid
/-
  Transfers of images between the host and a device (src/cuda/image_function_cuda.cu 552-615,
  src/opencl/image_function_opencl.cpp 551-607).

  One memory holds the blocks of the host and those of the device; a pointer to device memory and a `cl_mem`
  are numbers of blocks.  An image whose alignment is 1 has rows without padding (src/image_buffer.h 89-97, 133-136), so the
  first part of the tests `alignment() == 1 || rowSize() == width() * colorCount()` adds nothing to the second one.
-/
namespace PV.Transfer

/-- `rowSize() == width() * colorCount()`, in `uint32_t` -/
def rowsTight (img : Image) : Bool := img.rowSize == u32 (img.width * img.cc)

/-- `in.width() != out.width() || in.height() != out.height() || in.colorCount() != out.colorCount()`.
    src/cuda/image_function_cuda.cu 565-566, 598-599, src/opencl/image_function_opencl.cpp 565, 594. -/
def differ (a b : Image) : Bool := a.width != b.width || a.height != b.height || a.cc != b.cc

/-- `cudaMemcpy2D`: an error (an exception in the library) if a row is longer than one of the pitches.
    src/cuda/image_function_cuda.cu 578-580, 611-613. -/
def cudaMemcpy2D (dst dpitch src spitch width height : Nat) : M BMem Unit := do
  throwIf (decide (dpitch < width) || decide (spitch < width))
  fold (fun y _ => memcpyC dst (y * dpitch) src (y * spitch) width) (List.range height) ()

/-- `ConvertToCuda( in, out )`, src/cuda/image_function_cuda.cu 560-582 -/
def ToCuda (inp out : Image) : M BMem Unit := do
  validateImage inp
  validateImage out
  throwIf (differ inp out)
  if rowsTight inp then
    memcpyC out.data 0 inp.data 0 (u32 (inp.rowSize * inp.height))
  else
    cudaMemcpy2D out.data out.rowSize inp.data inp.rowSize (u32 (inp.cc * inp.width)) inp.height

/-- `ConvertFromCuda( in, out )`, src/cuda/image_function_cuda.cu 593-615 -/
def FromCuda (inp out : Image) : M BMem Unit := do
  validateImage inp
  validateImage out
  throwIf (differ inp out)
  if rowsTight out then
    memcpyC out.data 0 inp.data 0 (u32 (inp.rowSize * inp.height))
  else
    cudaMemcpy2D out.data out.rowSize inp.data inp.rowSize (u32 (inp.cc * inp.width)) inp.height

/-- `writeBuffer`, src/opencl/opencl_helper.cpp 285-288: an error (an exception) if the bytes do not fit in the buffer. -/
def writeBuffer (memory n src : Nat) : M BMem Unit := fun m =>
  if m.size memory < n then .throw m else memcpyC memory 0 src 0 n m

/-- `readBuffer`, src/opencl/opencl_helper.cpp 280-283 -/
def readBuffer (memory n dst : Nat) : M BMem Unit := fun m =>
  if m.size memory < n then .throw m else memcpyC dst 0 memory 0 n m

/-- `ConvertToOpenCL( in, out )`, src/opencl/image_function_opencl.cpp 560-579.  `clEnqueueWriteImage` answers
    `CL_INVALID_MEM_OBJECT` for a memory object that is a buffer and not an image, as the ones of the library are, and
    `openCLCheck` makes an exception of it. -/
def ToOpenCL (inp out : Image) : M BMem Unit := do
  validateImage inp
  validateImage out
  throwIf (differ inp out)
  if rowsTight inp then
    writeBuffer out.data (size64 (inp.rowSize * inp.height)) inp.data
  else
    throwE

/-- `ConvertFromOpenCL( in, out )`, src/opencl/image_function_opencl.cpp 590-609; `clEnqueueReadImage` as above. -/
def FromOpenCL (inp out : Image) : M BMem Unit := do
  validateImages2 inp out
  throwIf (differ inp out)
  if rowsTight out then
    readBuffer inp.data (size64 (inp.rowSize * inp.height)) out.data
  else
    throwE

/-- The forms which return a new image: src/cuda/image_function_cuda.cu 551-558, 584-591, src/opencl/image_function_opencl.cpp
    551-558, 581-588.  The new image has alignment 1; nothing is validated before it is made. -/
def new (f : Image → Image → M BMem Unit) (inp : Image) : M Forms.Heap Image := do
  let out ← Forms.generate inp.width inp.height inp.cc
  Forms.filled out (f inp out)

/-! ### Lemmas -/

/-- A copy of all bytes of all rows. -/
theorem rows_copied {m : BMem} {inp out : View} {w h : Nat}
    (wfi : inp.img.WF m) (wfo : out.img.WF m) (fiti : inp.Fits w h) (fito : out.Fits w h)
    (co : out.img.cc = inp.img.cc) (hap : Apart inp w h out w h) :
    ∃ m', fold (fun p _ => do
          let v ← readC inp.img.data (inp.start inp.img.cc + p.1 * inp.img.rowSize + p.2)
          writeC out.img.data (out.start inp.img.cc + p.1 * out.img.rowSize + p.2) v)
          (grid h (w * inp.img.cc)) () m = .ok () m' ∧
      WritesRoi m m' out w h (fun x y c => inp.get m x y c) := by
  have hcc := (View.facts wfi fiti).1
  rw [fold_bytesL]
  refine roi_writes wfo fito nodup_bytesL (fun p => by rw [mem_bytesL hcc, co]) ?_
  intro x y c hx hy hc m' hoth
  have hc1 : c < inp.img.cc := by omega
  have e1 := View.start_cell wfi fiti x y c
  have eo := View.start_cell wfo fito x y c
  rw [co] at eo
  simp only [e1, eo]
  rw [bind_ok (readC_get wfi fiti hoth.size_eq hx hy hc1),
    writeC_get wfo fito hoth.size_eq hx hy hc,
    hoth.get_apart hap hx hy hc1]

/-- A copy of a whole block of rows, for two images without padding. -/
theorem flat_copied {m : BMem} {inp out : View} {w h : Nat} (hi : inp.x = 0 ∧ inp.y = 0) (ho : out.x = 0 ∧ out.y = 0)
    (wfi : inp.img.WF m) (wfo : out.img.WF m) (fiti : inp.Fits w h) (fito : out.Fits w h)
    (co : out.img.cc = inp.img.cc) (hne : out.img.data ≠ inp.img.data)
    (ti : inp.img.rowSize = w * inp.img.cc) (tt : out.img.rowSize = w * inp.img.cc) :
    ∃ m', memcpyC out.img.data 0 inp.img.data 0 (inp.img.rowSize * h) m = .ok () m' ∧
      WritesRoi m m' out w h (fun x y c => inp.get m x y c) := by
  obtain ⟨m', h1, h2⟩ := rows_copied wfi wfo fiti fito co (apart_of_ne _ _ _ _ (Ne.symm hne))
  refine ⟨m', ?_, h2⟩
  rw [← h1, memcpyC_eq (fun h => hne h.1), ti, Nat.mul_comm _ h, range_mul_eq_grid, fold_map, tt]
  have s1 : inp.start inp.img.cc = 0 := by rw [View.start_eq wfi fiti, hi.1, hi.2]; simp
  have s2 : out.start inp.img.cc = 0 := by rw [← co, View.start_eq wfo fito, ho.1, ho.2]; simp
  refine congrFun (fold_congr () fun p _ => ?_) m
  simp only [s1, s2, Nat.zero_add]

/-- A copy row by row. -/
theorem pitched_copied {m : BMem} {inp out : View} {w h : Nat} (hi : inp.x = 0 ∧ inp.y = 0) (ho : out.x = 0 ∧ out.y = 0)
    (wfi : inp.img.WF m) (wfo : out.img.WF m) (fiti : inp.Fits w h) (fito : out.Fits w h)
    (co : out.img.cc = inp.img.cc) (hne : out.img.data ≠ inp.img.data) :
    ∃ m', cudaMemcpy2D out.img.data out.img.rowSize inp.img.data inp.img.rowSize (w * inp.img.cc) h m = .ok () m' ∧
      WritesRoi m m' out w h (fun x y c => inp.get m x y c) := by
  obtain ⟨m', h1, h2⟩ := rows_copied wfi wfo fiti fito co (apart_of_ne _ _ _ _ (Ne.symm hne))
  refine ⟨m', ?_, h2⟩
  have r1 : w * inp.img.cc ≤ inp.img.rowSize := by
    have : w * inp.img.cc ≤ inp.img.width * inp.img.cc := Nat.mul_le_mul_right _ (by have := fiti.inX; omega)
    have := wfi.row
    omega
  have r2 : w * inp.img.cc ≤ out.img.rowSize := by
    have : w * out.img.cc ≤ out.img.width * out.img.cc := Nat.mul_le_mul_right _ (by have := fito.inX; omega)
    have := wfo.row
    rw [← co]
    omega
  have hc : (decide (out.img.rowSize < w * inp.img.cc) || decide (inp.img.rowSize < w * inp.img.cc)) = false := by
    simp only [Bool.or_eq_false_iff, decide_eq_false_iff_not]
    omega
  rw [← h1, cudaMemcpy2D, hc, throwIf_false, pure_bind', fold_grid]
  have s1 : inp.start inp.img.cc = 0 := by rw [View.start_eq wfi fiti, hi.1, hi.2]; simp
  have s2 : out.start inp.img.cc = 0 := by rw [← co, View.start_eq wfo fito, ho.1, ho.2]; simp
  refine congrFun (fold_congr () fun y _ => ?_) m
  funext a
  rw [memcpyC_eq (fun h => hne h.1)]
  simp only [s1, s2, Nat.zero_add]

end PV.Transfer
