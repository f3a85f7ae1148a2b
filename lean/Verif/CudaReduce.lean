import Verif.GpuReduce
/-
  Model of src/cuda/image_function_cuda.cu: Histogram, IsEqual and ProjectionProfile.

  The numbers on the device (`multiCuda::Array`, `multiCuda::Type`, src/cuda/cuda_types.cuh 33-213) are copies of the numbers
  on the host before the launch and are copied back after it; that is the list `vec` of the launch.  How the device memory for them is
  obtained is not modelled.
-/
namespace PV.Cuda
open Props (One Bad rois_bad_then)

/-- `launchKernel2D`, src/cuda/cuda_helper.cuh 76-79 -/
def launchA {μ β : Type} (d : CudaDevice) (w h : Nat) (kernel : Nat → Nat → AProg) (vec : List UInt32) (result : List UInt32 → β) :
    M μ (ALaunch β) := do
  let g ← getGrid2 d w h
  pure ⟨⟨g.blocks.x, g.blocks.y, g.threads.x, g.threads.y, u32⟩, kernel, vec, result⟩

/-- src/cuda/image_function_cuda.cu, kernel 206-215, call 862-880; the result is the vector -/
def Histogram (d : CudaDevice) (image : View) (w h : Nat) : M BMem (ALaunch (List UInt32)) := do
  validateRois [image] w h
  verifyGray [image.img]
  launchA d w h (guardedA w h (kernelHistogram (idxAddr (base image 1) image.img.rowSize))) (List.replicate 256 0) id

/-- src/cuda/image_function_cuda.cu, kernel 227-236, call 922-941; `result.get() != 0` -/
def IsEqual (d : CudaDevice) (in1 in2 : View) (w h : Nat) : M BMem (ALaunch Bool) := do
  validateRois [in1, in2] w h
  checkCommonColorCount in1.img [in2.img]
  let colorCount := in1.img.cc
  let width := u32 (w * colorCount)
  launchA d width h (guardedA width h (kernelAllEqual (idxAddr (base in1 colorCount) in1.img.rowSize)
    (idxAddr (base in2 colorCount) in2.img.rowSize))) [1] fun vec => vec != [0]

/-- src/cuda/image_function_cuda.cu, kernels 276-297, call 1069-1089; the result is the vector -/
def ProjectionProfile (d : CudaDevice) (image : View) (w h : Nat) (horizontal : Bool) : M BMem (ALaunch (List UInt32)) := do
  validateRois [image] w h
  let colorCount := image.img.cc
  let width := u32 (w * colorCount)
  launchA d width h (guardedA width h (kernelProjection horizontal (ptrAddr (base image colorCount) image.img.rowSize)))
    (List.replicate (if horizontal then width else h) 0) id

/-! ### Lemmas -/

theorem launchA_runs {d : CudaDevice} {m : BMem} {W H : Nat} {kernel : Nat → Nat → AProg} {β : Type} {vec : List UInt32}
    {result : List UInt32 → β} {Q : β → Prop} (s : d.Serves W H) (hW : 0 < W) (hH : 0 < H)
    (h : ∀ L : ALaunch β, L.Covers W H → L.kernel = kernel → L.vec = vec → L.result = result → L.Always m Q) :
    ARuns (launchA d W H kernel vec result) m Q := by
  obtain ⟨L, e, _, hL⟩ := launch2D_ok (μ := BMem) s hW hH (fun _ _ => .ret ())
  rw [launch2D] at e
  have e' := congrFun e m
  cases hg : (getGrid2 d W H : M BMem _) m with
  | ok g m' =>
    rw [bind_ok hg] at e'
    cases e'
    exact ⟨⟨⟨g.blocks.x, g.blocks.y, g.threads.x, g.threads.y, u32⟩, kernel, vec, result⟩, by rw [launchA, bind_ok hg]; rfl,
      h _ hL rfl rfl rfl⟩
  | throw m' => rw [bind_throw hg] at e'; cases e'
  | ub => rw [bind_ub hg] at e'; cases e'

theorem ARuns_congr {β : Type} {c c' : M BMem (ALaunch β)} {m : BMem} {Q : β → Prop} (h : c m = c' m) (r : ARuns c' m Q) : ARuns c m Q := by
  obtain ⟨L, h1, h2⟩ := r
  exact ⟨L, by rw [h, h1], h2⟩

theorem validate_one {m : BMem} {v : View} {w h : Nat} (o : One m v w h) : validateRois [v] w h m = .ok () m :=
  validate_pre_ok (vs := [v]) (by simp; exact ⟨o.wf, o.fit⟩)

end PV.Cuda
