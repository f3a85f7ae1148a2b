import Verif.Core
import Mathlib.Data.Nat.Find
/-
  Model of the choice of launch sizes: src/cuda/cuda_helper.cu and src/opencl/opencl_helper.cpp.

  `wrap` is the reduction of the unsigned type in which the numbers are kept: `uint32_t` in the
  CUDA file and `size_t` (64 bits) in the OpenCL file.  A division by zero is undefined behaviour.
-/
namespace PV

variable {μ : Type}

/-- Reduction of an arithmetic result to `size_t`. Not in the code: machinery of the model. -/
def size64 (n : Nat) : Nat := n % 18446744073709551616

/-- `a / b` on unsigned numbers. Not in the code: machinery of the model. -/
def divC (a b : Nat) : M μ Nat := if b = 0 then ubE else pure (a / b)

/-- A size in three directions, `dim3` of CUDA and of src/opencl/opencl_helper.cpp 33-46. -/
structure Dim3 where
  x : Nat
  y : Nat
  z : Nat
deriving DecidableEq, Repr

/-- The loop of src/cuda/cuda_helper.cu 32-35 (`b = 2`), 44-47 (`b = 3`) and of
    src/opencl/opencl_helper.cpp 53-56, 65-68: the largest power of two whose `b`-th power is at most `total`. -/
def sideLoop (wrap : Nat → Nat) (b total : Nat) : M μ Nat :=
  loop (fun overall => decide (overall ≤ total)) (fun overall => wrap (overall * 2 ^ b))
    (fun _ threadCount => pure (wrap (threadCount * 2))) fuelMax (2 ^ b) 1

/-- `get2DThreadsPerBlock`, src/cuda/cuda_helper.cu 28-38 and src/opencl/opencl_helper.cpp 49-59 -/
def get2DThreads (wrap : Nat → Nat) (total : Nat) : M μ Dim3 := do
  let threadCount ← sideLoop wrap 2 total
  let x ← divC total threadCount
  pure ⟨x, threadCount, 1⟩

/-- `get3DThreadsPerBlock`, src/cuda/cuda_helper.cu 40-53 and src/opencl/opencl_helper.cpp 61-74 -/
def get3DThreads (wrap : Nat → Nat) (total : Nat) : M μ Dim3 := do
  let threadCount ← sideLoop wrap 3 total
  let rest ← divC total threadCount
  let t ← get2DThreads wrap rest
  pure { t with z := threadCount }

/-! ### CUDA -/

/-- What `CudaDevice` (src/cuda/cuda_device.cu 160-182) reports: the number of threads per block, the largest
    block and the largest grid. -/
structure CudaDevice where
  threads : Nat
  block : Dim3
  grid : Dim3

/-- `adjust2DThreadsPerBlock`, src/cuda/cuda_helper.cu 55-67.  The two `if` statements are two definitions. -/
def adjustY (total : Nat) (block t : Dim3) : M μ Dim3 :=
  if t.y > block.y then do
    let x ← divC total block.y
    pure { t with x := x, y := block.y }
  else pure t

/-- src/cuda/cuda_helper.cu 62-66 -/
def adjustX (total : Nat) (block t : Dim3) : M μ Dim3 :=
  if t.x > block.x then do
    let y ← divC total block.x
    if block.y ≥ y then pure { t with x := block.x, y := y } else pure { t with x := block.x }
  else pure t

/-- src/cuda/cuda_helper.cu 55-67 -/
def adjust2D (total : Nat) (block t : Dim3) : M μ Dim3 := do
  let t ← adjustY total block t
  adjustX total block t

/-- src/cuda/cuda_helper.cu 71-74 -/
def adjustZ (total : Nat) (block t : Dim3) : M μ Dim3 :=
  if t.z > block.z then do
    let y ← divC total (u32 (t.x * block.z))
    pure { t with y := y, z := block.z }
  else pure t

/-- `adjust3DThreadsPerBlock`, src/cuda/cuda_helper.cu 69-77 -/
def adjust3D (total : Nat) (block t : Dim3) : M μ Dim3 := do
  let t ← adjustZ total block t
  adjust2D total block t

/-- Blocks per grid and threads per block, `GridParameters` of src/cuda/cuda_helper.cuh 34-41. -/
structure Grid where
  blocks : Dim3
  threads : Dim3
deriving DecidableEq, Repr

/-- `(size + threads - 1) / threads` in `uint32_t` -/
def blocksFor (size threads : Nat) : M μ Nat := divC (u32 (u32 (size + threads) + 4294967295)) threads

/-- `getGridParameters( sizeX )`, src/cuda/cuda_helper.cu 158-171 -/
def getGrid1 (d : CudaDevice) (sizeX : Nat) : M μ Grid := do
  let t := if d.threads ≤ d.block.x then d.threads else d.block.x
  throwIf (decide (u32 (t * d.grid.x) < sizeX))
  let bx ← blocksFor sizeX t
  pure ⟨⟨bx, 1, 1⟩, ⟨t, 1, 1⟩⟩

/-- `getGridParameters( sizeX, sizeY )`, src/cuda/cuda_helper.cu 173-190 -/
def getGrid2 (d : CudaDevice) (sizeX sizeY : Nat) : M μ Grid := do
  let t ← get2DThreads u32 d.threads
  let t ← adjust2D d.threads d.block t
  throwIf (decide (u32 (t.x * d.grid.x) < sizeX) || decide (u32 (t.y * d.grid.y) < sizeY))
  let bx ← blocksFor sizeX t.x
  let by' ← blocksFor sizeY t.y
  pure ⟨⟨bx, by', 1⟩, t⟩

/-- `getGridParameters( sizeX, sizeY, sizeZ )`, src/cuda/cuda_helper.cu 192-210 -/
def getGrid3 (d : CudaDevice) (sizeX sizeY sizeZ : Nat) : M μ Grid := do
  let t ← get3DThreads u32 d.threads
  let t ← adjust3D d.threads d.block t
  throwIf (decide (u32 (t.x * d.grid.x) < sizeX) || decide (u32 (t.y * d.grid.y) < sizeY)
    || decide (u32 (t.z * d.grid.z) < sizeZ))
  let bx ← blocksFor sizeX t.x
  let by' ← blocksFor sizeY t.y
  let bz ← blocksFor sizeZ t.z
  pure ⟨⟨bx, by', bz⟩, t⟩

/-! ### OpenCL -/

/-- Global and local size of a launch, `KernelParameters` of src/opencl/opencl_helper.cpp 188-237; the checks
    there are `assert`s. -/
structure NDRange where
  global : Dim3
  loc : Dim3
deriving DecidableEq, Repr

/-- `( ( size + t - 1 ) / t ) * t` in `size_t`. src/opencl/opencl_helper.cpp 243, 251-252, 260-262. -/
def roundUp (size t : Nat) : M μ Nat := do
  let n ← divC (size64 (size64 (size + t) + 18446744073709551615)) t
  pure (size64 (n * t))

/-- src/opencl/opencl_helper.cpp 239-244; `total` is what the device allows for the kernel. -/
def getRange1 (total sizeX : Nat) : M μ NDRange := do
  let gx ← roundUp sizeX total
  pure ⟨⟨gx, 1, 1⟩, ⟨total, 1, 1⟩⟩

/-- src/opencl/opencl_helper.cpp 246-253 -/
def getRange2 (total sizeX sizeY : Nat) : M μ NDRange := do
  let t ← get2DThreads size64 total
  let gx ← roundUp sizeX t.x
  let gy ← roundUp sizeY t.y
  pure ⟨⟨gx, gy, 1⟩, t⟩

/-- src/opencl/opencl_helper.cpp 255-263 -/
def getRange3 (total sizeX sizeY sizeZ : Nat) : M μ NDRange := do
  let t ← get3DThreads size64 total
  let gx ← roundUp sizeX t.x
  let gy ← roundUp sizeY t.y
  let gz ← roundUp sizeZ t.z
  pure ⟨⟨gx, gy, gz⟩, t⟩

/-! ### The loop -/

theorem divC_pos {a b : Nat} (h : 0 < b) : (divC a b : M μ Nat) = pure (a / b) := by
  rw [divC, if_neg (by omega)]

theorem fold_double {W : Nat} {wrap : Nat → Nat} (hw : ∀ n, n < W → wrap n = n) {L : List Nat} (a : Nat)
    (h : a * 2 ^ L.length < W) :
    (fold (fun _ t => pure (wrap (t * 2))) L a : M μ Nat) = pure (a * 2 ^ L.length) := by
  induction L generalizing a with
  | nil => simp
  | cons p ps ih =>
    rw [fold_cons]
    have e : a * 2 ^ (p :: ps).length = a * 2 * 2 ^ ps.length := by
      rw [List.length_cons, Nat.pow_succ, Nat.mul_assoc, Nat.mul_comm 2]
    rw [e] at h ⊢
    have h2 : a * 2 * 1 ≤ a * 2 * 2 ^ ps.length := Nat.mul_le_mul_left _ Nat.one_le_two_pow
    rw [hw _ (by omega), pure_bind']
    exact ih (a * 2) h

/-- The power of two found by the loop. -/
theorem sideLoop_eq {W : Nat} {wrap : Nat → Nat} (hw : ∀ n, n < W → wrap n = n) (hW : W ≤ fuelMax) {b total : Nat} (hb : 0 < b)
    (ht : 0 < total) (h : total * 2 ^ b < W) :
    ∃ k, (sideLoop wrap b total : M μ Nat) = pure (2 ^ k) ∧ (2 ^ k) ^ b ≤ total ∧ total < (2 ^ (k + 1)) ^ b := by
  have hb2 : 2 ≤ 2 ^ b := by
    calc 2 = 2 ^ 1 := rfl
      _ ≤ 2 ^ b := Nat.pow_le_pow_right (by decide) hb
  have hex : ∃ k, total < (2 ^ b) ^ (k + 1) := by
    refine ⟨total, Nat.lt_of_lt_of_le Nat.lt_two_pow_self ?_⟩
    calc 2 ^ total ≤ (2 ^ b) ^ total := Nat.pow_le_pow_left hb2 _
      _ ≤ (2 ^ b) ^ (total + 1) := Nat.pow_le_pow_right (by omega) (by omega)
  classical
  obtain ⟨k, hk, hmin⟩ : ∃ k, total < (2 ^ b) ^ (k + 1) ∧ ∀ j, j < k → (2 ^ b) ^ (j + 1) ≤ total :=
    ⟨Nat.find hex, Nat.find_spec hex, fun j hj => Nat.le_of_not_lt (Nat.find_min hex hj)⟩
  have hle : (2 ^ b) ^ k ≤ total := by
    cases k with
    | zero => rw [Nat.pow_zero]; exact ht
    | succ j => exact hmin j (by omega)
  have hk2 : 2 ^ k ≤ (2 ^ b) ^ k := Nat.pow_le_pow_left hb2 _
  have htW : total * 1 ≤ total * 2 ^ b := Nat.mul_le_mul_left _ (by omega)
  have hkf : k < fuelMax := Nat.lt_of_lt_of_le (Nat.lt_of_lt_of_le Nat.lt_two_pow_self (by omega : 2 ^ k ≤ W)) hW
  have comm : ∀ j, (2 ^ b) ^ j = (2 ^ j) ^ b := fun j => by rw [← Nat.pow_mul, ← Nat.pow_mul, Nat.mul_comm]
  refine ⟨k, ?_, by rw [← comm]; exact hle, by rw [← comm]; exact hk⟩
  have e := loop_eq_fold (μ := μ) (cond := fun overall => decide (overall ≤ total)) (next := fun overall => wrap (overall * 2 ^ b))
    (body := fun _ threadCount => pure (wrap (threadCount * 2))) (fun j => (2 ^ b) ^ (j + 1)) k fuelMax 1 hkf
    (fun j hj => by simpa using hmin j hj) (by simpa using hk)
    (fun j hj => by
      rw [← Nat.pow_succ]
      refine hw _ (Nat.lt_of_le_of_lt ?_ h)
      rw [Nat.pow_succ]
      exact Nat.mul_le_mul_right _ (hmin j hj))
  rw [Nat.zero_add, Nat.pow_one] at e
  rw [sideLoop, e, fold_double hw]
  · rw [List.length_range, Nat.one_mul]
  · rw [List.length_range, Nat.one_mul]
    omega

theorem u32_id {n : Nat} (h : n < 4294967296) : u32 n = n := u32_of_lt h
theorem size64_id {n : Nat} (h : n < 18446744073709551616) : size64 n = n := Nat.mod_eq_of_lt h

/-- The block size of `get2DThreadsPerBlock`: `y` is a power of two with `y * y ≤ total < 4 * y * y`, and `x` is
    what is left. -/
theorem get2DThreads_eq {W : Nat} {wrap : Nat → Nat} (hw : ∀ n, n < W → wrap n = n) (hW : W ≤ fuelMax) {total : Nat} (ht : 0 < total)
    (h : total * 4 < W) :
    ∃ t : Dim3, (get2DThreads wrap total : M μ Dim3) = pure t ∧ t.z = 1 ∧ 0 < t.y ∧ t.y * t.y ≤ total ∧ total < 4 * (t.y * t.y) ∧
      t.x = total / t.y ∧ t.y ≤ t.x := by
  obtain ⟨k, h1, h2, h3⟩ := sideLoop_eq (μ := μ) hw hW (b := 2) (by decide) ht h
  have hp : 0 < 2 ^ k := Nat.two_pow_pos k
  have hsq : (2 ^ k) ^ 2 = 2 ^ k * 2 ^ k := Nat.pow_two _
  have hsq' : (2 ^ (k + 1)) ^ 2 = 4 * (2 ^ k * 2 ^ k) := by
    rw [Nat.pow_two, Nat.pow_succ]
    generalize 2 ^ k = a
    rw [Nat.mul_mul_mul_comm, Nat.mul_comm]
  refine ⟨⟨total / 2 ^ k, 2 ^ k, 1⟩, ?_, rfl, hp, by show 2 ^ k * 2 ^ k ≤ total; omega, by show total < 4 * (2 ^ k * 2 ^ k); omega, rfl, ?_⟩
  · rw [get2DThreads, h1, pure_bind', divC_pos hp, pure_bind']
  · show 2 ^ k ≤ total / 2 ^ k
    rw [Nat.le_div_iff_mul_le hp]
    omega


theorem u32_keeps : ∀ n, n < 4294967296 → u32 n = n := fun _ h => u32_of_lt h
theorem size64_keeps : ∀ n, n < 18446744073709551616 → size64 n = n := fun _ h => size64_id h

/-! ### CUDA sizes -/

/-- A block that the device accepts (the third size is 1). Not in the code: for statements and proofs. -/
structure CudaDevice.Accepts (d : CudaDevice) (t : Dim3) : Prop where
  xpos : 0 < t.x
  ypos : 0 < t.y
  x : t.x ≤ d.block.x
  y : t.y ≤ d.block.y
  z : t.z = 1
  total : t.x * t.y ≤ d.threads

theorem mul_div_le' (a b : Nat) : a / b * b ≤ a := Nat.div_mul_le_self a b

theorem adjust2D_ok {d : CudaDevice} (hx : 0 < d.block.x) (hy : 0 < d.block.y) {t : Dim3} (h1 : t.z = 1)
    (h2 : 0 < t.y) (h3 : t.y ≤ t.x) (h4 : t.x * t.y ≤ d.threads) :
    ∃ t', (adjust2D d.threads d.block t : M μ Dim3) = pure t' ∧ d.Accepts t' := by
  have key : ∀ t : Dim3, t.z = 1 → 0 < t.y → t.y ≤ d.block.y → 0 < t.x → t.x * t.y ≤ d.threads →
      ∃ t', (adjustX d.threads d.block t : M μ Dim3) = pure t' ∧ d.Accepts t' := by
    intro t h1 h2 h3 h4 h5
    unfold adjustX
    by_cases hc : t.x > d.block.x
    · rw [if_pos hc, divC_pos hx, pure_bind']
      have hle : d.block.x ≤ d.threads := by
        have : t.x * 1 ≤ t.x * t.y := Nat.mul_le_mul_left _ h2
        omega
      have hp : 0 < d.threads / d.block.x := Nat.div_pos hle hx
      by_cases hb : d.block.y ≥ d.threads / d.block.x
      · rw [if_pos hb]
        refine ⟨_, rfl, hx, hp, Nat.le_refl _, hb, h1, ?_⟩
        show d.block.x * (d.threads / d.block.x) ≤ d.threads
        rw [Nat.mul_comm]
        exact mul_div_le' _ _
      · rw [if_neg hb]
        refine ⟨_, rfl, hx, h2, Nat.le_refl _, h3, h1, ?_⟩
        show d.block.x * t.y ≤ d.threads
        exact Nat.le_trans (Nat.mul_le_mul_right _ (by omega)) h5
    · rw [if_neg hc]
      exact ⟨t, rfl, h4, h2, by omega, h3, h1, h5⟩
  unfold adjust2D adjustY
  by_cases hc : t.y > d.block.y
  · rw [if_pos hc, divC_pos hy, pure_bind', pure_bind']
    have hle : d.block.y ≤ d.threads := by
      have : 1 * t.y ≤ t.x * t.y := Nat.mul_le_mul_right _ (by omega)
      omega
    exact key _ h1 hy (Nat.le_refl _) (Nat.div_pos hle hy) (mul_div_le' _ _)
  · rw [if_neg hc, pure_bind']
    exact key t h1 h2 (by omega) (by omega) h4

theorem blocksFor_eq {size t : Nat} (ht : 0 < t) (h : size + t ≤ 4294967296) (hs : 0 < size) :
    (blocksFor size t : M μ Nat) = pure ((size + t - 1) / t) := by
  have e : u32 (u32 (size + t) + 4294967295) = size + t - 1 := by
    unfold u32
    omega
  rw [blocksFor, divC_pos ht, e]

/-- Number of threads along one axis when `(size + t - 1) / t` blocks of `t` threads are started. -/
theorem blocks_span {size t : Nat} (ht : 0 < t) (hs : 0 < size) :
    size ≤ (size + t - 1) / t * t ∧ (size + t - 1) / t * t < size + t ∧ 0 < (size + t - 1) / t := by
  have h1 := Nat.div_add_mod (size + t - 1) t
  have h2 := Nat.mod_lt (size + t - 1) ht
  rw [Nat.mul_comm] at h1
  refine ⟨by omega, by omega, Nat.div_pos (by omega) ht⟩

theorem blocks_le {size t n : Nat} (ht : 0 < t) (h : size ≤ t * n) : (size + t - 1) / t ≤ n := by
  rw [← Nat.lt_succ_iff, Nat.div_lt_iff_lt_mul ht, Nat.succ_mul, Nat.mul_comm]
  omega

/-- The device is able to run a kernel over `w` by `h` positions: it has sensible limits (at least one thread per block,
    fewer than 2^30), and its grid is large enough whatever the size of a block is.  The products are 32-bit
    numbers, as in the program. -/
structure CudaDevice.Serves (d : CudaDevice) (w h : Nat) : Prop where
  tpos : 0 < d.threads
  tmax : d.threads < 1073741824
  bx : 0 < d.block.x
  by' : 0 < d.block.y
  gx : ∀ t, 0 < t → t ≤ d.threads → w ≤ u32 (t * d.grid.x)
  gy : ∀ t, 0 < t → t ≤ d.threads → h ≤ u32 (t * d.grid.y)
  wsmall : w + d.threads ≤ 4294967296
  hsmall : h + d.threads ≤ 4294967296

/-- What is started for `w` by `h` positions. Not in the code: for statements and proofs. -/
structure Grid.Good2 (g : Grid) (d : CudaDevice) (w h : Nat) : Prop where
  block : d.Accepts g.threads
  gridX : 0 < g.blocks.x ∧ g.blocks.x ≤ d.grid.x
  gridY : 0 < g.blocks.y ∧ g.blocks.y ≤ d.grid.y
  z : g.blocks.z = 1
  spanX : w ≤ g.blocks.x * g.threads.x ∧ g.blocks.x * g.threads.x < w + g.threads.x
  spanY : h ≤ g.blocks.y * g.threads.y ∧ g.blocks.y * g.threads.y < h + g.threads.y

/-- The block chosen for two-dimensional launches. -/
theorem block2_ok {d : CudaDevice} (h1 : 0 < d.threads) (h2 : d.threads < 1073741824) (hx : 0 < d.block.x)
    (hy : 0 < d.block.y) :
    ∃ t, (get2DThreads u32 d.threads >>= adjust2D d.threads d.block : M μ Dim3) = pure t ∧ d.Accepts t := by
  obtain ⟨t, e, a1, a2, a3, a4, a5, a6⟩ := get2DThreads_eq (μ := μ) u32_keeps (by decide) h1 (by omega)
  rw [e, pure_bind']
  refine adjust2D_ok hx hy a1 a2 a6 ?_
  rw [a5]
  exact mul_div_le' _ _

theorem getGrid2_eq (d : CudaDevice) (w h : Nat) : (getGrid2 d w h : M μ Grid) =
    ((get2DThreads u32 d.threads >>= adjust2D d.threads d.block) >>= fun t : Dim3 =>
      throwIf (decide (u32 (t.x * d.grid.x) < w) || decide (u32 (t.y * d.grid.y) < h)) >>= fun _ =>
      blocksFor w t.x >>= fun bx => blocksFor h t.y >>= fun by' => pure ⟨⟨bx, by', 1⟩, t⟩) := by
  rw [bind_assoc']
  rfl

theorem getGrid2_cases {d : CudaDevice} {w h : Nat} (h1 : 0 < d.threads) (h2 : d.threads < 1073741824) (hx : 0 < d.block.x)
    (hy : 0 < d.block.y) (hw : 0 < w) (hh : 0 < h) (hw2 : w + d.threads ≤ 4294967296) (hh2 : h + d.threads ≤ 4294967296) :
    ∃ t, d.Accepts t ∧
      ((u32 (t.x * d.grid.x) < w ∨ u32 (t.y * d.grid.y) < h) ∧ (getGrid2 d w h : M μ Grid) = throwE ∨
       ∃ g : Grid, g.threads = t ∧ (getGrid2 d w h : M μ Grid) = pure g ∧ g.Good2 d w h) := by
  obtain ⟨t, e, a⟩ := block2_ok (μ := μ) h1 h2 hx hy
  refine ⟨t, a, ?_⟩
  rw [getGrid2_eq, e, pure_bind']
  have tx : t.x ≤ d.threads := by
    have : t.x * 1 ≤ t.x * t.y := Nat.mul_le_mul_left _ a.ypos
    have := a.total
    omega
  have ty : t.y ≤ d.threads := by
    have : 1 * t.y ≤ t.x * t.y := Nat.mul_le_mul_right _ a.xpos
    have := a.total
    omega
  by_cases hc : u32 (t.x * d.grid.x) < w ∨ u32 (t.y * d.grid.y) < h
  · refine Or.inl ⟨hc, ?_⟩
    have : (decide (u32 (t.x * d.grid.x) < w) || decide (u32 (t.y * d.grid.y) < h)) = true := by simpa using hc
    rw [this]
    rfl
  · refine Or.inr ⟨⟨⟨(w + t.x - 1) / t.x, (h + t.y - 1) / t.y, 1⟩, t⟩, rfl, ?_, ?_⟩
    · have : (decide (u32 (t.x * d.grid.x) < w) || decide (u32 (t.y * d.grid.y) < h)) = false := by simpa using hc
      rw [this, throwIf_false, pure_bind', blocksFor_eq a.xpos (by omega) hw, pure_bind', blocksFor_eq a.ypos (by omega) hh,
        pure_bind']
    · have l1 := u32_le (t.x * d.grid.x)
      have l2 := u32_le (t.y * d.grid.y)
      obtain ⟨s1, s2, s3⟩ := blocks_span a.xpos hw
      obtain ⟨s4, s5, s6⟩ := blocks_span a.ypos hh
      exact ⟨a, ⟨s3, blocks_le a.xpos (by omega)⟩, ⟨s6, blocks_le a.ypos (by omega)⟩, rfl, ⟨s1, s2⟩, s4, s5⟩

theorem getGrid2_ok {d : CudaDevice} {w h : Nat} (s : d.Serves w h) (hw : 0 < w) (hh : 0 < h) :
    ∃ g, (getGrid2 d w h : M μ Grid) = pure g ∧ g.Good2 d w h := by
  obtain ⟨t, a, ⟨hb, _⟩ | ⟨g, _, e, hg⟩⟩ := getGrid2_cases (μ := μ) s.tpos s.tmax s.bx s.by' hw hh s.wsmall s.hsmall
  · have tx : t.x ≤ d.threads := by
      have : t.x * 1 ≤ t.x * t.y := Nat.mul_le_mul_left _ a.ypos
      have := a.total
      omega
    have ty : t.y ≤ d.threads := by
      have : 1 * t.y ≤ t.x * t.y := Nat.mul_le_mul_right _ a.xpos
      have := a.total
      omega
    have := s.gx t.x a.xpos tx
    have := s.gy t.y a.ypos ty
    omega
  · exact ⟨g, e, hg⟩

/-! ### OpenCL sizes -/

theorem roundUp_eq {size t : Nat} (ht : 0 < t) (h : size + t ≤ 18446744073709551616) (hs : 0 < size) :
    (roundUp size t : M μ Nat) = pure ((size + t - 1) / t * t) := by
  have e : size64 (size64 (size + t) + 18446744073709551615) = size + t - 1 := by
    unfold size64
    omega
  have hl := (blocks_span ht hs).2.1
  rw [roundUp, divC_pos ht, e, pure_bind', size64_id (by omega)]

/-- What is started for `w` by `h` positions: the local size fits and divides the global size.
    Not in the code: for statements and proofs. -/
structure NDRange.Good2 (r : NDRange) (total w h : Nat) : Prop where
  xpos : 0 < r.loc.x
  ypos : 0 < r.loc.y
  total : r.loc.x * r.loc.y ≤ total
  z : r.loc.z = 1 ∧ r.global.z = 1
  divX : r.loc.x ∣ r.global.x
  divY : r.loc.y ∣ r.global.y
  spanX : w ≤ r.global.x ∧ r.global.x < w + r.loc.x
  spanY : h ≤ r.global.y ∧ r.global.y < h + r.loc.y

theorem getRange2_ok {total w h : Nat} (ht : 0 < total) (ht2 : total * 4 < 18446744073709551616) (hw : 0 < w) (hh : 0 < h)
    (hw2 : w + total ≤ 18446744073709551616) (hh2 : h + total ≤ 18446744073709551616) :
    ∃ r, (getRange2 total w h : M μ NDRange) = pure r ∧ r.Good2 total w h := by
  obtain ⟨t, e, a1, a2, a3, a4, a5, a6⟩ := get2DThreads_eq (μ := μ) size64_keeps (by decide) ht ht2
  have hp : 0 < t.x := by omega
  have ht' : t.x * t.y ≤ total := by rw [a5]; exact mul_div_le' _ _
  have tx : t.x ≤ total := by
    have : t.x * 1 ≤ t.x * t.y := Nat.mul_le_mul_left _ a2
    omega
  have ty : t.y ≤ total := by omega
  obtain ⟨s1, s2, s3⟩ := blocks_span hp hw
  obtain ⟨s4, s5, s6⟩ := blocks_span a2 hh
  refine ⟨⟨⟨(w + t.x - 1) / t.x * t.x, (h + t.y - 1) / t.y * t.y, 1⟩, t⟩, ?_, hp, a2, ht', ⟨a1, rfl⟩, Nat.dvd_mul_left _ _,
    Nat.dvd_mul_left _ _, ⟨s1, s2⟩, s4, s5⟩
  rw [getRange2, e, pure_bind', roundUp_eq hp (by omega) hw, pure_bind', roundUp_eq a2 (by omega) hh, pure_bind']

/-! ### One and three dimensions -/

theorem getGrid1_cases {d : CudaDevice} {w : Nat} (h1 : 0 < d.threads) (hx : 0 < d.block.x) (hw : 0 < w)
    (hw2 : w + d.threads ≤ 4294967296) :
    ∃ t, 0 < t ∧ t ≤ d.threads ∧ t ≤ d.block.x ∧
      (u32 (t * d.grid.x) < w ∧ (getGrid1 d w : M μ Grid) = throwE ∨
       w ≤ u32 (t * d.grid.x) ∧ (getGrid1 d w : M μ Grid) = pure ⟨⟨(w + t - 1) / t, 1, 1⟩, ⟨t, 1, 1⟩⟩) := by
  refine ⟨if d.threads ≤ d.block.x then d.threads else d.block.x, by split <;> omega, by split <;> omega, by split <;> omega, ?_⟩
  unfold getGrid1
  have ht : 0 < (if d.threads ≤ d.block.x then d.threads else d.block.x) := by split <;> omega
  have ht2 : (if d.threads ≤ d.block.x then d.threads else d.block.x) ≤ d.threads := by split <;> omega
  revert ht ht2
  generalize (if d.threads ≤ d.block.x then d.threads else d.block.x) = t
  intro ht ht2
  by_cases hc : u32 (t * d.grid.x) < w
  · refine Or.inl ⟨hc, ?_⟩
    show (throwIf (decide (u32 (t * d.grid.x) < w)) >>= _) = _
    rw [decide_eq_true hc]
    rfl
  · refine Or.inr ⟨by omega, ?_⟩
    show (throwIf (decide (u32 (t * d.grid.x) < w)) >>= _) = _
    rw [decide_eq_false hc, throwIf_false, pure_bind', blocksFor_eq ht (by omega) hw, pure_bind']

theorem get3DThreads_eq {W : Nat} {wrap : Nat → Nat} (hw : ∀ n, n < W → wrap n = n) (hW : W ≤ fuelMax) {total : Nat}
    (ht : 0 < total) (h : total * 8 < W) :
    ∃ t : Dim3, (get3DThreads wrap total : M μ Dim3) = pure t ∧ 0 < t.x ∧ 0 < t.y ∧ 0 < t.z ∧ t.x * t.y * t.z ≤ total ∧
      t.z ^ 3 ≤ total := by
  obtain ⟨k, h1, h2, h3⟩ := sideLoop_eq (μ := μ) hw hW (b := 3) (by decide) ht h
  have hp : 0 < 2 ^ k := Nat.two_pow_pos k
  have hle : 2 ^ k ≤ total := Nat.le_trans (Nat.le_self_pow (by decide) _) h2
  have hr : 0 < total / 2 ^ k := Nat.div_pos hle hp
  have hr2 : total / 2 ^ k ≤ total := Nat.div_le_self _ _
  obtain ⟨t, e, a1, a2, a3, a4, a5, a6⟩ := get2DThreads_eq (μ := μ) hw hW hr (by omega)
  refine ⟨{ t with z := 2 ^ k }, ?_, by show 0 < t.x; omega, a2, hp, ?_, h2⟩
  · rw [get3DThreads, h1, pure_bind', divC_pos hp, pure_bind', e, pure_bind']
  · show t.x * t.y * 2 ^ k ≤ total
    have : t.x * t.y ≤ total / 2 ^ k := by rw [a5]; exact mul_div_le' _ _
    exact Nat.le_trans (Nat.mul_le_mul_right _ this) (mul_div_le' _ _)

/-- The third limit; the two others do not matter. -/
theorem adjust3D_eq {total : Nat} {block t : Dim3} (h2 : total < 4294967296) (hx : total ≤ block.x) (hy : total ≤ block.y) (hz : 0 < block.z)
    (a1 : 0 < t.x) (a2 : 0 < t.y) (a3 : 0 < t.z) (a4 : t.x * t.y * t.z ≤ total) :
    ∃ t' : Dim3, (adjust3D total block t : M μ Dim3) = pure t' ∧ 0 < t'.x ∧ 0 < t'.y ∧ 0 < t'.z ∧ t'.z ≤ block.z ∧ t'.x * t'.y * t'.z ≤ total := by
  have p1 : t.x * t.y * 1 ≤ t.x * t.y * t.z := Nat.mul_le_mul_left _ a3
  have p2 : t.x * 1 ≤ t.x * t.y := Nat.mul_le_mul_left _ a2
  have p3 : 1 * t.y ≤ t.x * t.y := Nat.mul_le_mul_right _ a1
  by_cases hc : t.z > block.z
  · have q1 : t.x * block.z ≤ t.x * t.z := Nat.mul_le_mul_left _ (Nat.le_of_lt hc)
    have q2 : t.x * t.z ≤ t.x * t.y * t.z := Nat.mul_le_mul_right _ (by omega)
    have q3 : 0 < t.x * block.z := Nat.mul_pos a1 hz
    have q4 : total / (t.x * block.z) ≤ total := Nat.div_le_self _ _
    refine ⟨{ t with y := total / (t.x * block.z), z := block.z }, ?_, a1, Nat.div_pos (by omega) q3, hz, Nat.le_refl _, ?_⟩
    · unfold adjust3D adjustZ adjust2D adjustY adjustX
      rw [if_pos hc, u32_of_lt (by omega), divC_pos q3, pure_bind', pure_bind',
        if_neg (by show ¬ total / (t.x * block.z) > block.y; omega), pure_bind', if_neg (by show ¬ t.x > block.x; omega)]
    · show t.x * (total / (t.x * block.z)) * block.z ≤ total
      rw [Nat.mul_right_comm]
      exact Nat.mul_div_le _ _
  · refine ⟨t, ?_, a1, a2, a3, by omega, a4⟩
    unfold adjust3D adjustZ adjust2D adjustY adjustX
    rw [if_neg hc, pure_bind', if_neg (by omega), pure_bind', if_neg (by omega)]

/-- A device on which the block found for three dimensions need not be adjusted in the first two of them. -/
theorem getGrid3_cases {d : CudaDevice} {w h l : Nat} (h1 : 0 < d.threads) (h2 : d.threads < 536870912)
    (hx : d.threads ≤ d.block.x) (hy : d.threads ≤ d.block.y) (hz : 0 < d.block.z)
    (hw : 0 < w) (hh : 0 < h) (hl : 0 < l) (hw2 : w + d.threads ≤ 4294967296) (hh2 : h + d.threads ≤ 4294967296)
    (hl2 : l + d.threads ≤ 4294967296) :
    ∃ t : Dim3, 0 < t.x ∧ 0 < t.y ∧ 0 < t.z ∧ t.x ≤ d.block.x ∧ t.y ≤ d.block.y ∧ t.z ≤ d.block.z ∧ t.x * t.y * t.z ≤ d.threads ∧
      ((u32 (t.x * d.grid.x) < w ∨ u32 (t.y * d.grid.y) < h ∨ u32 (t.z * d.grid.z) < l) ∧ (getGrid3 d w h l : M μ Grid) = throwE ∨
       w ≤ u32 (t.x * d.grid.x) ∧ h ≤ u32 (t.y * d.grid.y) ∧ l ≤ u32 (t.z * d.grid.z) ∧
        (getGrid3 d w h l : M μ Grid) = pure ⟨⟨(w + t.x - 1) / t.x, (h + t.y - 1) / t.y, (l + t.z - 1) / t.z⟩, t⟩) := by
  obtain ⟨t0, e, a1, a2, a3, a4, -⟩ := get3DThreads_eq (μ := μ) u32_keeps (by decide) h1 (by omega)
  obtain ⟨t, hadj, a1, a2, a3, hz', a4⟩ := adjust3D_eq (μ := μ) (by omega) hx hy hz a1 a2 a3 a4
  have p1 : t.x * t.y * 1 ≤ t.x * t.y * t.z := Nat.mul_le_mul_left _ a3
  have p2 : t.x * 1 ≤ t.x * t.y := Nat.mul_le_mul_left _ a2
  have p3 : 1 * t.y ≤ t.x * t.y := Nat.mul_le_mul_right _ a1
  have p4 : 1 * t.z ≤ t.x * t.y * t.z := Nat.mul_le_mul_right _ (by omega)
  refine ⟨t, a1, a2, a3, by omega, by omega, hz', a4, ?_⟩
  rw [getGrid3, e, pure_bind', hadj, pure_bind']
  by_cases hc : u32 (t.x * d.grid.x) < w ∨ u32 (t.y * d.grid.y) < h ∨ u32 (t.z * d.grid.z) < l
  · refine Or.inl ⟨hc, ?_⟩
    have : (decide (u32 (t.x * d.grid.x) < w) || decide (u32 (t.y * d.grid.y) < h) || decide (u32 (t.z * d.grid.z) < l)) = true := by
      simpa [or_assoc] using hc
    rw [this]
    rfl
  · refine Or.inr ⟨by omega, by omega, by omega, ?_⟩
    have : (decide (u32 (t.x * d.grid.x) < w) || decide (u32 (t.y * d.grid.y) < h) || decide (u32 (t.z * d.grid.z) < l)) = false := by
      simpa [and_assoc] using hc
    rw [this, throwIf_false, pure_bind', blocksFor_eq a1 (by omega) hw, pure_bind', blocksFor_eq a2 (by omega) hh, pure_bind',
      blocksFor_eq a3 (by omega) hl, pure_bind']

theorem getRange3_ok {total w h l : Nat} (ht : 0 < total) (ht2 : total * 8 < 18446744073709551616) (hw : 0 < w) (hh : 0 < h)
    (hl : 0 < l) (hw2 : w + total ≤ 18446744073709551616) (hh2 : h + total ≤ 18446744073709551616)
    (hl2 : l + total ≤ 18446744073709551616) :
    ∃ r : NDRange, (getRange3 total w h l : M μ NDRange) = pure r ∧ r.loc.x * r.loc.y * r.loc.z ≤ total ∧
      (0 < r.loc.x ∧ r.loc.x ∣ r.global.x ∧ w ≤ r.global.x ∧ r.global.x < w + r.loc.x) ∧
      (0 < r.loc.y ∧ r.loc.y ∣ r.global.y ∧ h ≤ r.global.y ∧ r.global.y < h + r.loc.y) ∧
      (0 < r.loc.z ∧ r.loc.z ∣ r.global.z ∧ l ≤ r.global.z ∧ r.global.z < l + r.loc.z) := by
  obtain ⟨t, e, a1, a2, a3, a4, a5⟩ := get3DThreads_eq (μ := μ) size64_keeps (by decide) ht (by omega)
  have p1 : t.x * t.y * 1 ≤ t.x * t.y * t.z := Nat.mul_le_mul_left _ a3
  have p2 : t.x * 1 ≤ t.x * t.y := Nat.mul_le_mul_left _ a2
  have p3 : 1 * t.y ≤ t.x * t.y := Nat.mul_le_mul_right _ a1
  have p4 : 1 * t.z ≤ t.x * t.y * t.z := Nat.mul_le_mul_right _ (by omega)
  obtain ⟨s1, s2, s3⟩ := blocks_span a1 hw
  obtain ⟨s4, s5, s6⟩ := blocks_span a2 hh
  obtain ⟨s7, s8, s9⟩ := blocks_span a3 hl
  refine ⟨⟨⟨(w + t.x - 1) / t.x * t.x, (h + t.y - 1) / t.y * t.y, (l + t.z - 1) / t.z * t.z⟩, t⟩, ?_, a4,
    ⟨a1, Nat.dvd_mul_left _ _, s1, s2⟩, ⟨a2, Nat.dvd_mul_left _ _, s4, s5⟩, a3, Nat.dvd_mul_left _ _, s7, s8⟩
  rw [getRange3, e, pure_bind', roundUp_eq a1 (by omega) hw, pure_bind', roundUp_eq a2 (by omega) hh, pure_bind',
    roundUp_eq a3 (by omega) hl, pure_bind']

end PV
