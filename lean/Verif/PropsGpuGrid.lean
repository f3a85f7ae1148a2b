import Verif.Gpu
/-
  C106: launch sizes on a CUDA device.  C107: launch sizes on an OpenCL device.
-/
namespace PV.Props

/-- Along one axis every position below `n` is the position of exactly one thread, when `blocks` blocks of
    `threads` threads are started. Positions are 32-bit numbers. -/
def AxisOnce (blocks threads n : Nat) : Prop :=
  ∀ x, x < n → ∃ b t, (b < blocks ∧ t < threads ∧ (threads * b % 2 ^ 32 + t) % 2 ^ 32 = x) ∧
    ∀ b' t', b' < blocks → t' < threads → (threads * b' % 2 ^ 32 + t') % 2 ^ 32 = x → b' = b ∧ t' = t

theorem axisOnce {blocks threads n : Nat} (ht : 0 < threads) (h1 : n ≤ blocks * threads) (h2 : blocks * threads ≤ 4294967296) :
    AxisOnce blocks threads n := by
  have key : ∀ b t, b < blocks → t < threads → (threads * b % 2 ^ 32 + t) % 2 ^ 32 = threads * b + t := by
    intro b t hb ht
    have := Geometry.axis_lt hb ht
    rw [Nat.mod_eq_of_lt (a := threads * b) (by omega), Nat.mod_eq_of_lt (by omega)]
  intro x hx
  have hb : x / threads < blocks := by rw [Nat.div_lt_iff_lt_mul ht]; omega
  refine ⟨x / threads, x % threads, ⟨hb, Nat.mod_lt _ ht, ?_⟩, fun b' t' hb' ht' he => ?_⟩
  · rw [key _ _ hb (Nat.mod_lt _ ht)]
    exact Nat.div_add_mod _ _
  · rw [key _ _ hb' ht', ← Nat.div_add_mod x threads] at he
    exact axis_once ht' (Nat.mod_lt _ ht) he

/-- The launch is one the device accepts: every size is positive and at most the limit, and a block has at most
    `d.threads` threads. -/
structure Accepted (d : CudaDevice) (g : Grid) : Prop where
  pos : 0 < g.threads.x ∧ 0 < g.threads.y ∧ 0 < g.threads.z ∧ 0 < g.blocks.x ∧ 0 < g.blocks.y ∧ 0 < g.blocks.z
  block : g.threads.x ≤ d.block.x ∧ g.threads.y ≤ d.block.y ∧ g.threads.z ≤ d.block.z
  total : g.threads.x * g.threads.y * g.threads.z ≤ d.threads
  grid : g.blocks.x ≤ d.grid.x ∧ g.blocks.y ≤ d.grid.y ∧ g.blocks.z ≤ d.grid.z

/-- A device with usable limits: between 1 and 2^30 - 1 threads per block, no limit is 0. -/
structure Usable (d : CudaDevice) : Prop where
  threads : 0 < d.threads
  few : d.threads < 2 ^ 30
  block : 0 < d.block.x ∧ 0 < d.block.y ∧ 0 < d.block.z
  grid : 0 < d.grid.x ∧ 0 < d.grid.y ∧ 0 < d.grid.z

/-- **C106.** Two dimensions: the call throws, or the launch is accepted and every position has exactly one thread. -/
theorem C106_grid2 {d : CudaDevice} (u : Usable d) {w h : Nat} (hw : 0 < w) (hh : 0 < h) (hw2 : w + d.threads ≤ 2 ^ 32)
    (hh2 : h + d.threads ≤ 2 ^ 32) {μ : Type} (m : μ) :
    (getGrid2 d w h m = .throw m ∨ ∃ g, getGrid2 d w h m = .ok g m ∧ Accepted d g ∧ g.threads.z = 1 ∧ g.blocks.z = 1 ∧
      AxisOnce g.blocks.x g.threads.x w ∧ AxisOnce g.blocks.y g.threads.y h) ∧
    ((∀ t, 0 < t → t ≤ d.threads → w ≤ t * d.grid.x % 2 ^ 32 ∧ h ≤ t * d.grid.y % 2 ^ 32) → getGrid2 d w h m ≠ .throw m) := by
  obtain ⟨t, a, hc⟩ := getGrid2_cases (μ := μ) u.threads u.few u.block.1 u.block.2.1 hw hh hw2 hh2
  have tx : t.x ≤ d.threads := by
    have : t.x * 1 ≤ t.x * t.y := Nat.mul_le_mul_left _ a.ypos
    have := a.total
    omega
  have ty : t.y ≤ d.threads := by
    have : 1 * t.y ≤ t.x * t.y := Nat.mul_le_mul_right _ a.xpos
    have := a.total
    omega
  rcases hc with ⟨hb, e⟩ | ⟨g, rfl, e, hg⟩
  · refine ⟨Or.inl (by rw [e]; rfl), fun hs => ?_⟩
    have h1 := (hs t.x a.xpos tx).1
    have h2 := (hs t.y a.ypos ty).2
    have e1 : u32 (t.x * d.grid.x) = t.x * d.grid.x % 2 ^ 32 := rfl
    have e2 : u32 (t.y * d.grid.y) = t.y * d.grid.y % 2 ^ 32 := rfl
    omega
  · have bz := a.z
    have z := hg.z
    have sx := hg.spanX
    have sy := hg.spanY
    refine ⟨Or.inr ⟨g, by rw [e]; rfl, ⟨⟨a.xpos, a.ypos, by omega, hg.gridX.1, hg.gridY.1, by omega⟩,
      ⟨a.x, a.y, by have := u.block.2.2; omega⟩, by rw [bz, Nat.mul_one]; exact a.total,
      hg.gridX.2, hg.gridY.2, by have := u.grid.2.2; omega⟩, bz, z, axisOnce a.xpos sx.1 (by omega), axisOnce a.ypos sy.1 (by omega)⟩,
      fun _ hn => ?_⟩
    rw [e] at hn
    cases hn

/-- **C106.** One dimension. -/
theorem C106_grid1 {d : CudaDevice} (u : Usable d) {w : Nat} (hw : 0 < w) (hw2 : w + d.threads ≤ 2 ^ 32) {μ : Type} (m : μ) :
    (getGrid1 d w m = .throw m ∨ ∃ g, getGrid1 d w m = .ok g m ∧ Accepted d g ∧ g.threads.y = 1 ∧ g.threads.z = 1 ∧
      g.blocks.y = 1 ∧ g.blocks.z = 1 ∧ AxisOnce g.blocks.x g.threads.x w) ∧
    ((∀ t, 0 < t → t ≤ d.threads → w ≤ t * d.grid.x % 2 ^ 32) → getGrid1 d w m ≠ .throw m) := by
  obtain ⟨t, t1, t2, t3, hc⟩ := getGrid1_cases (μ := μ) u.threads u.block.1 hw hw2
  have e1 : u32 (t * d.grid.x) = t * d.grid.x % 2 ^ 32 := rfl
  rcases hc with ⟨hb, e⟩ | ⟨hb, e⟩
  · refine ⟨Or.inl (by rw [e]; rfl), fun hs => ?_⟩
    have h1 := hs t t1 t2
    omega
  · obtain ⟨s1, s2, s3⟩ := blocks_span t1 hw
    have l1 := u32_le (t * d.grid.x)
    have := u.block
    have := u.grid
    refine ⟨Or.inr ⟨_, by rw [e]; rfl, ⟨⟨t1, Nat.one_pos, Nat.one_pos, s3, Nat.one_pos, Nat.one_pos⟩, ⟨t3, by show 1 ≤ _; omega, by show 1 ≤ _; omega⟩,
      by show t * 1 * 1 ≤ _; omega, blocks_le (size := w) (n := d.grid.x) t1 (by omega), by show 1 ≤ _; omega, by show 1 ≤ _; omega⟩, rfl, rfl, rfl, rfl,
      axisOnce t1 s1 (by show (w + t - 1) / t * t ≤ _; omega)⟩, fun _ hn => ?_⟩
    rw [e] at hn
    cases hn

/-- **C106.** Three dimensions. Partial: proved for devices that allow, in each of the first two directions of a block, as many threads
    as in a whole block. On other devices the block may have
    too many threads (`C106_grid3_wrong`). -/
theorem C106_grid3_partial {d : CudaDevice} (u : Usable d) (few : d.threads < 2 ^ 29) (hx : d.threads ≤ d.block.x)
    (hy : d.threads ≤ d.block.y) {w h l : Nat} (hw : 0 < w) (hh : 0 < h) (hl : 0 < l)
    (hw2 : w + d.threads ≤ 2 ^ 32) (hh2 : h + d.threads ≤ 2 ^ 32) (hl2 : l + d.threads ≤ 2 ^ 32) {μ : Type} (m : μ) :
    (getGrid3 d w h l m = .throw m ∨ ∃ g, getGrid3 d w h l m = .ok g m ∧ Accepted d g ∧
      AxisOnce g.blocks.x g.threads.x w ∧ AxisOnce g.blocks.y g.threads.y h ∧ AxisOnce g.blocks.z g.threads.z l) ∧
    ((∀ t, 0 < t → t ≤ d.threads → w ≤ t * d.grid.x % 2 ^ 32 ∧ h ≤ t * d.grid.y % 2 ^ 32 ∧ l ≤ t * d.grid.z % 2 ^ 32) →
      getGrid3 d w h l m ≠ .throw m) := by
  obtain ⟨t, a1, a2, a3, b1, b2, b3, tot, hc⟩ := getGrid3_cases (μ := μ) u.threads few hx hy u.block.2.2 hw hh hl hw2 hh2 hl2
  have p1 : t.x * t.y * 1 ≤ t.x * t.y * t.z := Nat.mul_le_mul_left _ a3
  have p2 : t.x * 1 ≤ t.x * t.y := Nat.mul_le_mul_left _ a2
  have p3 : 1 * t.y ≤ t.x * t.y := Nat.mul_le_mul_right _ a1
  have p4 : 1 * t.z ≤ t.x * t.y * t.z := Nat.mul_le_mul_right _ (by omega)
  rcases hc with ⟨hb, e⟩ | ⟨g1, g2, g3, e⟩
  · refine ⟨Or.inl (by rw [e]; rfl), fun hs => ?_⟩
    have h1 := (hs t.x a1 (by omega)).1
    have h2 := (hs t.y a2 (by omega)).2.1
    have h3 := (hs t.z a3 (by omega)).2.2
    have e1 : u32 (t.x * d.grid.x) = t.x * d.grid.x % 2 ^ 32 := rfl
    have e2 : u32 (t.y * d.grid.y) = t.y * d.grid.y % 2 ^ 32 := rfl
    have e3 : u32 (t.z * d.grid.z) = t.z * d.grid.z % 2 ^ 32 := rfl
    omega
  · obtain ⟨s1, s2, s3⟩ := blocks_span a1 hw
    obtain ⟨s4, s5, s6⟩ := blocks_span a2 hh
    obtain ⟨s7, s8, s9⟩ := blocks_span a3 hl
    have l1 := u32_le (t.x * d.grid.x)
    have l2 := u32_le (t.y * d.grid.y)
    have l3 := u32_le (t.z * d.grid.z)
    refine ⟨Or.inr ⟨_, by rw [e]; rfl, ⟨⟨a1, a2, a3, s3, s6, s9⟩, ⟨b1, b2, b3⟩, tot, blocks_le (size := w) (n := d.grid.x) a1 (by omega), blocks_le (size := h) (n := d.grid.y) a2 (by omega),
      blocks_le (size := l) (n := d.grid.z) a3 (by omega)⟩, axisOnce a1 s1 ?_, axisOnce a2 s4 ?_, axisOnce a3 s7 ?_⟩, fun _ hn => ?_⟩
    · show (w + t.x - 1) / t.x * t.x ≤ _; omega
    · show (h + t.y - 1) / t.y * t.y ≤ _; omega
    · show (l + t.z - 1) / t.z * t.z ≤ _; omega
    · rw [e] at hn
      cases hn

/-- The result of a call without state. -/
def valueOf {α : Type} (x : M Unit α) : Option α :=
  match x () with
  | .ok a _ => some a
  | _ => none

/-- **C106** fails in three dimensions: with 512 threads per block and at most 512 by 4 by 64 threads, blocks of
    128 by 4 by 8 = 4096 threads are started, eight times more than the device allows. -/
theorem C106_grid3_wrong :
    Usable ⟨512, ⟨512, 4, 64⟩, ⟨65535, 65535, 65535⟩⟩ ∧
    valueOf (getGrid3 ⟨512, ⟨512, 4, 64⟩, ⟨65535, 65535, 65535⟩⟩ 1000 1000 10) = some ⟨⟨8, 250, 2⟩, ⟨128, 4, 8⟩⟩ ∧
    ¬ Accepted ⟨512, ⟨512, 4, 64⟩, ⟨65535, 65535, 65535⟩⟩ ⟨⟨8, 250, 2⟩, ⟨128, 4, 8⟩⟩ := by
  refine ⟨⟨by decide, by decide, by decide, by decide⟩, by decide +kernel, fun h => ?_⟩
  have := h.total
  simp at this

/-- A graphics card: 1024 threads per block, at most 1024 by 1024 by 64; grids up to 2^31 - 1 by 65535 by 65535. -/
def card : CudaDevice := ⟨1024, ⟨1024, 1024, 64⟩, ⟨2147483647, 65535, 65535⟩⟩

example : Usable card := ⟨by decide, by decide, by decide, by decide⟩
example : valueOf (getGrid2 card 1920 1080) = some ⟨⟨60, 34, 1⟩, ⟨32, 32, 1⟩⟩ := by decide +kernel
example : valueOf (getGrid1 card 1920) = some ⟨⟨2, 1, 1⟩, ⟨1024, 1, 1⟩⟩ := by decide +kernel
example : valueOf (getGrid3 card 100 100 100) = some ⟨⟨7, 13, 13⟩, ⟨16, 8, 8⟩⟩ := by decide +kernel

/-- A device with a small third limit -/
example : valueOf (getGrid3 ⟨1024, ⟨1024, 1024, 4⟩, ⟨65535, 65535, 65535⟩⟩ 100 100 100) = some ⟨⟨7, 7, 25⟩, ⟨16, 16, 4⟩⟩ := by decide +kernel
example : card.threads ≤ card.block.x ∧ card.threads ≤ card.block.y ∧ card.threads ≤ card.block.z ^ 3 := by decide
/-- Too many rows for the card. -/
example : (valueOf (getGrid2 card 10 3000000)).isSome = false := by decide +kernel

/-! ### C107 -/

/-- **C107.** Two dimensions on an OpenCL device that allows `total` work items in a group: the call returns, the group has at most
    `total` items, its sizes divide the global sizes, and the global sizes cover the request with less than one
    group to spare. -/
theorem C107_range2 {total w h : Nat} (ht : 0 < total) (ht2 : total < 2 ^ 62) (hw : 0 < w) (hh : 0 < h) (hw2 : w + total ≤ 2 ^ 64)
    (hh2 : h + total ≤ 2 ^ 64) {μ : Type} (m : μ) :
    ∃ r, getRange2 total w h m = .ok r m ∧ r.loc.x * r.loc.y ≤ total ∧ r.loc.z = 1 ∧ r.global.z = 1 ∧
      (0 < r.loc.x ∧ r.loc.x ∣ r.global.x ∧ w ≤ r.global.x ∧ r.global.x < w + r.loc.x) ∧
      (0 < r.loc.y ∧ r.loc.y ∣ r.global.y ∧ h ≤ r.global.y ∧ r.global.y < h + r.loc.y) := by
  obtain ⟨r, e, g⟩ := getRange2_ok (μ := μ) ht (by omega) hw hh hw2 hh2
  exact ⟨r, by rw [e]; rfl, g.total, g.z.1, g.z.2, ⟨g.xpos, g.divX, g.spanX⟩, g.ypos, g.divY, g.spanY⟩

/-- **C107.** One dimension. -/
theorem C107_range1 {total w : Nat} (ht : 0 < total) (hw : 0 < w) (hw2 : w + total ≤ 2 ^ 64) {μ : Type} (m : μ) :
    ∃ r, getRange1 total w m = .ok r m ∧ r.loc = ⟨total, 1, 1⟩ ∧ r.global.y = 1 ∧ r.global.z = 1 ∧ total ∣ r.global.x ∧
      w ≤ r.global.x ∧ r.global.x < w + total := by
  obtain ⟨s1, s2, s3⟩ := blocks_span ht hw
  refine ⟨⟨⟨(w + total - 1) / total * total, 1, 1⟩, ⟨total, 1, 1⟩⟩, ?_, rfl, rfl, rfl, Nat.dvd_mul_left _ _, s1, s2⟩
  rw [getRange1, roundUp_eq ht hw2 hw]
  rfl

/-- **C107.** Three dimensions. -/
theorem C107_range3 {total w h l : Nat} (ht : 0 < total) (ht2 : total < 2 ^ 61) (hw : 0 < w) (hh : 0 < h) (hl : 0 < l)
    (hw2 : w + total ≤ 2 ^ 64) (hh2 : h + total ≤ 2 ^ 64) (hl2 : l + total ≤ 2 ^ 64) {μ : Type} (m : μ) :
    ∃ r, getRange3 total w h l m = .ok r m ∧ r.loc.x * r.loc.y * r.loc.z ≤ total ∧
      (0 < r.loc.x ∧ r.loc.x ∣ r.global.x ∧ w ≤ r.global.x ∧ r.global.x < w + r.loc.x) ∧
      (0 < r.loc.y ∧ r.loc.y ∣ r.global.y ∧ h ≤ r.global.y ∧ r.global.y < h + r.loc.y) ∧
      (0 < r.loc.z ∧ r.loc.z ∣ r.global.z ∧ l ≤ r.global.z ∧ r.global.z < l + r.loc.z) := by
  obtain ⟨r, e, g⟩ := getRange3_ok (μ := μ) ht (by omega) hw hh hl hw2 hh2 hl2
  exact ⟨r, by rw [e]; rfl, g⟩

example : valueOf (getRange2 256 1920 1080) = some ⟨⟨1920, 1088, 1⟩, ⟨16, 16, 1⟩⟩ := by decide +kernel
example : valueOf (getRange3 100 30 30 30) = some ⟨⟨30, 32, 32⟩, ⟨6, 4, 4⟩⟩ := by decide +kernel

end PV.Props
