import Verif.Validation
/-
  The nested pointer loops shared by the functions of src/image_function.cpp.

  Pointers are cell offsets in the block of their image.  In all of them the end of the
  outer loop is `outY + height * rowSizeOut` with a 32-bit product, and the loops run
  until the driving pointer is *equal* to the end pointer.
-/
namespace PV

variable {μ A : Type}

/-- `for ( ; pY != pYEnd; pY += row ) { for ( pX = pY, pXEnd = pX + width; pX != pXEnd;
    pX += step ) body }` with `pYEnd = pY + height * row`; e.g. src/image_function.cpp 1955-1966. -/
def rowLoop1 (row step : Nat) (body : Nat → A → M μ A) (pY width height : Nat) (a : A) : M μ A :=
  loop (fun s => s != pY + u32 (height * row)) (fun s => s + row)
    (fun s a => loop (fun t => t != s + width) (fun t => t + step) body fuelMax s a)
    fuelMax pY a

/-- The same with a second pointer moved along; e.g. src/image_function.cpp 992-1005. -/
def rowLoop2 (row step row₁ step₁ : Nat) (body : Nat → Nat → A → M μ A)
    (pY qY width height : Nat) (a : A) : M μ A :=
  loop (fun s => s.1 != pY + u32 (height * row)) (fun s => (s.1 + row, s.2 + row₁))
    (fun s a => loop (fun t => t.1 != s.1 + width) (fun t => (t.1 + step, t.2 + step₁))
      (fun t => body t.1 t.2) fuelMax s a)
    fuelMax (pY, qY) a

/-- The same with three pointers; e.g. src/image_function.cpp 221-236. -/
def rowLoop3 (row step row₁ step₁ row₂ step₂ : Nat) (body : Nat → Nat → Nat → A → M μ A)
    (pY qY rY width height : Nat) (a : A) : M μ A :=
  loop (fun s => s.1 != pY + u32 (height * row))
    (fun s => (s.1 + row, s.2.1 + row₁, s.2.2 + row₂))
    (fun s a => loop (fun t => t.1 != s.1 + width)
      (fun t => (t.1 + step, t.2.1 + step₁, t.2.2 + step₂))
      (fun t => body t.1 t.2.1 t.2.2) fuelMax s a)
    fuelMax (pY, qY, rY) a

/-- The same with four pointers; e.g. src/image_function.cpp 1200-1220. -/
def rowLoop4 (row step row₁ step₁ row₂ step₂ row₃ step₃ : Nat)
    (body : Nat → Nat → Nat → Nat → A → M μ A)
    (pY qY rY sY width height : Nat) (a : A) : M μ A :=
  loop (fun s => s.1 != pY + u32 (height * row))
    (fun s => (s.1 + row, s.2.1 + row₁, s.2.2.1 + row₂, s.2.2.2 + row₃))
    (fun s a => loop (fun t => t.1 != s.1 + width)
      (fun t => (t.1 + step, t.2.1 + step₁, t.2.2.1 + step₂, t.2.2.2 + step₃))
      (fun t => body t.1 t.2.1 t.2.2.1 t.2.2.2) fuelMax s a)
    fuelMax (pY, qY, rY, sY) a

theorem ptr_ne {p k n r : Nat} (hk : k < n) (hr : 0 < r) : (p + k * r != p + n * r) = true := by
  have : k * r < n * r := Nat.mul_lt_mul_of_pos_right hk hr
  simp only [bne_iff_ne, ne_eq]
  omega

theorem count_lt_fuel {n r : Nat} (hr : 0 < r) (h : n * r < 4294967296) : n < fuelMax := by
  have : n * 1 ≤ n * r := Nat.mul_le_mul_left n hr
  unfold fuelMax
  omega

theorem rowLoop1_eq {row step : Nat} {body : Nat → A → M μ A} {pY n height : Nat} (a : A)
    (hr : 0 < row) (hs : 0 < step) (hfit : height * row < 4294967296) (hn : n * step < 4294967296) :
    rowLoop1 row step body pY (n * step) height a
      = fold (fun p => body (pY + p.1 * row + p.2 * step)) (grid height n) a := by
  rw [fold_grid, rowLoop1, u32_of_lt hfit]
  have := loop_eq_fold (cond := fun s => s != pY + height * row) (next := fun s => s + row)
    (body := fun s a => loop (fun t => t != s + n * step) (fun t => t + step) body fuelMax s a)
    (fun k => pY + k * row) height fuelMax a (count_lt_fuel hr hfit)
    (fun k hk => ptr_ne hk hr) (by simp) (fun k _ => by simp only [Nat.succ_mul]; omega)
  rw [Nat.zero_mul, Nat.add_zero] at this
  rw [this]
  refine fold_congr a fun j _ => ?_
  funext a'
  have := loop_eq_fold (cond := fun t => t != pY + j * row + n * step) (next := fun t => t + step)
    (body := body) (fun k => pY + j * row + k * step) n fuelMax a' (count_lt_fuel hs hn)
    (fun k hk => ptr_ne hk hs) (by simp) (fun k _ => by simp only [Nat.succ_mul]; omega)
  rw [Nat.zero_mul, Nat.add_zero] at this
  exact this

theorem rowLoop2_eq {row step row₁ step₁ : Nat} {body : Nat → Nat → A → M μ A}
    {pY qY n height : Nat} (a : A)
    (hr : 0 < row) (hs : 0 < step) (hfit : height * row < 4294967296) (hn : n * step < 4294967296) :
    rowLoop2 row step row₁ step₁ body pY qY (n * step) height a
      = fold (fun p => body (pY + p.1 * row + p.2 * step) (qY + p.1 * row₁ + p.2 * step₁))
          (grid height n) a := by
  rw [fold_grid, rowLoop2, u32_of_lt hfit]
  have := loop_eq_fold (cond := fun s : Nat × Nat => s.1 != pY + height * row)
    (next := fun s => (s.1 + row, s.2 + row₁))
    (body := fun s a => loop (fun t : Nat × Nat => t.1 != s.1 + n * step)
      (fun t => (t.1 + step, t.2 + step₁)) (fun t => body t.1 t.2) fuelMax s a)
    (fun k => (pY + k * row, qY + k * row₁)) height fuelMax a (count_lt_fuel hr hfit)
    (fun k hk => ptr_ne hk hr) (by simp)
    (fun k _ => by simp only [Nat.succ_mul, Prod.mk.injEq]; omega)
  simp only [Nat.zero_mul, Nat.add_zero] at this
  rw [this]
  refine fold_congr a fun j _ => ?_
  funext a'
  have := loop_eq_fold (cond := fun t : Nat × Nat => t.1 != pY + j * row + n * step)
    (next := fun t => (t.1 + step, t.2 + step₁))
    (body := fun t => body t.1 t.2)
    (fun k => (pY + j * row + k * step, qY + j * row₁ + k * step₁)) n fuelMax a'
    (count_lt_fuel hs hn)
    (fun k hk => ptr_ne hk hs) (by simp)
    (fun k _ => by simp only [Nat.succ_mul, Prod.mk.injEq]; omega)
  simp only [Nat.zero_mul, Nat.add_zero] at this
  exact this

theorem rowLoop3_eq {row step row₁ step₁ row₂ step₂ : Nat} {body : Nat → Nat → Nat → A → M μ A}
    {pY qY rY n height : Nat} (a : A)
    (hr : 0 < row) (hs : 0 < step) (hfit : height * row < 4294967296) (hn : n * step < 4294967296) :
    rowLoop3 row step row₁ step₁ row₂ step₂ body pY qY rY (n * step) height a
      = fold (fun p => body (pY + p.1 * row + p.2 * step) (qY + p.1 * row₁ + p.2 * step₁)
          (rY + p.1 * row₂ + p.2 * step₂)) (grid height n) a := by
  rw [fold_grid, rowLoop3, u32_of_lt hfit]
  have := loop_eq_fold (cond := fun s : Nat × Nat × Nat => s.1 != pY + height * row)
    (next := fun s => (s.1 + row, s.2.1 + row₁, s.2.2 + row₂))
    (body := fun s a => loop (fun t : Nat × Nat × Nat => t.1 != s.1 + n * step)
      (fun t => (t.1 + step, t.2.1 + step₁, t.2.2 + step₂))
      (fun t => body t.1 t.2.1 t.2.2) fuelMax s a)
    (fun k => (pY + k * row, qY + k * row₁, rY + k * row₂)) height fuelMax a (count_lt_fuel hr hfit)
    (fun k hk => ptr_ne hk hr) (by simp)
    (fun k _ => by simp only [Nat.succ_mul, Prod.mk.injEq]; omega)
  simp only [Nat.zero_mul, Nat.add_zero] at this
  rw [this]
  refine fold_congr a fun j _ => ?_
  funext a'
  have := loop_eq_fold (cond := fun t : Nat × Nat × Nat => t.1 != pY + j * row + n * step)
    (next := fun t => (t.1 + step, t.2.1 + step₁, t.2.2 + step₂))
    (body := fun t => body t.1 t.2.1 t.2.2)
    (fun k => (pY + j * row + k * step, qY + j * row₁ + k * step₁, rY + j * row₂ + k * step₂))
    n fuelMax a' (count_lt_fuel hs hn)
    (fun k hk => ptr_ne hk hs) (by simp)
    (fun k _ => by simp only [Nat.succ_mul, Prod.mk.injEq]; omega)
  simp only [Nat.zero_mul, Nat.add_zero] at this
  exact this

theorem rowLoop4_eq {row step row₁ step₁ row₂ step₂ row₃ step₃ : Nat}
    {body : Nat → Nat → Nat → Nat → A → M μ A}
    {pY qY rY sY n height : Nat} (a : A)
    (hr : 0 < row) (hs : 0 < step) (hfit : height * row < 4294967296) (hn : n * step < 4294967296) :
    rowLoop4 row step row₁ step₁ row₂ step₂ row₃ step₃ body pY qY rY sY (n * step) height a
      = fold (fun p => body (pY + p.1 * row + p.2 * step) (qY + p.1 * row₁ + p.2 * step₁)
          (rY + p.1 * row₂ + p.2 * step₂) (sY + p.1 * row₃ + p.2 * step₃)) (grid height n) a := by
  rw [fold_grid, rowLoop4, u32_of_lt hfit]
  have := loop_eq_fold (cond := fun s : Nat × Nat × Nat × Nat => s.1 != pY + height * row)
    (next := fun s => (s.1 + row, s.2.1 + row₁, s.2.2.1 + row₂, s.2.2.2 + row₃))
    (body := fun s a => loop (fun t : Nat × Nat × Nat × Nat => t.1 != s.1 + n * step)
      (fun t => (t.1 + step, t.2.1 + step₁, t.2.2.1 + step₂, t.2.2.2 + step₃))
      (fun t => body t.1 t.2.1 t.2.2.1 t.2.2.2) fuelMax s a)
    (fun k => (pY + k * row, qY + k * row₁, rY + k * row₂, sY + k * row₃)) height fuelMax a
    (count_lt_fuel hr hfit)
    (fun k hk => ptr_ne hk hr) (by simp)
    (fun k _ => by simp only [Nat.succ_mul, Prod.mk.injEq]; omega)
  simp only [Nat.zero_mul, Nat.add_zero] at this
  rw [this]
  refine fold_congr a fun j _ => ?_
  funext a'
  have := loop_eq_fold (cond := fun t : Nat × Nat × Nat × Nat => t.1 != pY + j * row + n * step)
    (next := fun t => (t.1 + step, t.2.1 + step₁, t.2.2.1 + step₂, t.2.2.2 + step₃))
    (body := fun t => body t.1 t.2.1 t.2.2.1 t.2.2.2)
    (fun k => (pY + j * row + k * step, qY + j * row₁ + k * step₁, rY + j * row₂ + k * step₂,
      sY + j * row₃ + k * step₃))
    n fuelMax a' (count_lt_fuel hs hn)
    (fun k hk => ptr_ne hk hs) (by simp)
    (fun k _ => by simp only [Nat.succ_mul, Prod.mk.injEq]; omega)
  simp only [Nat.zero_mul, Nat.add_zero] at this
  exact this

/-! ### Loops after `OptimiseRoi` visit the same positions -/

theorem fold_grid_one (body : Nat × Nat → A → M μ A) (h n : Nat) (a : A) :
    fold body (grid 1 (h * n)) a = fold (fun p => body (0, p.1 * n + p.2)) (grid h n) a := by
  have : grid 1 (h * n) = (grid h n).map fun p => (0, p.1 * n + p.2) := by
    have h1 : grid 1 (h * n) = (List.range (h * n)).map fun i => (0, i) := by simp [grid]
    rw [h1, range_mul_eq_grid, List.map_map]
    rfl
  rw [this, fold_map]

theorem rowLoop1_opt {row step : Nat} {body : Nat → A → M μ A} {pY n height : Nat} (a : A)
    {imgs : List Image} (h1 : ∃ i ∈ imgs, i.rowSize = row)
    (hr : 0 < row) (hs : 0 < step) (hfit : height * row < 4294967296)
    (hn : n * step < 4294967296) (hh : 0 < height) :
    rowLoop1 row step body pY (optimiseRoi (n * step) height imgs).1
        (optimiseRoi (n * step) height imgs).2 a
      = fold (fun p => body (pY + p.1 * row + p.2 * step)) (grid height n) a := by
  rcases optimiseRoi_cases (n * step) height imgs hh with he | ⟨he, hrow, hlt⟩
  · rw [he]
    exact rowLoop1_eq a hr hs hfit hn
  · rw [he]
    obtain ⟨i, hi, hir⟩ := h1
    have hw := hrow i hi
    rw [hir] at hw
    have e : height * (n * step) = (height * n) * step := by rw [Nat.mul_assoc]
    simp only [e]
    rw [rowLoop1_eq (n := height * n) (height := 1) a hr hs (by omega) (by omega), fold_grid_one]
    refine fold_congr a fun p _ => ?_
    congr 1
    simp only [hw, Nat.zero_mul, Nat.add_mul, Nat.mul_assoc]
    omega

theorem rowLoop2_opt {row row₁ step : Nat} {body : Nat → Nat → A → M μ A} {pY qY n height : Nat}
    (a : A) {imgs : List Image} (h1 : ∃ i ∈ imgs, i.rowSize = row) (h2 : ∃ i ∈ imgs, i.rowSize = row₁)
    (hr : 0 < row) (hs : 0 < step) (hfit : height * row < 4294967296)
    (hn : n * step < 4294967296) (hh : 0 < height) :
    rowLoop2 row step row₁ step body pY qY (optimiseRoi (n * step) height imgs).1
        (optimiseRoi (n * step) height imgs).2 a
      = fold (fun p => body (pY + p.1 * row + p.2 * step) (qY + p.1 * row₁ + p.2 * step))
          (grid height n) a := by
  rcases optimiseRoi_cases (n * step) height imgs hh with he | ⟨he, hrow, hlt⟩
  · rw [he]
    exact rowLoop2_eq a hr hs hfit hn
  · rw [he]
    obtain ⟨i, hi, hir⟩ := h1
    have hw := hrow i hi
    rw [hir] at hw
    obtain ⟨i', hi', hir'⟩ := h2
    have hw' := hrow i' hi'
    rw [hir'] at hw'
    have e : height * (n * step) = (height * n) * step := by rw [Nat.mul_assoc]
    simp only [e]
    rw [rowLoop2_eq (n := height * n) (height := 1) a hr hs (by omega) (by omega), fold_grid_one]
    refine fold_congr a fun p _ => ?_
    simp only [hw, hw', Nat.zero_mul, Nat.add_mul, Nat.mul_assoc, Nat.add_zero, Nat.add_assoc]

theorem rowLoop3_opt {row row₁ row₂ step : Nat} {body : Nat → Nat → Nat → A → M μ A}
    {pY qY rY n height : Nat}
    (a : A) {imgs : List Image} (h1 : ∃ i ∈ imgs, i.rowSize = row) (h2 : ∃ i ∈ imgs, i.rowSize = row₁)
    (h3 : ∃ i ∈ imgs, i.rowSize = row₂)
    (hr : 0 < row) (hs : 0 < step) (hfit : height * row < 4294967296)
    (hn : n * step < 4294967296) (hh : 0 < height) :
    rowLoop3 row step row₁ step row₂ step body pY qY rY (optimiseRoi (n * step) height imgs).1
        (optimiseRoi (n * step) height imgs).2 a
      = fold (fun p => body (pY + p.1 * row + p.2 * step) (qY + p.1 * row₁ + p.2 * step)
          (rY + p.1 * row₂ + p.2 * step)) (grid height n) a := by
  rcases optimiseRoi_cases (n * step) height imgs hh with he | ⟨he, hrow, hlt⟩
  · rw [he]
    exact rowLoop3_eq a hr hs hfit hn
  · rw [he]
    obtain ⟨i, hi, hir⟩ := h1
    have hw := hrow i hi
    rw [hir] at hw
    obtain ⟨i', hi', hir'⟩ := h2
    have hw' := hrow i' hi'
    rw [hir'] at hw'
    obtain ⟨i'', hi'', hir''⟩ := h3
    have hw'' := hrow i'' hi''
    rw [hir''] at hw''
    have e : height * (n * step) = (height * n) * step := by rw [Nat.mul_assoc]
    simp only [e]
    rw [rowLoop3_eq (n := height * n) (height := 1) a hr hs (by omega) (by omega), fold_grid_one]
    refine fold_congr a fun p _ => ?_
    simp only [hw, hw', hw'', Nat.zero_mul, Nat.add_mul, Nat.mul_assoc, Nat.add_zero, Nat.add_assoc]

end PV
