import Verif.Dilate
import Verif.PropsReduce
/-
  BinaryDilate and BinaryErode (C32).
-/
namespace PV.Props
open PV

/-- A gray-scale rectangle with the values 0 and 255 only. -/
structure Binary (m : BMem) (v : View) (w h : Nat) : Prop extends One m v w h where
  gray : v.img.cc = 1
  bin : ∀ x y, x < w → y < h → v.get m x y 0 = 0 ∨ v.get m x y 0 = 255

/-- The rectangle is dilated for `value`: a pixel has the value exactly when some pixel of the
    rectangle at a distance of at most `dx` and `dy` had it; everything else is as before. -/
structure Dilated (m m' : BMem) (v : View) (w h dx dy : Nat) (value : UInt8) : Prop where
  size_eq : m'.size = m.size
  bin : ∀ x y, x < w → y < h → v.get m' x y 0 = 0 ∨ v.get m' x y 0 = 255
  val : ∀ x y, x < w → y < h → (v.get m' x y 0 = value ↔
    ∃ x' y', x' < w ∧ y' < h ∧ Near dx x x' ∧ Near dy y y' ∧ v.get m x' y' 0 = value)
  outside : ∀ b j, (b = v.img.data → ∀ x y, x < w → y < h → j ≠ v.cell x y 0) → m'.byte b j = m.byte b j

theorem near_zero {i j : Nat} : Near 0 i j ↔ i = j := by
  unfold Near
  omega

theorem rows_done {m m' : BMem} {v : View} {w h d : Nat} {value : UInt8} {q0 : Nat}
    (hq : ∀ x y, q0 + y * v.img.rowSize + x * 1 = v.cell x y 0)
    (t : PassDone m m' v.img.data q0 1 v.img.rowSize w h h d value) : Dilated m m' v w h d 0 value := by
  refine ⟨t.size_eq, fun x y hx hy => ?_, fun x y hx hy => ?_, fun b j hout => t.outside b j fun hb c i hc hi => ?_⟩
  · have := t.bin y x hy hx
    rwa [hq] at this
  · have := t.val y x hy hx
    simp only [hq] at this
    rw [View.get, this]
    constructor
    · rintro ⟨j, a1, a2, a3⟩
      exact ⟨j, y, a1, hy, a2, near_zero.mpr rfl, a3⟩
    · rintro ⟨x', y', a1, a2, a3, a4, a5⟩
      rw [← near_zero.mp a4] at a5
      exact ⟨x', a1, a3, a5⟩
  · rw [hq]
    exact hout hb i c hi hc

theorem cols_done {m m' : BMem} {v : View} {w h d : Nat} {value : UInt8} {q0 : Nat}
    (hq : ∀ x y, q0 + x * 1 + y * v.img.rowSize = v.cell x y 0)
    (t : PassDone m m' v.img.data q0 v.img.rowSize 1 h w w d value) : Dilated m m' v w h 0 d value := by
  refine ⟨t.size_eq, fun x y hx hy => ?_, fun x y hx hy => ?_, fun b j hout => t.outside b j fun hb c i hc hi => ?_⟩
  · have := t.bin x y hx hy
    rwa [hq] at this
  · have := t.val x y hx hy
    simp only [hq] at this
    rw [View.get, this]
    constructor
    · rintro ⟨j, a1, a2, a3⟩
      exact ⟨x, j, hx, a1, near_zero.mpr rfl, a2, a3⟩
    · rintro ⟨x', y', a1, a2, a3, a4, a5⟩
      rw [← near_zero.mp a3] at a5
      exact ⟨y', a2, a4, a5⟩
  · rw [hq]
    exact hout hb c i hc hi

theorem dilated_id {m : BMem} {v : View} {w h : Nat} (value : UInt8)
    (bin : ∀ x y, x < w → y < h → v.get m x y 0 = 0 ∨ v.get m x y 0 = 255) : Dilated m m v w h 0 0 value := by
  refine ⟨rfl, bin, fun x y hx hy => ⟨fun e => ⟨x, y, hx, hy, near_zero.mpr rfl, near_zero.mpr rfl, e⟩, ?_⟩, fun _ _ _ => rfl⟩
  rintro ⟨x', y', _, _, a3, a4, a5⟩
  rw [near_zero.mp a3, near_zero.mp a4]
  exact a5

theorem dilated_trans {m m1 m2 : BMem} {v : View} {w h dx dy : Nat} {value : UInt8}
    (t1 : Dilated m m1 v w h dx 0 value) (t2 : Dilated m1 m2 v w h 0 dy value) : Dilated m m2 v w h dx dy value := by
  refine ⟨by rw [t2.size_eq, t1.size_eq], t2.bin, fun x y hx hy => ?_, fun b j hout => by
    rw [t2.outside b j hout, t1.outside b j hout]⟩
  rw [t2.val x y hx hy]
  constructor
  · rintro ⟨x', y', a1, a2, a3, a4, a5⟩
    obtain ⟨x'', y'', c1, c2, c3, c4, c5⟩ := (t1.val x' y' a1 a2).mp a5
    rw [← near_zero.mp a3] at c3
    rw [← near_zero.mp c4] at c5
    exact ⟨x'', y', c1, a2, c3, a4, c5⟩
  · rintro ⟨x', y', a1, a2, a3, a4, a5⟩
    exact ⟨x, y', hx, a2, near_zero.mpr rfl, a4, (t1.val x y' hx a2).mpr ⟨x', y', a1, a2, a3, near_zero.mpr rfl, a5⟩⟩

theorem binary_of_dilated {m m' : BMem} {v : View} {w h dx dy : Nat} {value : UInt8} (r : Binary m v w h)
    (t : Dilated m m' v w h dx dy value) : Binary m' v w h :=
  ⟨⟨⟨r.wf.row, by rw [t.size_eq]; exact r.wf.block, r.wf.small⟩, r.fit⟩, r.gray, t.bin⟩

theorem dilated_writes {m m' : BMem} {v : View} {w h dx dy : Nat} {value : UInt8} (r : Binary m v w h)
    (t : Dilated m m' v w h dx dy value) : WritesRoi m m' v w h (fun x y _ => v.get m' x y 0) := by
  refine ⟨t.size_eq, fun x y c _ _ hc => ?_, fun b i hout => t.outside b i fun hb x y hx hy he => ?_⟩
  · rw [r.gray] at hc
    rw [show c = 0 by omega]
  · exact hout ⟨hb, x, y, 0, hx, hy, by rw [r.gray]; omega, he⟩

theorem rowsPass {m : BMem} {v : View} {w h d : Nat} {value : UInt8} (r : Binary m v w h) (hw2 : 2 * w < 2 ^ 32)
    (hv : value = 0 ∨ value = 255) (hdn : d ≤ w / 2) :
    ∃ m', dilateRows v w h d value m = .ok () m' ∧ Dilated m m' v w h d 0 value := by
  obtain ⟨_, hr, hr32, hW, hH, hh, hy, hx, hw, hwr⟩ := View.facts r.wf r.fit
  rw [r.gray, Nat.mul_one] at hwr hw
  simp only [dilateRows, u32_of_lt hy, u32_of_lt hh]
  have hcell : ∀ x y, v.y * v.img.rowSize + v.x + y * v.img.rowSize + x * 1 = v.cell x y 0 := by
    intro x y
    rw [View.cell, r.gray, Nat.add_mul, Nat.add_mul, Nat.mul_one, Nat.mul_one]
    omega
  by_cases hd : d > 0
  · rw [if_pos hd]
    have hl : loop (fun s => s != v.y * v.img.rowSize + v.x + h * v.img.rowSize) (fun s => s + v.img.rowSize)
        (fun s (_ : Unit) => dilateLine v.img.data s 1 w d value) fuelMax (v.y * v.img.rowSize + v.x) ()
        = fold (fun c _ => dilateLine v.img.data (v.y * v.img.rowSize + v.x + c * v.img.rowSize) 1 w d value)
          (List.range h) () := by
      have := loop_eq_fold (μ := BMem) (A := Unit) (cond := fun s => s != v.y * v.img.rowSize + v.x + h * v.img.rowSize)
        (next := fun s => s + v.img.rowSize) (body := fun s _ => dilateLine v.img.data s 1 w d value)
        (fun c => v.y * v.img.rowSize + v.x + c * v.img.rowSize) h fuelMax () (count_lt_fuel hr hh)
        (fun k hk => ptr_ne hk hr) (by simp) (fun k _ => by simp only [Nat.succ_mul]; omega)
      rwa [Nat.zero_mul, Nat.add_zero] at this
    rw [hl]
    obtain ⟨m', e, t⟩ := pass_run (m := m) (b := v.img.data) (q0 := v.y * v.img.rowSize + v.x) (s1 := 1) (s2 := v.img.rowSize)
      (n := w) (nl := h) (value := value) hd hdn hw2 hv
      (fun c hc => ⟨fun k hk => by rw [hcell]; exact View.cell_valid r.wf r.fit hk hc (by rw [r.gray]; omega), by omega, by omega⟩)
      (fun c c' i i' hc hc' hi hi' he => by
        simp only [hcell] at he
        exact (cell_inj (h := h) r.wf.row r.fit.inX hi (by rw [r.gray]; omega) hi' (by rw [r.gray]; omega) hc hc' he).2.1)
      (fun c i hc hi => by rw [hcell]; exact r.bin i c hi hc) h (Nat.le_refl _)
    exact ⟨m', e, rows_done hcell t⟩
  · rw [if_neg hd, show d = 0 by omega]
    exact ⟨m, rfl, dilated_id value r.bin⟩

theorem colsPass {m : BMem} {v : View} {w h d : Nat} {value : UInt8} (r : Binary m v w h) (hh2 : 2 * h < 2 ^ 32)
    (hv : value = 0 ∨ value = 255) (hdn : d ≤ h / 2) :
    ∃ m', dilateColumns v w h d value m = .ok () m' ∧ Dilated m m' v w h 0 d value := by
  obtain ⟨_, hr, hr32, hW, hH, hh, hy, hx, hw, hwr⟩ := View.facts r.wf r.fit
  rw [r.gray, Nat.mul_one] at hwr hw
  simp only [dilateColumns, u32_of_lt hy]
  have hcell : ∀ x y, v.y * v.img.rowSize + v.x + x * 1 + y * v.img.rowSize = v.cell x y 0 := by
    intro x y
    rw [View.cell, r.gray, Nat.add_mul, Nat.add_mul, Nat.mul_one, Nat.mul_one]
    omega
  by_cases hd : d > 0
  · rw [if_pos hd]
    have hl : loop (fun s => s != v.y * v.img.rowSize + v.x + w) (fun s => s + 1)
        (fun s (_ : Unit) => dilateLine v.img.data s v.img.rowSize h d value) fuelMax (v.y * v.img.rowSize + v.x) ()
        = fold (fun c _ => dilateLine v.img.data (v.y * v.img.rowSize + v.x + c * 1) v.img.rowSize h d value)
          (List.range w) () := by
      have := loop_eq_fold (μ := BMem) (A := Unit) (cond := fun s => s != v.y * v.img.rowSize + v.x + w)
        (next := fun s => s + 1) (body := fun s _ => dilateLine v.img.data s v.img.rowSize h d value)
        (fun c => v.y * v.img.rowSize + v.x + c * 1) w fuelMax () (by unfold fuelMax; omega)
        (fun k hk => by simp only [bne_iff_ne, ne_eq]; omega) (by simp) (fun k _ => by omega)
      rwa [Nat.zero_mul, Nat.add_zero] at this
    rw [hl]
    obtain ⟨m', e, t⟩ := pass_run (m := m) (b := v.img.data) (q0 := v.y * v.img.rowSize + v.x) (s1 := v.img.rowSize) (s2 := 1)
      (n := h) (nl := w) (value := value) hd hdn hh2 hv
      (fun c hc => ⟨fun k hk => by rw [hcell]; exact View.cell_valid r.wf r.fit hc hk (by rw [r.gray]; omega), hr, hh⟩)
      (fun c c' i i' hc hc' hi hi' he => by
        simp only [hcell] at he
        exact (cell_inj (h := h) r.wf.row r.fit.inX hc (by rw [r.gray]; omega) hc' (by rw [r.gray]; omega) hi hi' he).1)
      (fun c i hc hi => by rw [hcell]; exact r.bin c i hc hi) w (Nat.le_refl _)
    exact ⟨m', e, cols_done hcell t⟩
  · rw [if_neg hd, show d = 0 by omega]
    exact ⟨m, rfl, dilated_id value r.bin⟩

theorem dilate_done {m : BMem} {v : View} {w h : Nat} {value : UInt8} (r : Binary m v w h) (hw2 : 2 * w < 2 ^ 32)
    (hh2 : 2 * h < 2 ^ 32) (hv : value = 0 ∨ value = 255) (dx dy : Nat) :
    ∃ m', Dilate v w h dx dy value m = .ok () m' ∧ Dilated m m' v w h (min dx (w / 2)) (min dy (h / 2)) value := by
  have hc : ∀ d n, clipHalf d n = min d (n / 2) := by
    intro d n
    unfold clipHalf
    split <;> omega
  rw [Dilate, bind_ok (validate_pre_ok (vs := [v]) fun u hu => by
    rw [List.mem_singleton.mp hu]; exact ⟨r.wf, r.fit⟩),
    bind_ok (gray_ok fun b hb => by rw [List.mem_singleton.mp hb]; exact r.gray)]
  by_cases h0 : dx = 0 ∧ dy = 0
  · rw [if_pos h0, h0.1, h0.2, Nat.zero_min, Nat.zero_min]
    exact ⟨m, rfl, dilated_id value r.bin⟩
  · rw [if_neg h0, hc, hc]
    obtain ⟨m1, e1, t1⟩ := rowsPass (d := min dx (w / 2)) r hw2 hv (Nat.min_le_right ..)
    obtain ⟨m2, e2, t2⟩ := colsPass (d := min dy (h / 2)) (binary_of_dilated r t1) hh2 hv (Nat.min_le_right ..)
    exact ⟨m2, (bind_ok e1).trans e2, dilated_trans t1 t2⟩

/-- **C32.** BinaryDilate on an image of zeros and 255s: a pixel of the rectangle is 255 afterwards
    exactly when some pixel of the rectangle at most the given number of columns and rows away was
    255, and 0 otherwise. The distances are limited to half the rectangle. Nothing else changes.

    Partial: the rectangle has to be narrower and lower than 2^31, see `C32_wide_wrong`. -/
theorem C32_dilate_partial {m : BMem} {v : View} {w h : Nat} (r : Binary m v w h) (hw2 : 2 * w < 2 ^ 32)
    (hh2 : 2 * h < 2 ^ 32) (dx dy : Nat) :
    ∃ m', BinaryDilate v w h dx dy m = .ok () m' ∧ WritesRoi m m' v w h (fun x y _ => v.get m' x y 0) ∧
      ∀ x y, x < w → y < h →
        (v.get m' x y 0 = 255 ∨ v.get m' x y 0 = 0) ∧
        (v.get m' x y 0 = 255 ↔ ∃ x' y', x' < w ∧ y' < h ∧ Near (min dx (w / 2)) x x' ∧ Near (min dy (h / 2)) y y' ∧
          v.get m x' y' 0 = 255) := by
  obtain ⟨m', e, t⟩ := dilate_done r hw2 hh2 (Or.inr rfl) dx dy
  exact ⟨m', e, dilated_writes r t, fun x y hx hy => ⟨(t.bin x y hx hy).symm, t.val x y hx hy⟩⟩

/-- **C32.** BinaryErode: a pixel is 255 afterwards exactly when every pixel of the rectangle at
    most the given number of columns and rows away was 255, and 0 otherwise.

    Partial: the rectangle has to be narrower and lower than 2^31. -/
theorem C32_erode_partial {m : BMem} {v : View} {w h : Nat} (r : Binary m v w h) (hw2 : 2 * w < 2 ^ 32)
    (hh2 : 2 * h < 2 ^ 32) (dx dy : Nat) :
    ∃ m', BinaryErode v w h dx dy m = .ok () m' ∧ WritesRoi m m' v w h (fun x y _ => v.get m' x y 0) ∧
      ∀ x y, x < w → y < h →
        (v.get m' x y 0 = 255 ∨ v.get m' x y 0 = 0) ∧
        (v.get m' x y 0 = 255 ↔ ∀ x' y', x' < w → y' < h → Near (min dx (w / 2)) x x' → Near (min dy (h / 2)) y y' →
          v.get m x' y' 0 = 255) := by
  obtain ⟨m', e, t⟩ := dilate_done r hw2 hh2 (Or.inl rfl) dx dy
  refine ⟨m', e, dilated_writes r t, fun x y hx hy => ⟨(t.bin x y hx hy).symm, ?_, ?_⟩⟩
  · intro h255 x' y' hx' hy' hn hn'
    refine (r.bin x' y' hx' hy').resolve_left fun h0 => ?_
    have := (t.val x y hx hy).mpr ⟨x', y', hx', hy', hn, hn', h0⟩
    rw [h255] at this
    exact absurd this (by decide)
  · intro hall
    refine (t.bin x y hx hy).resolve_left fun h0 => ?_
    obtain ⟨x', y', hx', hy', hn, hn', h0'⟩ := (t.val x y hx hy).mp h0
    have := hall x' y' hx' hy' hn hn'
    rw [h0'] at this
    exact absurd this (by decide)

/-- **C32.** A rectangle out of the image and colour images are rejected, and nothing is written. -/
theorem C32_rejects {m : BMem} {v : View} {w h : Nat} (hb : Bad [v] w h (v.img.cc = 1)) (dx dy : Nat) :
    BinaryDilate v w h dx dy m = .throw m ∧ BinaryErode v w h dx dy m = .throw m := by
  have key : ∀ value, Dilate v w h dx dy value m = .throw m := by
    intro value
    rcases rois_dichotomy (m := m) hb with ht | ⟨hok, hg⟩
    · rw [Dilate, bind_throw ht]
    · rw [Dilate, bind_ok hok, bind_throw (gray_throw ⟨v.img, List.mem_singleton_self _, hg⟩)]
  exact ⟨key 255, key 0⟩

/-! ### Concrete cases -/

/-- A 5 x 5 image in rows of 7 bytes: 255 in the pixel (1, 1) and at (4, 3). -/
def dotMem : BMem := ⟨fun _ => 35, fun _ i => if i = 8 ∨ i = 25 then 255 else 0⟩
def dotView : View := ⟨⟨1, 5, 5, 1, 7⟩, 0, 0⟩

theorem dot_binary : Binary dotMem dotView 5 5 where
  wf := ⟨by decide, by decide, by decide⟩
  fit := ⟨by decide, by decide, by decide, by decide, by decide, by decide⟩
  gray := rfl
  bin := by
    have : ∀ x, x < 5 → ∀ y, y < 5 → dotView.get dotMem x y 0 = 0 ∨ dotView.get dotMem x y 0 = 255 := by decide
    exact fun x y hx hy => this x hx y hy

example (dx dy : Nat) : ∃ m', BinaryDilate dotView 5 5 dx dy dotMem = .ok () m' :=
  let ⟨m', h, _⟩ := C32_dilate_partial dot_binary (by decide) (by decide) dx dy
  ⟨m', h⟩

/-- A row of 2^31 pixels: 0, 255, 255, ... -/
def wideMem : BMem := ⟨fun _ => 2 ^ 31, fun _ i => if i = 0 then 0 else 255⟩
def wideView : View := ⟨⟨1, 2 ^ 31, 1, 1, 2 ^ 31⟩, 0, 0⟩

theorem wide_binary : Binary wideMem wideView (2 ^ 31) 1 where
  wf := ⟨by decide, by decide, by decide⟩
  fit := ⟨by decide, by decide, by decide, by decide, by decide, by decide⟩
  gray := rfl
  bin := by
    intro x y _ _
    rw [View.get, show wideMem.byte wideView.img.data = fun i => if i = 0 then 0 else 255 from rfl]
    simp only
    split
    · exact Or.inl rfl
    · exact Or.inr rfl

/-- C32 does not hold for every rectangle: the array of positions has `2 * width` entries, computed
    with 32 bits, and for a row of 2^31 pixels the first entry is already written out of it. -/
theorem C32_wide_wrong :
    Binary wideMem wideView (2 ^ 31) 1 ∧ BinaryDilate wideView (2 ^ 31) 1 1 1 wideMem = .ub := by
  refine ⟨wide_binary, ?_⟩
  have : isUb (BinaryDilate wideView (2 ^ 31) 1 1 1 wideMem) = true := by decide +kernel
  revert this
  generalize BinaryDilate wideView (2 ^ 31) 1 1 1 wideMem = r
  cases r <;> first | (intro _; rfl) | (intro h; exact absurd h (by simp [isUb]))

end PV.Props
