import Mathlib.Tactic.Linarith
import Mathlib.Algebra.BigOperators.Group.List.Basic
import Mathlib.Algebra.Order.BigOperators.Group.List
import Mathlib.Algebra.BigOperators.Ring.List
import Verif.Gauss
import Verif.PropsReduce
/-
  C79: the Gaussian kernel.
-/
namespace PV.Props
open PV

/-- What the weight at distance (dx, dy) of the centre is, before normalisation. -/
def weight (ex : ℚ → ℚ) (sigma : ℚ) (dx dy : Int) : ℚ := ex (-((dx : ℚ) ^ 2 + (dy : ℚ) ^ 2) / (2 * sigma))

/-- The sum of the weights of the (2k + 1) x (2k + 1) square around the centre. -/
def weightSum (ex : ℚ → ℚ) (sigma : ℚ) (k : Nat) : ℚ :=
  ((grid (2 * k + 1) (2 * k + 1)).map fun q => weight ex sigma ((q.2 : Int) - k) ((q.1 : Int) - k)).sum

theorem gaussAt_weight (ex : ℚ → ℚ) (scale sigma : ℚ) (k x y : Nat) :
    gaussAt id ex scale (sigma * 2) k x y = scale * weight ex sigma ((x : Int) - k) ((y : Int) - k) := by
  rw [gaussAt, weight, mul_comm sigma 2]
  show scale * ex _ = scale * ex _
  congr 3
  simp only [id]
  push_cast
  ring

theorem foldl_sum {ι : Type} (f : ι → ℚ) (L : List ι) : ∀ a, L.foldl (fun a q => id (a + f q)) a = a + (L.map f).sum := by
  induction L with
  | nil => intro a; simp
  | cons q L ih =>
    intro a
    rw [List.foldl_cons, ih, List.map_cons, List.sum_cons, ← add_assoc]
    rfl

theorem gaussSum_weight (ex : ℚ → ℚ) (scale sigma : ℚ) (k : Nat) :
    gaussSum id ex scale (sigma * 2) k = scale * weightSum ex sigma k := by
  rw [gaussSum, foldl_sum, zero_add, weightSum, ← List.sum_map_mul_left]
  simp only [gaussAt_weight]

theorem weightSum_pos {ex : ℚ → ℚ} (hex : ∀ q, 0 < ex q) (sigma : ℚ) (k : Nat) : 0 < weightSum ex sigma k := by
  have h : (0, 0) ∈ grid (2 * k + 1) (2 * k + 1) := mem_grid.2 ⟨by omega, by omega⟩
  refine List.sum_pos _ (fun x hx => ?_) ?_
  · obtain ⟨q, _, rfl⟩ := List.mem_map.1 hx
    exact hex _
  · intro h0
    rw [List.map_eq_nil_iff] at h0
    rw [h0] at h
    cases h

theorem sum_grid (f : Nat × Nat → ℚ) {w h : Nat} :
    ((grid h w).map f).sum = ((List.range h).map fun j => ((List.range w).map fun i => f (j, i)).sum).sum := by
  rw [grid]
  induction List.range h with
  | nil => rfl
  | cons j L ih =>
    rw [List.flatMap_cons, List.map_append, List.sum_append, ih, List.map_cons, List.sum_cons, List.map_map]
    rfl

/-- A sum of which only a window counts. -/
theorem sum_window {f : Nat → ℚ} {a t w : Nat} (hw : a + t ≤ w) (hz : ∀ x, x < w → ¬ (a ≤ x ∧ x < a + t) → f x = 0) :
    ((List.range w).map f).sum = ((List.range t).map fun i => f (a + i)).sum := by
  obtain ⟨r, rfl⟩ := Nat.le.dest hw
  rw [List.range_add, List.range_add, List.map_append, List.map_append, List.sum_append, List.sum_append,
    List.map_map, List.map_map]
  rw [List.sum_eq_zero (l := (List.range a).map f), List.sum_eq_zero (l := (List.range r).map _), zero_add, add_zero]
  · rfl
  · intro v hv
    obtain ⟨x, hx, rfl⟩ := List.mem_map.1 hv
    have := List.mem_range.1 hx
    exact hz (a + t + x) (by omega) (by omega)
  · intro v hv
    obtain ⟨x, hx, rfl⟩ := List.mem_map.1 hv
    have := List.mem_range.1 hx
    exact hz _ (by omega) (by omega)

/-- What the vector holds afterwards: `w * h` numbers, number `i` belonging to column `i % w` of row
    `i / w`; inside the square the weight over the sum of the weights, elsewhere zero. -/
structure Kernel (ex : ℚ → ℚ) (w h k : Nat) (sigma : ℚ) (m : Mem ℚ) : Prop where
  length : m.size 1 = w * h
  value : ∀ x y, x < w → y < h → m.byte 1 (y * w + x) =
    if w / 2 ≤ x + k ∧ x ≤ w / 2 + k ∧ h / 2 ≤ y + k ∧ y ≤ h / 2 + k
    then weight ex sigma ((x : Int) - (w / 2 : Nat)) ((y : Int) - (h / 2 : Nat)) / weightSum ex sigma k
    else 0

/-- The vector when the square holds the values F. -/
theorem square_vector {w h k : Nat} (s : GaussSize w h k) {m' : Mem ℚ} {F : Nat → Nat → ℚ}
    (h2 : WritesRoi (zeroVec (w * h)) m' (square w h k) (2 * k + 1) (2 * k + 1) fun x y _ => F x y) :
    m'.size 1 = w * h ∧
    (∀ x y, x < w → y < h → m'.byte 1 (y * w + x) =
      if w / 2 ≤ x + k ∧ x ≤ w / 2 + k ∧ h / 2 ≤ y + k ∧ y ≤ h / 2 + k then F (x + k - w / 2) (y + k - h / 2) else 0) ∧
    ((List.range (h * w)).map (m'.byte 1)).sum = ((grid (2 * k + 1) (2 * k + 1)).map fun q => F q.2 q.1).sum := by
  have hk := s.hw
  have hkh := s.hh
  have hv : ∀ x y, x < 2 * k + 1 → y < 2 * k + 1 → m'.byte 1 ((h / 2 - k + y) * w + (w / 2 - k + x)) = F x y := by
    intro x y hx hy
    have h3 := h2.inside x y 0 hx hy Nat.zero_lt_one
    rw [← h3]
    simp only [View.get, View.cell, square, Nat.mul_one, Nat.add_zero]
  have hz : ∀ x y, x < w → ¬ (w / 2 ≤ x + k ∧ x ≤ w / 2 + k ∧ h / 2 ≤ y + k ∧ y ≤ h / 2 + k) →
      m'.byte 1 (y * w + x) = 0 := by
    intro x y hx hn
    rw [h2.outside 1 (y * w + x) ?_]
    · rfl
    rintro ⟨_, x', y', c, hx', hy', hc, e⟩
    have hc0 : c = 0 := by
      have : c < 1 := hc
      omega
    subst hc0
    simp only [View.cell, square, Nat.mul_one, Nat.add_zero] at e
    obtain ⟨e1, e2⟩ := mul_add_inj hx (by omega) e
    omega
  refine ⟨?_, ?_, ?_⟩
  · rw [h2.size_eq]
    rfl
  · intro x y hx hy
    split
    · rename_i hin
      obtain ⟨q1, q2, q3, q4⟩ := hin
      have := hv (x + k - w / 2) (y + k - h / 2) (by omega) (by omega)
      rwa [show h / 2 - k + (y + k - h / 2) = y by omega, show w / 2 - k + (x + k - w / 2) = x by omega] at this
    · rename_i hin
      exact hz x y hx hin
  · rw [range_mul_eq_grid, List.map_map, sum_grid, sum_window (a := h / 2 - k) (t := 2 * k + 1) (by omega)]
    · have e : ∀ j ∈ List.range (2 * k + 1),
          ((List.range w).map fun i => ((m'.byte 1) ∘ fun p => p.1 * w + p.2) (h / 2 - k + j, i)).sum
          = ((List.range (2 * k + 1)).map fun i : Nat => F i j).sum := by
        intro j hj
        rw [sum_window (a := w / 2 - k) (t := 2 * k + 1) (by omega)]
        · congr 1
          refine List.map_congr_left fun i hi => ?_
          exact hv i j (List.mem_range.1 hi) (List.mem_range.1 hj)
        · intro x hx hn
          exact hz x _ hx (by omega)
      rw [List.map_congr_left e, ← sum_grid (fun q => F q.2 q.1)]
    · intro y hy hn
      refine List.sum_eq_zero fun v hv => ?_
      obtain ⟨x, hx, rfl⟩ := List.mem_map.1 hv
      exact hz x y (List.mem_range.1 hx) (by omega)

/-- C79 (partial: kernel sizes below 2^31 that fit, products that fit 32 bits, sigma above 0, exact
    arithmetic with any positive function in the place of `expf`). -/
theorem C79_gauss_partial {ex : ℚ → ℚ} (hex : ∀ q, 0 < ex q) {w h k : Nat} (s : GaussSize w h k) {sigma : ℚ}
    (hs : 0 < sigma) (m : Mem ℚ) :
    ∃ m', GetGaussianKernel id ex w h k sigma m = .ok () m' ∧ Kernel ex w h k sigma m' ∧
      ((List.range (h * w)).map (m'.byte 1)).sum = 1 := by
  have htot := weightSum_pos hex sigma k
  have hne : sigma * 2 * piConst ≠ 0 := (mul_pos (mul_pos hs (by norm_num)) (by norm_num [piConst])).ne'
  have hsc : 0 < 1 / (sigma * 2 * piConst) := by
    refine one_div_pos.2 (mul_pos (mul_pos hs (by norm_num)) (by norm_num [piConst]))
  obtain ⟨m', h1, h2⟩ := GetGaussianKernel_ok (fl := id) (ex := ex) (dsigma := sigma * 2) (scale := 1 / (sigma * 2 * piConst)) s hs
    rfl rfl hne (by rw [gaussSum_weight]; exact (mul_pos hsc htot).ne') m
  have hF : ∀ x y : Nat, id (gaussAt id ex (1 / (sigma * 2 * piConst)) (sigma * 2) k x y
      * id (1 / gaussSum id ex (1 / (sigma * 2 * piConst)) (sigma * 2) k))
      = weight ex sigma ((x : Int) - k) ((y : Int) - k) / weightSum ex sigma k := by
    intro x y
    rw [gaussSum_weight, gaussAt_weight]
    generalize 1 / (sigma * 2 * piConst) = c at hsc ⊢
    have := hsc.ne'
    have := htot.ne'
    simp only [id]
    field_simp
  obtain ⟨v1, v2, v3⟩ := square_vector s h2
  refine ⟨m', h1, ⟨v1, fun x y hx hy => ?_⟩, ?_⟩
  · rw [v2 x y hx hy]
    split
    · rw [hF]
      congr 2 <;> omega
    · rfl
  · rw [v3]
    rw [List.map_congr_left fun q _ => hF q.2 q.1]
    simp only [div_eq_mul_inv]
    rw [List.sum_map_mul_right]
    exact mul_inv_cancel₀ htot.ne'

/-- Other parameters than the documented ones throw. -/
theorem C79_rejects (fl ex : ℚ → ℚ) {w h k : Nat} {sigma : ℚ} (m : Mem ℚ)
    (hb : w < 3 ∨ h < 3 ∨ k = 0 ∨ (k < 2147483648 ∧ (w < 2 * k + 1 ∨ h < 2 * k + 1)) ∨ sigma < 0) :
    GetGaussianKernel fl ex w h k sigma m = .throw m := by
  have e : (decide (w < 3) || decide (h < 3) || k == 0 || decide (w < u32 (u32 (k * 2) + 1))
      || decide (h < u32 (u32 (k * 2) + 1)) || decide (sigma < 0)) = true := by
    simp only [Bool.or_eq_true, decide_eq_true_eq, beq_iff_eq]
    rcases hb with hb | hb | hb | ⟨hk, hb⟩ | hb
    · tauto
    · tauto
    · tauto
    · rw [u32_of_lt (show k * 2 < 4294967296 by omega), u32_of_lt (by omega)]
      omega
    · tauto
  rw [GetGaussianKernel, e]
  rfl

/-- `2 * kernelSize + 1` is computed with 32 bits: a kernel size of 2^31 is accepted for a 3 x 3
    kernel, and the function has undefined behaviour. -/
theorem C79_wrong_size : isUb (GetGaussianKernel id (fun _ => 1) 3 3 2147483648 1 (zeroVec 0)) = true := by
  decide +kernel

/-- `sigma = 0` is accepted, and the function divides by zero. -/
theorem C79_wrong_sigma : isUb (GetGaussianKernel id (fun _ => 1) 3 3 1 0 (zeroVec 0)) = true := by
  decide +kernel

example : ∃ m', GetGaussianKernel id (fun q => 1 / (1 + q * q)) 5 4 1 (1 / 2) (zeroVec 0) = .ok () m' ∧
    Kernel (fun q => 1 / (1 + q * q)) 5 4 1 (1 / 2) m' ∧ ((List.range (4 * 5)).map (m'.byte 1)).sum = 1 :=
  C79_gauss_partial (fun q => one_div_pos.2 (by nlinarith [mul_self_nonneg q])) ⟨by decide, by decide, by decide, by decide⟩ (by norm_num) _

example : GetGaussianKernel id (fun _ => 1) 5 4 2 1 (zeroVec 0) = .throw (zeroVec 0) :=
  C79_rejects _ _ _ (by decide)

end PV.Props
