import Mathlib.Data.List.Sort
import Mathlib.Analysis.Real.Sqrt
import Mathlib.Tactic.Linarith
import Mathlib.Tactic.Positivity
import Mathlib.Tactic.NormNum
import Mathlib.Tactic.FieldSimp
import Verif.FilterGrad
/-
  Properties C55, C56 and C78: `Median`, `Prewitt`, `Sobel`.
-/
namespace PV.Props

/-- Gray-scale images which own their pixels, with rectangles inside them. -/
structure GrayPair (m : BMem) (inp out : View) (w h : Nat) : Prop where
  wfi : inp.img.WF m
  wfo : out.img.WF m
  fiti : inp.Fits w h
  fito : out.Fits w h
  gi : inp.img.cc = 1
  go : out.img.cc = 1

/-! ### C55 : Median -/

/-- For every `std::nth_element` that keeps its promise: inside, each output pixel is the median
    of the k x k pixels around it; the border of width k / 2 is copied; nothing else is written and
    (the call being `ok`) nothing outside the images is accessed. -/
theorem C55_median {nth : List UInt8 → Nat → List UInt8} (hn : NthElement nth) {m : BMem} {inp out : View} {w h k : Nat}
    (r : GrayPair m inp out w h) (hap : Apart inp w h out w h)
    (hk3 : 3 ≤ k) (hodd : k % 2 = 1) (hkw : k < w) (hkh : k < h) :
    ∃ m' F, Median nth inp out w h k m = .ok () m' ∧ WritesRoi m m' out w h F ∧
      (∀ x y, k / 2 ≤ x → x < w - k / 2 → k / 2 ≤ y → y < h - k / 2 →
        IsMedian (window inp m (x - k / 2) (y - k / 2) k) (F x y 0)) ∧
      (∀ x y, x < w → y < h → ¬ (k / 2 ≤ x ∧ x < w - k / 2 ∧ k / 2 ≤ y ∧ y < h - k / 2) →
        F x y 0 = inp.get m x y 0) := by
  obtain ⟨m', h1, h2⟩ := Median_ok hn r.wfi r.wfo r.fiti r.fito r.gi r.go hap hk3 hodd hkw hkh
  refine ⟨m', _, h1, h2, fun x y h3 h4 h5 h6 => ?_, fun x y _ _ h3 => if_neg h3⟩
  show IsMedian _ (if _ then _ else _)
  rw [if_pos ⟨h3, h4, h5, h6⟩]
  refine medianOf_spec hn ?_
  rw [window, List.length_map, length_grid]
  exact Nat.mul_pos (by omega) (by omega)

/-- Rectangles that do not fit, images which are not gray-scale and bad kernel sizes are refused. -/
theorem C55_rejects (nth : List UInt8 → Nat → List UInt8) {m : BMem} {inp out : View} {w h k : Nat}
    (hb : Bad [inp, out] w h (Gray1 inp out ∧ 3 ≤ k ∧ k % 2 = 1 ∧ k < w ∧ k < h)) :
    Median nth inp out w h k m = .throw m := by
  by_cases hg : Gray1 inp out
  · rw [Median]
    rcases rois_dichotomy (m := m) hb with ht | ⟨ho, hc⟩
    · rw [bind_throw ht]
    · rw [bind_ok ho]
      have h1 : verifyGray [inp.img, out.img] m = .ok () m := gray_ok (by
        intro b hb
        simp only [List.mem_cons, List.not_mem_nil, or_false] at hb
        rcases hb with rfl | rfl
        · exact hg.1
        · exact hg.2)
      rw [bind_ok h1]
      have h2 : (decide (k < 3) || k % 2 == 0 || decide (k ≥ w) || decide (k ≥ h)) = true := by
        by_contra hcon
        simp only [Bool.or_eq_true, decide_eq_true_eq, beq_iff_eq, not_or] at hcon
        exact hc ⟨hg, by omega, by omega, by omega, by omega⟩
      rw [h2]
      rfl
  · rw [Median, grayPrologue_bad ⟨hb.u32, hb.hw, hb.hh, Or.inr hg⟩]

/-- Insertion sort is a possible `std::nth_element`. -/
theorem sort_nth : NthElement fun l _ => l.insertionSort (· ≤ ·) := by
  have key : ∀ (l : List UInt8) (i j : Nat) (a v : UInt8), i < j → (l.insertionSort (· ≤ ·))[i]? = some a →
      (l.insertionSort (· ≤ ·))[j]? = some v → a ≤ v := by
    intro l i j a v hij ha hv
    have hp := List.pairwise_insertionSort (α := UInt8) (· ≤ ·) l
    rw [List.pairwise_iff_getElem] at hp
    obtain ⟨hi, rfl⟩ := List.getElem?_eq_some_iff.1 ha
    obtain ⟨hj, rfl⟩ := List.getElem?_eq_some_iff.1 hv
    exact hp i j hi hj hij
  exact ⟨fun l n _ => List.perm_insertionSort _ l, fun l n i a v _ hin ha hv => key l i n a v hin ha hv,
    fun l n i a v _ hin ha hv => key l n i v a hin hv ha⟩

/-- A 5x4 image (rows of 6 bytes) in block 1 and a 4x5 image in block 2. -/
def filterMem : BMem := ⟨fun b => if b = 0 then 0 else 24, fun b i => UInt8.ofNat (b * 100 + i * i * 7)⟩
def filterIn : View := ⟨⟨1, 5, 4, 1, 6⟩, 0, 0⟩
def filterOut : View := ⟨⟨2, 4, 5, 1, 4⟩, 0, 1⟩

theorem filter_pair : GrayPair filterMem filterIn filterOut 4 4 where
  wfi := ⟨by decide, by decide, by decide⟩
  wfo := ⟨by decide, by decide, by decide⟩
  fiti := ⟨by decide, by decide, by decide, by decide, by decide, by decide⟩
  fito := ⟨by decide, by decide, by decide, by decide, by decide, by decide⟩
  gi := rfl
  go := rfl

example : Apart filterIn 4 4 filterOut 4 4 := apart_of_ne _ _ _ _ (by decide)
example : window filterIn filterMem 0 0 3 = [100, 107, 128, 96, 187, 36, 84, 3, 192] := by decide
example : IsMedian (window filterIn filterMem 0 0 3) 100 := by
  unfold IsMedian
  decide
example : after (Median (fun l _ => l.insertionSort (· ≤ ·)) filterIn filterOut 4 4 3 filterMem) 2 9 = some 100 := by
  decide +kernel
example : after (Median (fun l _ => l.insertionSort (· ≤ ·)) filterIn filterOut 4 4 3 filterMem) 2 8 = some 96 := by
  decide +kernel

/-! ### C56 : Prewitt and Sobel -/

/-- The gradients of `Prewitt`, from the matrices in the comments of the code. -/
def prewittG (n : Nat → Nat → Int) : Int × Int :=
  (conv 1 0 (-1)
        1 0 (-1)
        1 0 (-1) n,
   conv 1    1    1
        0    0    0
        (-1) (-1) (-1) n)

/-- The gradients of `Sobel`. -/
def sobelG (n : Nat → Nat → Int) : Int × Int :=
  (conv 1 0 (-1)
        2 0 (-2)
        1 0 (-1) n,
   conv 1    2    1
        0    0    0
        (-1) (-2) (-1) n)

/-- The region read, which is one pixel wider than the region processed, does not overlap the output. -/
def ApartAround (inp out : View) (w h : Nat) : Prop :=
  Apart ⟨inp.img, inp.x - 1, inp.y - 1⟩ (w + 2) (h + 2) out w h

theorem C56_prewitt (T : Nat → Nat → UInt8) {m : BMem} {inp out : View} {w h : Nat} (r : GrayPair m inp out w h)
    (hap : ApartAround inp out w h) (hw : 3 ≤ w) (hh : 3 ≤ h) :
    ∃ m', Prewitt T inp out w h m = .ok () m' ∧
      WritesRoi m m' out w h fun x y _ => gradSpec T prewittG inp m w h x y :=
  gradientFilter_ok (G := prewittG) (prewitt_gradAt inp.img)
    (fun _ _ h => Prod.ext (conv_local _ _ _ _ _ _ _ _ _ h) (conv_local _ _ _ _ _ _ _ _ _ h))
    r.wfi r.wfo r.fiti r.fito r.gi r.go hap hw hh

theorem C56_sobel (T : Nat → Nat → UInt8) {m : BMem} {inp out : View} {w h : Nat} (r : GrayPair m inp out w h)
    (hap : ApartAround inp out w h) (hw : 3 ≤ w) (hh : 3 ≤ h) :
    ∃ m', Sobel T inp out w h m = .ok () m' ∧
      WritesRoi m m' out w h fun x y _ => gradSpec T sobelG inp m w h x y :=
  gradientFilter_ok (G := sobelG) (sobel_gradAt inp.img)
    (fun _ _ h => Prod.ext (conv_local _ _ _ _ _ _ _ _ _ h) (conv_local _ _ _ _ _ _ _ _ _ h))
    r.wfi r.wfo r.fiti r.fito r.gi r.go hap hw hh

theorem gradientFilter_rejects (grad : Nat → M BMem (Int × Int)) (size : Nat) (T : Nat → Nat → UInt8) {m : BMem}
    {inp out : View} {w h : Nat} (hb : Bad [inp, out] w h (Gray1 inp out ∧ 3 ≤ w ∧ 3 ≤ h)) :
    gradientFilter grad size T inp out w h m = .throw m := by
  by_cases hg : Gray1 inp out
  · rw [gradientFilter]
    rcases rois_dichotomy (m := m) hb with ht | ⟨ho, hc⟩
    · rw [bind_throw ht]
    · rw [bind_ok ho]
      have h1 : verifyGray [inp.img, out.img] m = .ok () m := gray_ok (by
        intro b hb
        simp only [List.mem_cons, List.not_mem_nil, or_false] at hb
        rcases hb with rfl | rfl
        · exact hg.1
        · exact hg.2)
      rw [bind_ok h1]
      have h2 : (decide (w < 3) || decide (h < 3)) = true := by
        by_contra hcon
        simp only [Bool.or_eq_true, decide_eq_true_eq, not_or] at hcon
        exact hc ⟨hg, by omega, by omega⟩
      rw [h2]
      rfl
  · rw [gradientFilter, grayPrologue_bad ⟨hb.u32, hb.hw, hb.hh, Or.inr hg⟩]

theorem C56_rejects (T : Nat → Nat → UInt8) {m : BMem} {inp out : View} {w h : Nat}
    (hb : Bad [inp, out] w h (Gray1 inp out ∧ 3 ≤ w ∧ 3 ≤ h)) :
    Prewitt T inp out w h m = .throw m ∧ Sobel T inp out w h m = .throw m :=
  ⟨gradientFilter_rejects _ _ _ hb, gradientFilter_rejects _ _ _ hb⟩

example : ApartAround filterIn filterOut 4 4 := apart_of_ne _ _ _ _ (by decide)
/-- (1, 1) has all its neighbours and gets the table entry for its gradients. -/
example : gradSpec (fun i j => UInt8.ofNat (i + 3 * j)) sobelG filterIn filterMem 4 4 1 1 = UInt8.ofNat (16 + 3 * 160) := by
  decide +kernel
example : after (Sobel (fun i j => UInt8.ofNat (i + 3 * j)) filterIn filterOut 4 4 filterMem) 2 9 = some (UInt8.ofNat (16 + 3 * 160)) := by
  decide +kernel

/-- The right column of this region has neighbours on both sides, yet it is set to zero: the code asks for
    two further columns. -/
example : filterIn.x + 4 < filterIn.img.width ∧
    gradSpec (fun _ _ => 1) sobelG filterIn filterMem 4 4 3 1 = 0 := by decide +kernel

/-! ### C78 : the table of the gradient filters -/

/-- src/filtering.cpp 34-42 with exact arithmetic: `sqrtf( i * i + j * j ) * multiplier + 0.5`, where the
    multiplier is 1 / ( n * sqrt( 2 ) ) (lines 183 and 292). -/
noncomputable def tableValue (n i j : Nat) : ℝ := √((i : ℝ) ^ 2 + (j : ℝ) ^ 2) * (1 / (n * √2)) + 1 / 2

theorem tableValue_le {n i j B : Nat} (hn : 0 < n) (hi : i ≤ B * n) (hj : j ≤ B * n) : tableValue n i j ≤ B + 1 / 2 := by
  have hi' : (i : ℝ) ≤ B * n := by exact_mod_cast hi
  have hj' : (j : ℝ) ≤ B * n := by exact_mod_cast hj
  have hn' : (0 : ℝ) < n := by exact_mod_cast hn
  have hB : (0 : ℝ) ≤ B := Nat.cast_nonneg B
  have h1 : √((i : ℝ) ^ 2 + (j : ℝ) ^ 2) ≤ B * (n * √2) := by
    rw [Real.sqrt_le_left (by positivity)]
    have h2 : (√2 : ℝ) ^ 2 = 2 := Real.sq_sqrt (by norm_num)
    have h3 : (i : ℝ) ^ 2 ≤ (B * n) ^ 2 := pow_le_pow_left₀ (Nat.cast_nonneg i) hi' 2
    have h4 : (j : ℝ) ^ 2 ≤ (B * n) ^ 2 := pow_le_pow_left₀ (Nat.cast_nonneg j) hj' 2
    have h5 : ((B : ℝ) * (n * √2)) ^ 2 = 2 * (B * n) ^ 2 := by
      rw [← mul_assoc, mul_pow, h2]
      ring
    rw [h5]
    linarith
  have h2 : (0 : ℝ) < n * √2 := by positivity
  have h3 : √((i : ℝ) ^ 2 + (j : ℝ) ^ 2) * (1 / (n * √2)) ≤ B := by
    rw [mul_one_div, div_le_iff₀ h2]
    exact h1
  unfold tableValue
  linarith

/-- For all gradients that can occur (at most 255 * n in each direction, n = 3 for `Prewitt`, 4 for `Sobel`)
    the number converted to `uint8_t` is in range, even when floating-point arithmetic is off by up to 0.4. -/
theorem C78_table_partial {n i j : Nat} (hn : 0 < n) (hi : i ≤ 255 * n) (hj : j ≤ 255 * n) {e : ℝ} (he : |e| ≤ 4 / 10) :
    0 ≤ tableValue n i j + e ∧ tableValue n i j + e < 256 := by
  have h1 := tableValue_le hn hi hj
  have h2 : (0 : ℝ) ≤ √((i : ℝ) ^ 2 + (j : ℝ) ^ 2) * (1 / (n * √2)) := by positivity
  have h3 := abs_le.1 he
  constructor
  · unfold tableValue
    linarith [h3.1]
  · push_cast at h1
    linarith [h3.2]

theorem tableValue_diag {n i : Nat} (hn : 0 < n) : tableValue n i i = i / n + 1 / 2 := by
  have h2 : (√2 : ℝ) ≠ 0 := by positivity
  have hn' : (n : ℝ) ≠ 0 := by positivity
  have h1 : √((i : ℝ) ^ 2 + (i : ℝ) ^ 2) = i * √2 := by
    rw [← mul_two, Real.sqrt_mul (by positivity), Real.sqrt_sq (Nat.cast_nonneg i)]
  unfold tableValue
  rw [h1]
  field_simp

/-- The strongest gradient, 255 * n in both directions, gives 255. -/
example : ⌊tableValue 3 765 765⌋ = 255 := by
  rw [tableValue_diag (by norm_num), Int.floor_eq_iff]
  norm_num

/-- But both tables are filled completely, and their last entries convert a number of at least 256 to
    `uint8_t`, which is undefined behaviour; no rounding error below 0.1 saves them. -/
theorem C78_table_wrong {e : ℝ} (he : |e| ≤ 1 / 10) :
    256 ≤ tableValue 3 767 767 + e ∧ 256 ≤ tableValue 4 1023 1023 + e := by
  have h3 := abs_le.1 he
  rw [tableValue_diag (by norm_num), tableValue_diag (by norm_num)]
  push_cast
  constructor <;> linarith [h3.1]

end PV.Props
