import Mathlib.Tactic.Linarith
import Mathlib.Tactic.Positivity
import Verif.Haar
import Verif.Rounding24
/-
  src/math/haar_transform.cpp with the arithmetic of `float` and `double`: every operation is
  rounded.  Overflow and underflow are not modelled (exponents are unbounded).
-/
namespace PV

/-- A number of a floating-point type whose operations are rounded by `fl`. src/math/haar_transform.cpp 26, 80 (`_Type`). -/
structure Fl (fl : ℚ → ℚ) where
  val : ℚ

variable {fl : ℚ → ℚ}

/-- The rounded sum. src/math/haar_transform.cpp 57, 74, 110, 127. -/
instance : Add (Fl fl) := ⟨fun a b => ⟨fl (a.val + b.val)⟩⟩
/-- The rounded difference. src/math/haar_transform.cpp 58, 75, 109, 126. -/
instance : Sub (Fl fl) := ⟨fun a b => ⟨fl (a.val - b.val)⟩⟩
/-- The rounded product. src/math/haar_transform.cpp 57-58, 74-75, 109-110, 126-127. -/
instance : Mul (Fl fl) := ⟨fun a b => ⟨fl (a.val * b.val)⟩⟩
/-- The elements of a new vector. src/math/haar_transform.cpp 43, 95. -/
instance : Zero (Fl fl) := ⟨⟨0⟩⟩

/-- `std::sqrt( 2.0f )`: the `float` nearest to the square root of 2 (`floatRoot2_nearest`).
    src/math/haar_transform.cpp 42, 94. -/
def floatRoot2 : ℚ := 11863283 / 2 ^ 23

/-- `1.0f / std::sqrt( 2.0f )`, for both types. src/math/haar_transform.cpp 42, 94. -/
def haarCoefficient : ℚ := single (1 / floatRoot2)

/-- `HaarDirectTransform` of the type rounded by `fl`. src/math/haar_transform.cpp 134-137, 144-147. -/
def haarDirectFl (fl : ℚ → ℚ) (t inp out w h : Nat) : M (Mem (Fl fl)) Unit :=
  HaarDirectTransform ⟨haarCoefficient⟩ t inp out w h

/-- `HaarInverseTransform` of the type rounded by `fl`. src/math/haar_transform.cpp 139-142, 149-152. -/
def haarInverseFl (fl : ℚ → ℚ) (t inp out w h : Nat) : M (Mem (Fl fl)) Unit :=
  HaarInverseTransform ⟨haarCoefficient⟩ t inp out w h

/-! ### Lemmas -/

/-- Neighbouring numbers of the type between 1 and 2 differ by 1 / 2^23. -/
theorem floatRoot2_nearest : (floatRoot2 - 1 / 2 ^ 24) ^ 2 < 2 ∧ 2 < (floatRoot2 + 1 / 2 ^ 24) ^ 2 := by
  unfold floatRoot2
  norm_num

theorem haarCoefficient_eq : haarCoefficient = 11863283 / 2 ^ 24 := by decide +kernel

/-- The relative error of a sum that is multiplied, both rounded with relative error `u`. Not in the code. -/
def eta (u : ℚ) : ℚ := 2 * u + u ^ 2

/-- `a` is `A` up to the errors of `k` steps, where `A` is at most `X`. Not in the code. -/
def NearF (u : ℚ) (k : Nat) (X a A : ℚ) : Prop := |A| ≤ X ∧ |a - A| ≤ X * ((1 + eta u) ^ k - 1)

theorem eta_nonneg {u : ℚ} (h : 0 ≤ u) : 0 ≤ eta u := by
  unfold eta
  positivity

theorem near_self {u X a : ℚ} (h : |a| ≤ X) : NearF u 0 X a a := ⟨h, by simp⟩

/-- The errors of one step. -/
theorem step_err {u c s : ℚ} (hu : 0 ≤ u) (hc : 0 ≤ c) (he : ∀ a, |fl a - a| ≤ u * |a|) :
    |fl (fl s * c) - s * c| ≤ c * eta u * |s| := by
  have h1 := he s
  have h2 := he (fl s * c)
  have h3 : |fl s| ≤ (1 + u) * |s| := by
    have := abs_sub_abs_le_abs_sub (fl s) s
    linarith
  have h4 : |fl s * c| ≤ (1 + u) * |s| * c := by
    rw [abs_mul, abs_of_nonneg hc]
    exact mul_le_mul_of_nonneg_right h3 hc
  have h5 : |fl s * c - s * c| ≤ u * |s| * c := by
    rw [← sub_mul, abs_mul, abs_of_nonneg hc]
    exact mul_le_mul_of_nonneg_right h1 hc
  have h6 := abs_sub_le (fl (fl s * c)) (fl s * c) (s * c)
  have h7 := mul_le_mul_of_nonneg_left h4 hu
  unfold eta
  nlinarith

theorem near_of {u c X s S a A b B : ℚ} {k : Nat} (hu : 0 ≤ u) (hc : 0 ≤ c) (he : ∀ a, |fl a - a| ≤ u * |a|)
    (ha : NearF u k X a A) (hb : NearF u k X b B) (hS : |S| ≤ |A| + |B|) (hs : |s - S| ≤ |a - A| + |b - B|) :
    NearF u (k + 1) (2 * c * X) (fl (fl s * c)) (S * c) := by
  have hX : 0 ≤ X := le_trans (abs_nonneg _) ha.1
  have hη := eta_nonneg hu
  obtain ⟨a1, a2⟩ := ha
  obtain ⟨b1, b2⟩ := hb
  have q1 := step_err (s := s) hu hc he
  set d := (1 + eta u) ^ k - 1 with hd
  have e1 : |s| ≤ 2 * X * (1 + d) := by
    have := abs_sub_abs_le_abs_sub s S
    nlinarith
  have e2 : |s * c - S * c| ≤ 2 * X * d * c := by
    rw [← sub_mul, abs_mul, abs_of_nonneg hc]
    exact mul_le_mul_of_nonneg_right (by linarith) hc
  have e3 := abs_sub_le (fl (fl s * c)) (s * c) (S * c)
  have e4 : c * eta u * |s| ≤ c * eta u * (2 * X * (1 + d)) := mul_le_mul_of_nonneg_left e1 (mul_nonneg hc hη)
  refine ⟨?_, ?_⟩
  · rw [abs_mul, abs_of_nonneg hc]
    nlinarith
  · have e5 : (1 + eta u) ^ (k + 1) - 1 = (1 + eta u) * (1 + d) - 1 := by
      rw [hd, pow_succ]
      ring
    rw [e5]
    nlinarith

theorem near_add {u c X a A b B : ℚ} {k : Nat} (hu : 0 ≤ u) (hc : 0 ≤ c) (he : ∀ a, |fl a - a| ≤ u * |a|)
    (ha : NearF u k X a A) (hb : NearF u k X b B) : NearF u (k + 1) (2 * c * X) (fl (fl (a + b) * c)) ((A + B) * c) :=
  near_of hu hc he ha hb (abs_add_le A B) (by
    rw [show a + b - (A + B) = (a - A) + (b - B) by ring]
    exact abs_add_le _ _)

theorem near_sub {u c X a A b B : ℚ} {k : Nat} (hu : 0 ≤ u) (hc : 0 ≤ c) (he : ∀ a, |fl a - a| ≤ u * |a|)
    (ha : NearF u k X a A) (hb : NearF u k X b B) : NearF u (k + 1) (2 * c * X) (fl (fl (a - b) * c)) ((A - B) * c) :=
  near_of hu hc he ha hb (abs_sub A B) (by
    rw [show a - b - (A - B) = (a - A) - (b - B) by ring]
    exact abs_sub _ _)

end PV
