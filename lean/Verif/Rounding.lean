import Mathlib.Data.Int.Log
import Mathlib.Algebra.Order.Round
import Mathlib.Data.Rat.Floor
import Mathlib.Tactic.Linarith
import Mathlib.Tactic.Positivity
import Mathlib.Tactic.FieldSimp
import Mathlib.Tactic.Ring
/-
  Floating-point numbers.

  A finite `double` is its rational value, and every operation of the code is the exact rational
  operation followed by a rounding.  Theorems are stated for every rounding that is monotone,
  exact for integers of 53 bits and has a relative error of at most 2^-52; `Rounding.double` shows that round-to-nearest-even with
  53 bits is one.  The exponent is not limited: overflow, infinities, NaN and subnormal numbers
  are not modelled.
-/
namespace PV

/-- What is assumed about the rounding of a floating-point operation. Not in the code: for statements and proofs. -/
structure Rounding (rnd : ℚ → ℚ) : Prop where
  mono : ∀ a b, a ≤ b → rnd a ≤ rnd b
  err : ∀ a, |rnd a - a| ≤ |a| / 2 ^ 52
  int : ∀ n : ℤ, |n| < 2 ^ 53 → rnd n = n

/-- Rounding to the nearest integer, ties to even. Not in the code: for statements and proofs. -/
def rne (q : ℚ) : ℤ :=
  if q - ⌊q⌋ < 1 / 2 then ⌊q⌋
  else if 1 / 2 < q - ⌊q⌋ then ⌊q⌋ + 1
  else if ⌊q⌋ % 2 = 0 then ⌊q⌋ else ⌊q⌋ + 1

/-- IEEE 754 round-to-nearest-even to 53 significant bits. -/
def double (q : ℚ) : ℚ :=
  rne (q / 2 ^ (Int.log 2 |q| - 52)) * 2 ^ (Int.log 2 |q| - 52)

theorem rne_err (q : ℚ) : |(rne q : ℚ) - q| ≤ 1 / 2 := by
  have h1 := Int.floor_le q
  have h2 := Int.lt_floor_add_one q
  unfold rne
  rw [abs_le]
  split
  · constructor <;> linarith
  · split
    · push_cast
      constructor <;> linarith
    · split
      · constructor <;> linarith
      · push_cast
        constructor <;> linarith

theorem rne_cases (q : ℚ) : rne q = ⌊q⌋ ∨ rne q = ⌊q⌋ + 1 := by
  unfold rne
  split
  · exact Or.inl rfl
  · split
    · exact Or.inr rfl
    · split
      · exact Or.inl rfl
      · exact Or.inr rfl

theorem rne_mono {a b : ℚ} (h : a ≤ b) : rne a ≤ rne b := by
  have hf := Int.floor_mono h
  rcases lt_or_eq_of_le hf with hlt | heq
  · have : ⌊a⌋ + 1 ≤ ⌊b⌋ := hlt
    rcases rne_cases a with e | e <;> rcases rne_cases b with e' | e' <;> omega
  · unfold rne
    rw [← heq]
    split
    · split
      · exact le_refl _
      · split
        · omega
        · split <;> omega
    · rename_i h1
      split
      · rw [if_neg (by linarith), if_pos (by linarith)]
      · rename_i h2
        have hb : ¬ b - (⌊a⌋ : ℚ) < 1 / 2 := by linarith
        simp only [hb, if_false]
        split <;> split <;> omega

theorem rne_int (n : ℤ) : rne (n : ℚ) = n := by
  unfold rne
  rw [Int.floor_intCast, if_pos (by simp)]

theorem rne_neg_le {q : ℚ} {n : ℤ} (h : (n : ℚ) ≤ q) : n ≤ rne q := by
  have := rne_mono h
  rwa [rne_int] at this

theorem rne_le {q : ℚ} {n : ℤ} (h : q ≤ (n : ℚ)) : rne q ≤ n := by
  have := rne_mono h
  rwa [rne_int] at this

theorem rne_zero : rne 0 = 0 := by simpa using rne_int 0

theorem double_zero : double 0 = 0 := by
  unfold double
  rw [zero_div, rne_zero, Int.cast_zero, zero_mul]

theorem double_err (a : ℚ) : |double a - a| ≤ |a| / 2 ^ 53 := by
  by_cases h0 : a = 0
  · rw [h0, double_zero]
    simp
  have hpos : 0 < |a| := abs_pos.mpr h0
  have hl := Int.zpow_log_le_self (b := 2) (by norm_num) hpos
  have hp : (0 : ℚ) < 2 ^ (Int.log 2 |a| - 52) := zpow_pos (by norm_num) _
  have he := rne_err (a / 2 ^ (Int.log 2 |a| - 52))
  have e1 : double a - a = ((rne (a / 2 ^ (Int.log 2 |a| - 52)) : ℚ) - a / 2 ^ (Int.log 2 |a| - 52)) * 2 ^ (Int.log 2 |a| - 52) := by
    unfold double
    field_simp
  rw [e1, abs_mul, abs_of_pos hp]
  have e2 : (2 : ℚ) ^ (Int.log 2 |a| - 52) = 2 ^ (Int.log 2 |a|) / 2 ^ 52 := by
    rw [zpow_sub₀ (by norm_num)]
    norm_num
  have h3 : (2 : ℚ) ^ (Int.log 2 |a| - 52) ≤ |a| / 2 ^ 52 := by
    rw [e2]
    exact div_le_div_of_nonneg_right (by exact_mod_cast hl) (by norm_num)
  calc _ ≤ 1 / 2 * (|a| / 2 ^ 52) := mul_le_mul he h3 hp.le (by norm_num)
    _ = |a| / 2 ^ 53 := by ring

theorem scale_eq (z : ℤ) : (2 : ℚ) ^ (z - 52) * 2 ^ 52 = 2 ^ z := by
  rw [zpow_sub₀ (by norm_num)]
  norm_num

theorem double_pos_bounds {a : ℚ} (h : 0 < a) : 2 ^ (Int.log 2 |a|) ≤ double a ∧ double a ≤ 2 ^ (Int.log 2 |a| + 1) := by
  have hl := Int.zpow_log_le_self (b := 2) (by norm_num) h
  have hu := Int.lt_zpow_succ_log_self (b := 2) (by norm_num) a
  rw [abs_of_pos h]
  unfold double
  rw [abs_of_pos h]
  have hp : (0 : ℚ) < 2 ^ (Int.log 2 a - 52) := zpow_pos (by norm_num) _
  have hs := scale_eq (Int.log 2 a)
  have hs2 : (2 : ℚ) ^ (Int.log 2 a + 1) = 2 ^ (Int.log 2 a) * 2 := zpow_add_one₀ (by norm_num) _
  push_cast at hl hu
  generalize (2 : ℚ) ^ (Int.log 2 a - 52) = s at *
  have h1 : ((2 ^ 52 : ℤ)) ≤ rne (a / s) := by
    refine rne_neg_le ?_
    rw [le_div_iff₀ hp]
    push_cast
    linarith
  have h2 : rne (a / s) ≤ 2 ^ 53 := by
    refine rne_le ?_
    rw [div_le_iff₀ hp]
    push_cast
    linarith
  have h1' : ((2 : ℚ) ^ 52) ≤ rne (a / s) := by exact_mod_cast h1
  have h2' : (rne (a / s) : ℚ) ≤ 2 ^ 53 := by exact_mod_cast h2
  constructor
  · nlinarith
  · nlinarith

theorem double_neg_bounds {a : ℚ} (h : a < 0) : -2 ^ (Int.log 2 |a| + 1) ≤ double a ∧ double a ≤ -2 ^ (Int.log 2 |a|) := by
  have h' : 0 < |a| := abs_pos.mpr h.ne
  have hl := Int.zpow_log_le_self (b := 2) (by norm_num) h'
  have hu := Int.lt_zpow_succ_log_self (b := 2) (by norm_num) |a|
  unfold double
  have hp : (0 : ℚ) < 2 ^ (Int.log 2 |a| - 52) := zpow_pos (by norm_num) _
  have hs := scale_eq (Int.log 2 |a|)
  have hs2 : (2 : ℚ) ^ (Int.log 2 |a| + 1) = 2 ^ (Int.log 2 |a|) * 2 := zpow_add_one₀ (by norm_num) _
  push_cast at hl hu
  have habs : |a| = -a := abs_of_neg h
  generalize (2 : ℚ) ^ (Int.log 2 |a| - 52) = s at *
  generalize (2 : ℚ) ^ (Int.log 2 |a|) = t at *
  have h1 : (-(2 ^ 53 : ℤ)) ≤ rne (a / s) := by
    refine rne_neg_le ?_
    rw [le_div_iff₀ hp]
    push_cast
    linarith
  have h2 : rne (a / s) ≤ -(2 ^ 52 : ℤ) := by
    refine rne_le ?_
    rw [div_le_iff₀ hp]
    push_cast
    linarith
  have h1' : (-(2 : ℚ) ^ 53) ≤ rne (a / s) := by exact_mod_cast h1
  have h2' : (rne (a / s) : ℚ) ≤ -2 ^ 52 := by exact_mod_cast h2
  constructor
  · nlinarith
  · nlinarith

theorem double_same {a b : ℚ} (h : a ≤ b) (he : Int.log 2 |a| = Int.log 2 |b|) : double a ≤ double b := by
  unfold double
  rw [he]
  have hp : (0 : ℚ) < 2 ^ (Int.log 2 |b| - 52) := zpow_pos (by norm_num) _
  refine mul_le_mul_of_nonneg_right ?_ hp.le
  exact_mod_cast rne_mono (div_le_div_of_nonneg_right h hp.le)

theorem double_mono {a b : ℚ} (h : a ≤ b) : double a ≤ double b := by
  rcases lt_trichotomy a 0 with ha | ha | ha
  · have A := double_neg_bounds ha
    have A' : (0 : ℚ) < 2 ^ (Int.log 2 |a|) := zpow_pos (by norm_num) _
    rcases lt_trichotomy b 0 with hb | hb | hb
    · have B := double_neg_bounds hb
      have hab : |b| ≤ |a| := by
        rw [abs_of_neg ha, abs_of_neg hb]
        linarith
      have hlog := Int.log_mono_right (b := 2) (abs_pos.mpr hb.ne) hab
      rcases lt_or_eq_of_le hlog with hlt | heq
      · have : (2 : ℚ) ^ (Int.log 2 |b| + 1) ≤ 2 ^ (Int.log 2 |a|) := zpow_le_zpow_right₀ (by norm_num) hlt
        linarith [A.2, B.1]
      · exact double_same h heq.symm
    · rw [hb, double_zero]
      linarith [A.2]
    · have B := double_pos_bounds hb
      have B' : (0 : ℚ) < 2 ^ (Int.log 2 |b|) := zpow_pos (by norm_num) _
      linarith [A.2, B.1]
  · rw [ha, double_zero]
    rcases lt_or_eq_of_le (ha ▸ h) with hb | hb
    · have B := double_pos_bounds hb
      have B' : (0 : ℚ) < 2 ^ (Int.log 2 |b|) := zpow_pos (by norm_num) _
      linarith [B.1]
    · rw [← hb, double_zero]
  · have hb : 0 < b := lt_of_lt_of_le ha h
    have A := double_pos_bounds ha
    have B := double_pos_bounds hb
    have hab : |a| ≤ |b| := by
      rw [abs_of_pos ha, abs_of_pos hb]
      exact h
    have hlog := Int.log_mono_right (b := 2) (abs_pos.mpr ha.ne') hab
    rcases lt_or_eq_of_le hlog with hlt | heq
    · have : (2 : ℚ) ^ (Int.log 2 |a| + 1) ≤ 2 ^ (Int.log 2 |b|) := zpow_le_zpow_right₀ (by norm_num) hlt
      linarith [A.2, B.1]
    · exact double_same h heq

theorem double_int (n : ℤ) (h : |n| < 2 ^ 53) : double n = n := by
  by_cases h0 : n = 0
  · rw [h0, Int.cast_zero, double_zero]
  have hpos : (0 : ℚ) < |(n : ℚ)| := abs_pos.mpr (by exact_mod_cast h0)
  have hlog : Int.log 2 |(n : ℚ)| < 53 := by
    rw [← Int.lt_zpow_iff_log_lt (by norm_num) hpos]
    have : ((|n| : ℤ) : ℚ) < 2 ^ 53 := by exact_mod_cast h
    push_cast at this ⊢
    exact_mod_cast this
  obtain ⟨k, hk⟩ : ∃ k : ℕ, Int.log 2 |(n : ℚ)| - 52 = -(k : ℤ) := ⟨(52 - Int.log 2 |(n : ℚ)|).toNat, by omega⟩
  unfold double
  rw [hk, zpow_neg, zpow_natCast]
  have e : (n : ℚ) / ((2 : ℚ) ^ k)⁻¹ = ((n * 2 ^ k : ℤ) : ℚ) := by
    push_cast
    field_simp
  rw [e, rne_int]
  push_cast
  field_simp

/-- Round-to-nearest-even with 53 bits is a rounding in the sense above. -/
theorem Rounding.double : Rounding PV.double where
  mono _ _ h := double_mono h
  err a := le_trans (double_err a) (div_le_div_of_nonneg_left (abs_nonneg a) (by norm_num) (by norm_num))
  int := double_int

/-- So is exact arithmetic. -/
theorem Rounding.exact : Rounding id where
  mono _ _ h := h
  err a := by simp; positivity
  int _ _ := rfl

theorem Rounding.one {rnd : ℚ → ℚ} (r : Rounding rnd) : rnd 1 = 1 := by
  exact_mod_cast r.int 1 (by norm_num)

theorem Rounding.nonpos {rnd : ℚ → ℚ} (r : Rounding rnd) {a : ℚ} (h : a ≤ 0) : rnd a ≤ 0 := by
  have := r.mono a 0 h
  have h0 : rnd 0 = 0 := by exact_mod_cast r.int 0 (by norm_num)
  rwa [h0] at this

theorem Rounding.zero {rnd : ℚ → ℚ} (r : Rounding rnd) : rnd 0 = 0 := by
  have := r.err 0
  simpa using this

theorem Rounding.nonneg {rnd : ℚ → ℚ} (r : Rounding rnd) {a : ℚ} (h : 0 ≤ a) : 0 ≤ rnd a := by
  have := r.mono 0 a h
  rwa [r.zero] at this

theorem Rounding.bounds {rnd : ℚ → ℚ} (r : Rounding rnd) {a : ℚ} (h : 0 ≤ a) :
    a - a / 2 ^ 52 ≤ rnd a ∧ rnd a ≤ a + a / 2 ^ 52 := by
  have := r.err a
  rw [abs_of_nonneg h, abs_le] at this
  constructor <;> linarith [this.1, this.2]

end PV
