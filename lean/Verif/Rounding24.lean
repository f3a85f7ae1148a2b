import Verif.Rounding
/-
  `float` numbers: as Rounding.lean for `double`, with 24 bits in place of 53.
-/
namespace PV

/-- What is assumed about the rounding of an operation on `float`. Not in the code: for statements and proofs. -/
structure Rounding24 (fl : ℚ → ℚ) : Prop where
  mono : ∀ a b, a ≤ b → fl a ≤ fl b
  err : ∀ a, |fl a - a| ≤ |a| / 2 ^ 23
  int : ∀ n : ℤ, |n| < 2 ^ 24 → fl n = n

/-- IEEE 754 round-to-nearest-even to 24 significant bits. -/
def single (q : ℚ) : ℚ :=
  rne (q / 2 ^ (Int.log 2 |q| - 23)) * 2 ^ (Int.log 2 |q| - 23)

theorem single_zero : single 0 = 0 := by
  unfold single
  rw [zero_div, rne_zero, Int.cast_zero, zero_mul]

theorem single_err (a : ℚ) : |single a - a| ≤ |a| / 2 ^ 24 := by
  by_cases h0 : a = 0
  · rw [h0, single_zero]
    simp
  have hpos : 0 < |a| := abs_pos.mpr h0
  have hl := Int.zpow_log_le_self (b := 2) (by norm_num) hpos
  have hp : (0 : ℚ) < 2 ^ (Int.log 2 |a| - 23) := zpow_pos (by norm_num) _
  have he := rne_err (a / 2 ^ (Int.log 2 |a| - 23))
  have e1 : single a - a = ((rne (a / 2 ^ (Int.log 2 |a| - 23)) : ℚ) - a / 2 ^ (Int.log 2 |a| - 23)) * 2 ^ (Int.log 2 |a| - 23) := by
    unfold single
    field_simp
  rw [e1, abs_mul, abs_of_pos hp]
  have e2 : (2 : ℚ) ^ (Int.log 2 |a| - 23) = 2 ^ (Int.log 2 |a|) / 2 ^ 23 := by
    rw [zpow_sub₀ (by norm_num)]
    norm_num
  have h3 : (2 : ℚ) ^ (Int.log 2 |a| - 23) ≤ |a| / 2 ^ 23 := by
    rw [e2]
    exact div_le_div_of_nonneg_right (by exact_mod_cast hl) (by norm_num)
  calc _ ≤ 1 / 2 * (|a| / 2 ^ 23) := mul_le_mul he h3 hp.le (by norm_num)
    _ = |a| / 2 ^ 24 := by ring

theorem scale_eq24 (z : ℤ) : (2 : ℚ) ^ (z - 23) * 2 ^ 23 = 2 ^ z := by
  rw [zpow_sub₀ (by norm_num)]
  norm_num

theorem single_pos_bounds {a : ℚ} (h : 0 < a) : 2 ^ (Int.log 2 |a|) ≤ single a ∧ single a ≤ 2 ^ (Int.log 2 |a| + 1) := by
  have hl := Int.zpow_log_le_self (b := 2) (by norm_num) h
  have hu := Int.lt_zpow_succ_log_self (b := 2) (by norm_num) a
  rw [abs_of_pos h]
  unfold single
  rw [abs_of_pos h]
  have hp : (0 : ℚ) < 2 ^ (Int.log 2 a - 23) := zpow_pos (by norm_num) _
  have hs := scale_eq24 (Int.log 2 a)
  have hs2 : (2 : ℚ) ^ (Int.log 2 a + 1) = 2 ^ (Int.log 2 a) * 2 := zpow_add_one₀ (by norm_num) _
  push_cast at hl hu
  generalize (2 : ℚ) ^ (Int.log 2 a - 23) = s at *
  have h1 : ((2 ^ 23 : ℤ)) ≤ rne (a / s) := by
    refine rne_neg_le ?_
    rw [le_div_iff₀ hp]
    push_cast
    linarith
  have h2 : rne (a / s) ≤ 2 ^ 24 := by
    refine rne_le ?_
    rw [div_le_iff₀ hp]
    push_cast
    linarith
  have h1' : ((2 : ℚ) ^ 23) ≤ rne (a / s) := by exact_mod_cast h1
  have h2' : (rne (a / s) : ℚ) ≤ 2 ^ 24 := by exact_mod_cast h2
  constructor
  · nlinarith
  · nlinarith

theorem single_neg_bounds {a : ℚ} (h : a < 0) : -2 ^ (Int.log 2 |a| + 1) ≤ single a ∧ single a ≤ -2 ^ (Int.log 2 |a|) := by
  have h' : 0 < |a| := abs_pos.mpr h.ne
  have hl := Int.zpow_log_le_self (b := 2) (by norm_num) h'
  have hu := Int.lt_zpow_succ_log_self (b := 2) (by norm_num) |a|
  unfold single
  have hp : (0 : ℚ) < 2 ^ (Int.log 2 |a| - 23) := zpow_pos (by norm_num) _
  have hs := scale_eq24 (Int.log 2 |a|)
  have hs2 : (2 : ℚ) ^ (Int.log 2 |a| + 1) = 2 ^ (Int.log 2 |a|) * 2 := zpow_add_one₀ (by norm_num) _
  push_cast at hl hu
  have habs : |a| = -a := abs_of_neg h
  generalize (2 : ℚ) ^ (Int.log 2 |a| - 23) = s at *
  generalize (2 : ℚ) ^ (Int.log 2 |a|) = t at *
  have h1 : (-(2 ^ 24 : ℤ)) ≤ rne (a / s) := by
    refine rne_neg_le ?_
    rw [le_div_iff₀ hp]
    push_cast
    linarith
  have h2 : rne (a / s) ≤ -(2 ^ 23 : ℤ) := by
    refine rne_le ?_
    rw [div_le_iff₀ hp]
    push_cast
    linarith
  have h1' : (-(2 : ℚ) ^ 24) ≤ rne (a / s) := by exact_mod_cast h1
  have h2' : (rne (a / s) : ℚ) ≤ -2 ^ 23 := by exact_mod_cast h2
  constructor
  · nlinarith
  · nlinarith

theorem single_same {a b : ℚ} (h : a ≤ b) (he : Int.log 2 |a| = Int.log 2 |b|) : single a ≤ single b := by
  unfold single
  rw [he]
  have hp : (0 : ℚ) < 2 ^ (Int.log 2 |b| - 23) := zpow_pos (by norm_num) _
  refine mul_le_mul_of_nonneg_right ?_ hp.le
  exact_mod_cast rne_mono (div_le_div_of_nonneg_right h hp.le)

theorem single_mono {a b : ℚ} (h : a ≤ b) : single a ≤ single b := by
  rcases lt_trichotomy a 0 with ha | ha | ha
  · have A := single_neg_bounds ha
    have A' : (0 : ℚ) < 2 ^ (Int.log 2 |a|) := zpow_pos (by norm_num) _
    rcases lt_trichotomy b 0 with hb | hb | hb
    · have B := single_neg_bounds hb
      have hab : |b| ≤ |a| := by
        rw [abs_of_neg ha, abs_of_neg hb]
        linarith
      have hlog := Int.log_mono_right (b := 2) (abs_pos.mpr hb.ne) hab
      rcases lt_or_eq_of_le hlog with hlt | heq
      · have : (2 : ℚ) ^ (Int.log 2 |b| + 1) ≤ 2 ^ (Int.log 2 |a|) := zpow_le_zpow_right₀ (by norm_num) hlt
        linarith [A.2, B.1]
      · exact single_same h heq.symm
    · rw [hb, single_zero]
      linarith [A.2]
    · have B := single_pos_bounds hb
      have B' : (0 : ℚ) < 2 ^ (Int.log 2 |b|) := zpow_pos (by norm_num) _
      linarith [A.2, B.1]
  · rw [ha, single_zero]
    rcases lt_or_eq_of_le (ha ▸ h) with hb | hb
    · have B := single_pos_bounds hb
      have B' : (0 : ℚ) < 2 ^ (Int.log 2 |b|) := zpow_pos (by norm_num) _
      linarith [B.1]
    · rw [← hb, single_zero]
  · have hb : 0 < b := lt_of_lt_of_le ha h
    have A := single_pos_bounds ha
    have B := single_pos_bounds hb
    have hab : |a| ≤ |b| := by
      rw [abs_of_pos ha, abs_of_pos hb]
      exact h
    have hlog := Int.log_mono_right (b := 2) (abs_pos.mpr ha.ne') hab
    rcases lt_or_eq_of_le hlog with hlt | heq
    · have : (2 : ℚ) ^ (Int.log 2 |a| + 1) ≤ 2 ^ (Int.log 2 |b|) := zpow_le_zpow_right₀ (by norm_num) hlt
      linarith [A.2, B.1]
    · exact single_same h heq

theorem single_int (n : ℤ) (h : |n| < 2 ^ 24) : single n = n := by
  by_cases h0 : n = 0
  · rw [h0, Int.cast_zero, single_zero]
  have hpos : (0 : ℚ) < |(n : ℚ)| := abs_pos.mpr (by exact_mod_cast h0)
  have hlog : Int.log 2 |(n : ℚ)| < 24 := by
    rw [← Int.lt_zpow_iff_log_lt (by norm_num) hpos]
    have : ((|n| : ℤ) : ℚ) < 2 ^ 24 := by exact_mod_cast h
    push_cast at this ⊢
    exact_mod_cast this
  obtain ⟨k, hk⟩ : ∃ k : ℕ, Int.log 2 |(n : ℚ)| - 23 = -(k : ℤ) := ⟨(23 - Int.log 2 |(n : ℚ)|).toNat, by omega⟩
  unfold single
  rw [hk, zpow_neg, zpow_natCast]
  have e : (n : ℚ) / ((2 : ℚ) ^ k)⁻¹ = ((n * 2 ^ k : ℤ) : ℚ) := by
    push_cast
    field_simp
  rw [e, rne_int]
  push_cast
  field_simp

/-- Round-to-nearest-even with 24 bits is a rounding in the sense above. -/
theorem Rounding24.single : Rounding24 PV.single where
  mono _ _ h := single_mono h
  err a := le_trans (single_err a) (div_le_div_of_nonneg_left (abs_nonneg a) (by norm_num) (by norm_num))
  int := single_int

/-- A rounding of `double` is one of `float`, with smaller errors than needed. -/
theorem Rounding.to24 {rnd : ℚ → ℚ} (r : Rounding rnd) : Rounding24 rnd where
  mono := r.mono
  err a := le_trans (r.err a) (div_le_div_of_nonneg_left (abs_nonneg a) (by norm_num) (by norm_num))
  int n h := r.int n (lt_trans h (by norm_num))

/-- So is exact arithmetic. -/
theorem Rounding24.exact : Rounding24 id := Rounding.exact.to24

theorem Rounding24.one {fl : ℚ → ℚ} (r : Rounding24 fl) : fl 1 = 1 := by
  exact_mod_cast r.int 1 (by norm_num)

theorem Rounding24.zero {fl : ℚ → ℚ} (r : Rounding24 fl) : fl 0 = 0 := by
  have := r.err 0
  simpa using this

theorem Rounding24.nonneg {fl : ℚ → ℚ} (r : Rounding24 fl) {a : ℚ} (h : 0 ≤ a) : 0 ≤ fl a := by
  have := r.mono 0 a h
  rwa [r.zero] at this

theorem Rounding24.nonpos {fl : ℚ → ℚ} (r : Rounding24 fl) {a : ℚ} (h : a ≤ 0) : fl a ≤ 0 := by
  have := r.mono a 0 h
  rwa [r.zero] at this

end PV
