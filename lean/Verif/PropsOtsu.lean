import Verif.Otsu
/-
  C35, C75: GetThreshold.
-/
namespace PV.Props
open PV

variable {μ : Type}

/-- **C35.** For a histogram of 256 entries GetThreshold returns without a division by zero. If the pixels
    can be split at all, the result is the first split with the largest `sigma` (as computed with any
    rounding), otherwise it is 0.

    Partial: the number of pixels has to fit 32 bits, see `C35_wrong`. -/
theorem C35_threshold_partial {rnd : ℚ → ℚ} (r : Rounding rnd) {hist : List UInt32} (hl : hist.length = 256)
    (ht : cum (entry hist) 256 < 2 ^ 32) (s : μ) :
    ∃ t, GetThreshold rnd hist s = .ok t s ∧ t < 256 ∧
      ((∃ i, Splits (entry hist) i) → Splits (entry hist) t ∧ ∀ i, Splits (entry hist) i →
        sigmaAt rnd hist i ≤ sigmaAt rnd hist t ∧ (i < t → sigmaAt rnd hist i < sigmaAt rnd hist t)) ∧
      ((¬ ∃ i, Splits (entry hist) i) → t = 0) := by
  obtain ⟨t, mS, h1, h2⟩ := getThreshold_run r hl ht s
  have small : ∀ i, Splits (entry hist) i → i < 256 := by
    intro i hi
    refine Classical.byContradiction fun hn => ?_
    have : cum (entry hist) 256 ≤ cum (entry hist) (i + 1) := cum_mono (by omega)
    have := hi.2
    omega
  refine ⟨t, h1, ?_⟩
  rcases h2 with ⟨_, h3, h4⟩ | ⟨h3, h4, _, h5⟩
  · exact ⟨by omega, fun ⟨i, hi⟩ => absurd hi (h4 i (small i hi)), fun _ => h3⟩
  · exact ⟨h4, fun _ => ⟨h3, fun i hi => h5 i (small i hi) hi⟩, fun hn => absurd ⟨t, h3⟩ hn⟩

/-- **C35.** Other sizes are rejected. -/
theorem C35_rejects {rnd : ℚ → ℚ} {hist : List UInt32} (hl : hist.length ≠ 256) (s : μ) :
    GetThreshold rnd hist s = .throw s := by
  have h1 : (hist.length != 256) = true := by simpa using hl
  rw [GetThreshold, h1, bind_throw (throwIf_true s)]

/-- The value and kind of a result. -/
def outcome {α : Type} : Res Unit α → Option (Option α)
  | .ok a _ => some (some a)
  | .throw _ => some none
  | .ub => none

/-- Two entries of 2^31 pixels. -/
def hugeHist : List UInt32 := (List.range 256).map fun k => if k = 0 ∨ k = 1 then 2147483648 else 0

/-- C35 does not hold for every histogram: with 2^32 pixels the count is 0 and the function divides by it. -/
theorem C35_wrong : hugeHist.length = 256 ∧ Splits (entry hugeHist) 0 ∧ outcome (GetThreshold id hugeHist ()) = none :=
  ⟨by decide +kernel, ⟨by decide +kernel, by decide +kernel⟩, by decide +kernel⟩

/-! ### C75 : the between-class variance -/

/-- The pixels with values up to `i` and the others are two classes; the product of their shares and
    the square of the distance of their mean values. -/
def variance (H : Nat → Nat) (i : Nat) : ℚ :=
  let n1 : ℚ := cum H (i + 1)
  let n : ℚ := cum H 256
  let s1 : ℚ := cum (fun k => k * H k) (i + 1)
  let s : ℚ := cum (fun k => k * H k) 256
  n1 / n * ((n - n1) / n) * (s1 / n1 - (s - s1) / (n - n1)) ^ 2

theorem sigmaAt_variance {hist : List UInt32} (hw : cum (weighted hist) 256 < 2 ^ 32) {i : Nat} (hi : Splits (entry hist) i) :
    sigmaAt id hist i = variance (entry hist) i := by
  have hi256 : i < 256 := by
    refine Classical.byContradiction fun hn => ?_
    have : cum (entry hist) 256 ≤ cum (entry hist) (i + 1) := cum_mono (by omega)
    have := hi.2
    omega
  have hle : cum (weighted hist) (i + 1) ≤ cum (weighted hist) 256 := cum_mono (by omega)
  have e1 : u32 (cum (weighted hist) (i + 1)) = cum (weighted hist) (i + 1) := u32_of_lt (by omega)
  have e2 : u32 (u32 (cum (weighted hist) 256) + 4294967296 - u32 (cum (weighted hist) (i + 1)))
      = cum (weighted hist) 256 - cum (weighted hist) (i + 1) := by
    rw [e1]
    unfold u32
    omega
  rw [sigmaAt, e2, e1, sigmaQ, variance]
  simp only [id]
  rw [Nat.cast_sub hle, Nat.cast_sub hi.2.le]
  have hn : (cum (entry hist) 256 : ℚ) ≠ 0 := by
    have h1 := hi.1
    have h2 := hi.2
    exact_mod_cast (by omega : cum (entry hist) 256 ≠ 0)
  have : (1 : ℚ) - (cum (entry hist) (i + 1) : ℚ) / cum (entry hist) 256
      = ((cum (entry hist) 256 : ℚ) - cum (entry hist) (i + 1)) / cum (entry hist) 256 := by
    field_simp
  rw [this]
  unfold weighted
  ring

/-- **C75.** With exact arithmetic the threshold has the largest between-class variance.

    Partial: the sum of all values has to fit 32 bits, see `C75_wrong`. -/
theorem C75_otsu_partial {hist : List UInt32} (hl : hist.length = 256) (ht : cum (entry hist) 256 < 2 ^ 32)
    (hw : cum (fun k => k * entry hist k) 256 < 2 ^ 32) (hs : ∃ i, Splits (entry hist) i) (s : μ) :
    ∃ t, GetThreshold id hist s = .ok t s ∧ t < 256 ∧ Splits (entry hist) t ∧
      ∀ i, Splits (entry hist) i → variance (entry hist) i ≤ variance (entry hist) t := by
  obtain ⟨t, h1, h2, h3, _⟩ := C35_threshold_partial Rounding.exact hl ht s
  obtain ⟨h4, h5⟩ := h3 hs
  refine ⟨t, h1, h2, h4, fun i hi => ?_⟩
  rw [← sigmaAt_variance hw hi, ← sigmaAt_variance hw h4]
  exact (h5 i hi).1

/-! ### C75 with rounding -/

/-- The mean of values below 256 is at most 255, whatever part of the histogram is taken. -/
theorem cum_values {H : Nat → Nat} {a b : Nat} (h : a ≤ b) (hb : b ≤ 256) :
    cum (fun k => k * H k) b + 255 * cum H a ≤ cum (fun k => k * H k) a + 255 * cum H b := by
  induction h with
  | refl => exact Nat.le_refl _
  | step h ih =>
    rename_i n
    have := ih (by omega)
    have hn : n * H n ≤ 255 * H n := Nat.mul_le_mul_right _ (by omega)
    simp only [cum]
    omega

/-- The error of a rounded product. -/
theorem rounded_mul {rnd : ℚ → ℚ} (r : Rounding rnd) {x x' y y' e f X Y : ℚ} (hx : |x| ≤ X) (hy : |y| ≤ Y) (he : |x' - x| ≤ e)
    (hf : |y' - y| ≤ f) : |rnd (x' * y') - x * y| ≤ (X + e) * (Y + f) * (1 + 1 / 2 ^ 52) - X * Y := by
  have hX : |x'| ≤ X + e := by
    have := abs_sub_abs_le_abs_sub x' x
    linarith
  have hY : |y'| ≤ Y + f := by
    have := abs_sub_abs_le_abs_sub y' y
    linarith
  have h0 : 0 ≤ e := le_trans (abs_nonneg _) he
  have h1 : 0 ≤ f := le_trans (abs_nonneg _) hf
  have h2 : |x' * y'| ≤ (X + e) * (Y + f) := by
    rw [abs_mul]
    exact mul_le_mul hX hY (abs_nonneg _) (le_trans (abs_nonneg _) hX)
  have h3 : |x' * y' - x * y| ≤ (X + e) * f + Y * e := by
    have e1 : x' * y' - x * y = x' * (y' - y) + y * (x' - x) := by ring
    rw [e1]
    refine le_trans (abs_add_le _ _) (add_le_add ?_ ?_)
    · rw [abs_mul]
      exact mul_le_mul hX hf (abs_nonneg _) (le_trans (abs_nonneg _) hX)
    · rw [abs_mul]
      exact mul_le_mul hy he (abs_nonneg _) (le_trans (abs_nonneg _) hy)
  have h4 := r.err (x' * y')
  have h5 := abs_sub_le (rnd (x' * y')) (x' * y') (x * y)
  linarith

/-- The error of a rounded difference. -/
theorem rounded_sub {rnd : ℚ → ℚ} (r : Rounding rnd) {x x' y y' e f D : ℚ} (hD : |x - y| ≤ D) (he : |x' - x| ≤ e)
    (hf : |y' - y| ≤ f) : |rnd (x' - y') - (x - y)| ≤ (D + e + f) * (1 + 1 / 2 ^ 52) - D := by
  have h1 : |x' - y' - (x - y)| ≤ e + f := by
    rw [show x' - y' - (x - y) = (x' - x) - (y' - y) by ring]
    exact le_trans (abs_sub _ _) (add_le_add he hf)
  have h2 := abs_sub_abs_le_abs_sub (x' - y') (x - y)
  have h3 := r.err (x' - y')
  have h4 := abs_sub_le (rnd (x' - y')) (x' - y') (x - y)
  linarith

theorem rounded_self {rnd : ℚ → ℚ} (r : Rounding rnd) {x X : ℚ} (h0 : 0 ≤ x) (h : x ≤ X) : |rnd x - x| ≤ X / 2 ^ 52 := by
  refine le_trans (r.err x) ?_
  rw [abs_of_nonneg h0]
  linarith

/-- The rounding errors of `sigma` are below 1 / 2^32. -/
theorem sigmaAt_rounded {rnd : ℚ → ℚ} (r : Rounding rnd) {hist : List UInt32} (hw : cum (weighted hist) 256 < 2 ^ 32) {i : Nat}
    (hi : Splits (entry hist) i) : |sigmaAt rnd hist i - variance (entry hist) i| ≤ 1 / 2 ^ 32 := by
  have hi256 : i < 256 := by
    refine Classical.byContradiction fun hn => ?_
    have : cum (entry hist) 256 ≤ cum (entry hist) (i + 1) := cum_mono (by omega)
    have := hi.2
    omega
  have hle : cum (weighted hist) (i + 1) ≤ cum (weighted hist) 256 := cum_mono (by omega)
  have e1 : u32 (cum (weighted hist) (i + 1)) = cum (weighted hist) (i + 1) := u32_of_lt (by omega)
  have e2 : u32 (u32 (cum (weighted hist) 256) + 4294967296 - u32 (cum (weighted hist) (i + 1)))
      = cum (weighted hist) 256 - cum (weighted hist) (i + 1) := by
    rw [e1]
    unfold u32
    omega
  have m1 : cum (weighted hist) (i + 1) ≤ 255 * cum (entry hist) (i + 1) := by
    have := cum_values (H := entry hist) (a := 0) (b := i + 1) (by omega) (by omega)
    have e : weighted hist = fun k => k * entry hist k := rfl
    rw [e]
    simpa [cum] using this
  have m2 : cum (weighted hist) 256 - cum (weighted hist) (i + 1) ≤ 255 * (cum (entry hist) 256 - cum (entry hist) (i + 1)) := by
    have := cum_values (H := entry hist) (a := i + 1) (b := 256) (by omega) (by omega)
    have e : weighted hist = fun k => k * entry hist k := rfl
    rw [e]
    omega
  rw [← sigmaAt_variance hw hi, sigmaAt, sigmaAt, e2, e1]
  have p1 := hi.1
  have p2 := hi.2
  generalize cum (weighted hist) 256 - cum (weighted hist) (i + 1) = s2 at *
  generalize cum (weighted hist) (i + 1) = s1 at *
  generalize cum (entry hist) (i + 1) = n1 at *
  generalize cum (entry hist) 256 = n at *
  have c1 : (0 : ℚ) < n1 := by exact_mod_cast p1
  have c2 : (n1 : ℚ) ≤ n := by exact_mod_cast p2.le
  have c3 : (0 : ℚ) < ((n - n1 : Nat) : ℚ) := by exact_mod_cast (by omega : 0 < n - n1)
  have w0 : (0 : ℚ) ≤ n1 / n := by positivity
  have w1 : (n1 : ℚ) / n ≤ 1 := div_le_one_of_le₀ c2 (by positivity)
  have a0 : (0 : ℚ) ≤ s1 / n1 := by positivity
  have a1 : (s1 : ℚ) / n1 ≤ 255 := by
    rw [div_le_iff₀ c1]
    exact_mod_cast m1
  have b0 : (0 : ℚ) ≤ s2 / (n - n1 : Nat) := by positivity
  have b1 : (s2 : ℚ) / (n - n1 : Nat) ≤ 255 := by
    rw [div_le_iff₀ c3]
    exact_mod_cast m2
  unfold sigmaQ
  simp only [id]
  generalize (n1 : ℚ) / n = w at *
  generalize (s1 : ℚ) / n1 = a at *
  generalize (s2 : ℚ) / (n - n1 : Nat) = b at *
  have k1 := rounded_self r w0 w1
  have k2 := rounded_self r a0 a1
  have k3 := rounded_self r b0 b1
  have k4 := rounded_sub r (x := 1) (x' := 1) (y := w) (e := 0) (D := 1) (by rw [abs_le]; constructor <;> linarith) (by simp) k1
  have k5 := rounded_sub r (D := 255) (by rw [abs_le]; constructor <;> linarith) k2 k3
  have k6 := rounded_mul r (x := w) (X := 1) (y := 1 - w) (Y := 1) (by rw [abs_le]; constructor <;> linarith)
    (by rw [abs_le]; constructor <;> linarith) k1 k4
  have ab : |a - b| ≤ 255 := by rw [abs_le]; constructor <;> linarith
  have ww : |w * (1 - w)| ≤ 1 := by rw [abs_le]; constructor <;> nlinarith
  have k7 := rounded_mul r ww ab k6 k5
  have k8 := rounded_mul r (x := w * (1 - w) * (a - b)) (X := 255) (by
    rw [abs_mul]
    calc _ ≤ 1 * 255 := mul_le_mul ww ab (abs_nonneg _) (by norm_num)
      _ = 255 := by norm_num) ab k7 k5
  refine le_trans k8 ?_
  norm_num

/-- **C75** with any rounding of `double`: no split has a variance that is greater than the one of the threshold
    by more than 1 / 2^31. -/
theorem C75_rounded_partial {rnd : ℚ → ℚ} (r : Rounding rnd) {hist : List UInt32} (hl : hist.length = 256)
    (ht : cum (entry hist) 256 < 2 ^ 32) (hw : cum (fun k => k * entry hist k) 256 < 2 ^ 32) (hs : ∃ i, Splits (entry hist) i) (s : μ) :
    ∃ t, GetThreshold rnd hist s = .ok t s ∧ t < 256 ∧ Splits (entry hist) t ∧
      ∀ i, Splits (entry hist) i → variance (entry hist) i ≤ variance (entry hist) t + 1 / 2 ^ 31 := by
  obtain ⟨t, h1, h2, h3, _⟩ := C35_threshold_partial r hl ht s
  obtain ⟨h4, h5⟩ := h3 hs
  refine ⟨t, h1, h2, h4, fun i hi => ?_⟩
  have q1 := abs_le.1 (sigmaAt_rounded r hw hi)
  have q2 := abs_le.1 (sigmaAt_rounded r hw h4)
  have q3 := (h5 i hi).1
  norm_num at q1 q2 ⊢
  linarith [q1.1, q2.2]

/-- A histogram of 61 million pixels. -/
def bigHist : List UInt32 :=
  (List.range 256).map fun k => if k = 0 then 31000000 else if k = 100 then 10000000 else if k = 255 then 20000000 else 0

/-- C75 does not hold for every image: the sum of the values of 61 million pixels does not fit 32 bits
    and the result is not the best split. -/
theorem C75_wrong : cum (entry bigHist) 256 = 61000000 ∧ outcome (GetThreshold id bigHist ()) = some (some 0) ∧
    Splits (entry bigHist) 100 ∧ variance (entry bigHist) 0 < variance (entry bigHist) 100 :=
  ⟨by decide +kernel, by decide +kernel, ⟨by decide +kernel, by decide +kernel⟩, by decide +kernel⟩

/-! ### Concrete cases -/

/-- Two groups of values. -/
def smallHist : List UInt32 := (List.range 256).map fun k => if k = 10 ∨ k = 12 then 3 else if k = 200 then 4 else 0

theorem smallHist_ok : smallHist.length = 256 ∧ cum (entry smallHist) 256 < 2 ^ 32 ∧
    cum (fun k => k * entry smallHist k) 256 < 2 ^ 32 ∧ ∃ i, Splits (entry smallHist) i :=
  ⟨by decide +kernel, by decide +kernel, by decide +kernel, 10, by decide +kernel, by decide +kernel⟩

example : outcome (GetThreshold id smallHist ()) = some (some 12) := by decide +kernel
example := C75_rounded_partial Rounding.double smallHist_ok.1 smallHist_ok.2.1 smallHist_ok.2.2.1 smallHist_ok.2.2.2 ()
example : outcome (GetThreshold double smallHist ()) = some (some 12) := by decide +kernel

end PV.Props
