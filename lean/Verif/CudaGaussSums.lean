import Verif.KissConv
/-
  Sums for PropsCudaGauss.lean.
-/
namespace PV.CudaGauss
open PV PV.Kiss Finset

/-- A reflected sum -/
theorem sum_refl {A : Type} [AddCommMonoid A] {n x : Nat} (hx : x < n) (g : Nat → A) : ∑ t ∈ range n, g ((x + n - t) % n) = ∑ t ∈ range n, g t := by
  have key : ∀ t, t < n → (x + n - (x + n - t) % n) % n = t := by
    intro t ht
    by_cases h : t ≤ x
    · rw [show x + n - t = x - t + n by omega, Nat.add_mod_right, Nat.mod_eq_of_lt (by omega : x - t < n), show x + n - (x - t) = t + n by omega,
        Nat.add_mod_right, Nat.mod_eq_of_lt ht]
    · rw [Nat.mod_eq_of_lt (by omega : x + n - t < n), show x + n - (x + n - t) = t by omega, Nat.mod_eq_of_lt ht]
  refine Finset.sum_nbij' (fun t => (x + n - t) % n) (fun t => (x + n - t) % n) ?_ ?_ ?_ ?_ ?_
  · exact fun t _ => Finset.mem_range.2 (Nat.mod_lt _ (by omega))
  · exact fun t _ => Finset.mem_range.2 (Nat.mod_lt _ (by omega))
  · exact fun t ht => key t (Finset.mem_range.1 ht)
  · exact fun t ht => key t (Finset.mem_range.1 ht)
  · exact fun t _ => rfl

/-- A sum of which only a window counts -/
theorem sum_win {A : Type} [AddCommMonoid A] {f : Nat → A} {a t w : Nat} (hw : a + t ≤ w) (hz : ∀ x, x < w → ¬ (a ≤ x ∧ x < a + t) → f x = 0) :
    ∑ x ∈ range w, f x = ∑ i ∈ range t, f (a + i) := by
  obtain ⟨r, rfl⟩ := Nat.le.dest hw
  rw [Finset.sum_range_add, Finset.sum_range_add, Finset.sum_eq_zero (s := range a), Finset.sum_eq_zero (s := range r), zero_add, add_zero]
  · exact fun x hx => hz _ (by have := Finset.mem_range.1 hx; omega) (by omega)
  · exact fun x hx => hz _ (by have := Finset.mem_range.1 hx; omega) (by have := Finset.mem_range.1 hx; omega)

/-- A number equal to its conjugate. Not in the code: for statements and proofs. -/
def Real' (z : ℂ) : Prop := (starRingEnd ℂ) z = z

theorem Real'.im {z : ℂ} (h : Real' z) : z.im = 0 := Complex.conj_eq_iff_im.mp h

theorem conj_root (inverse : Bool) (n : Nat) : (starRingEnd ℂ) (root inverse n) = root (!inverse) n := by
  rw [root, root, ← Complex.exp_conj]
  congr 1
  have h2 : (starRingEnd ℂ) 2 = 2 := map_ofNat _ 2
  cases inverse <;> simp [h2]

/-- Row by row -/
theorem sum_rows {A : Type} [AddCommMonoid A] (g : Nat → A) (w h : Nat) : ∑ y ∈ range h, ∑ x ∈ range w, g (y * w + x) = ∑ i ∈ range (h * w), g i := by
  induction h with
  | zero => simp
  | succ h ih => rw [Finset.sum_range_succ, ih, Nat.succ_mul, Finset.sum_range_add]

/-- A sum of real values which are symmetric, with the powers of a root, is real. -/
theorem sum_real {n : Nat} {g : Nat → ℂ} (hg : ∀ x, x < n → Real' (g x)) (hs : ∀ x, x < n → g ((n - x) % n) = g x) (u : Nat) :
    Real' (∑ x ∈ range n, g x * root false n ^ (x * u)) := by
  cases Nat.eq_zero_or_pos n with
  | inl h0 => subst h0; simp [Real']
  | inr hn =>
    rw [Real', map_sum]
    have e : ∀ x ∈ range n, (starRingEnd ℂ) (g x * root false n ^ (x * u)) = g ((0 + n - x) % n) * root false n ^ ((0 + n - x) % n * u) := by
      intro x hx
      have hx := Finset.mem_range.1 hx
      rw [map_mul, hg x hx, map_pow, conj_root, Nat.zero_add, hs x hx]
      congr 1
      show root true n ^ (x * u) = _
      have h1 : root false n ^ ((n - x) % n) = root true n ^ x := by
        have h2 : root false n ^ ((n - x) % n) = root false n ^ (n - x) := by
          cases Nat.eq_zero_or_pos x with
          | inl h => rw [h, Nat.sub_zero, Nat.mod_self, pow_zero, root_one false hn]
          | inr h => rw [Nat.mod_eq_of_lt (by omega)]
        rw [h2]
        have h3 : root false n ^ (n - x) * root false n ^ x = 1 := by rw [← pow_add, show n - x + x = n by omega, root_one false hn]
        have h4 : root true n ^ x * root false n ^ x = 1 := by rw [← mul_pow, mul_comm, root_mul, one_pow]
        have h5 : root false n ^ x ≠ 0 := fun h => by rw [h, mul_zero] at h4; exact zero_ne_one h4
        exact mul_right_cancel₀ h5 (h3.trans h4.symm)
      rw [pow_mul, pow_mul, h1]
    rw [Finset.sum_congr rfl e, sum_refl hn (fun t => g t * root false n ^ (t * u))]

/-- The transform of real values which are symmetric in both directions is real. -/
theorem dftR_real {w h : Nat} {f : Nat → ℂ} (hg : ∀ x y, x < w → y < h → Real' (f (y * w + x)))
    (hx : ∀ x y, x < w → y < h → f (y * w + (w - x) % w) = f (y * w + x)) (hy : ∀ x y, x < w → y < h → f ((h - y) % h * w + x) = f (y * w + x)) (u v : Nat) :
    Real' (dftR (root false w) (root false h) w h f u v) := by
  have e : dftR (root false w) (root false h) w h f u v = ∑ y ∈ range h, (∑ x ∈ range w, f (y * w + x) * root false w ^ (x * u)) * root false h ^ (y * v) := by
    rw [dftR]
    refine Finset.sum_congr rfl fun y _ => ?_
    rw [Finset.sum_mul]
    exact Finset.sum_congr rfl fun x _ => by ring
  rw [e]
  refine sum_real (fun y hyr => sum_real (fun x hxr => hg x y hxr hyr) (fun x hxr => hx x y hxr hyr) u) (fun y hyr => ?_) v
  exact Finset.sum_congr rfl fun x hxr => by rw [hy x y (Finset.mem_range.1 hxr) hyr]

/-- The cyclic convolution of real values. Not in the code: for statements and proofs. -/
noncomputable def cyclicR (w h : Nat) (f g : Nat → ℝ) (x y : Nat) : ℝ :=
  ∑ y' ∈ range h, ∑ x' ∈ range w, f (y' * w + x') * g ((y + h - y') % h * w + (x + w - x') % w)

/-- The factors can be exchanged. -/
theorem cyclicR_comm {w h : Nat} (f g : Nat → ℝ) {x y : Nat} (hx : x < w) (hy : y < h) :
    cyclicR w h f g x y = ∑ y' ∈ range h, ∑ x' ∈ range w, f ((y + h - y') % h * w + (x + w - x') % w) * g (y' * w + x') := by
  have back : ∀ {n a t : Nat}, a < n → t < n → (a + n - (a + n - t) % n) % n = t := by
    intro n x t hx ht
    by_cases h : t ≤ x
    · rw [show x + n - t = x - t + n by omega, Nat.add_mod_right, Nat.mod_eq_of_lt (by omega : x - t < n), show x + n - (x - t) = t + n by omega,
        Nat.add_mod_right, Nat.mod_eq_of_lt ht]
    · rw [Nat.mod_eq_of_lt (by omega : x + n - t < n), show x + n - (x + n - t) = t by omega, Nat.mod_eq_of_lt ht]
  rw [cyclicR, ← sum_refl hy (fun y' => ∑ x' ∈ range w, f ((y + h - y') % h * w + (x + w - x') % w) * g (y' * w + x'))]
  refine Finset.sum_congr rfl fun y' hy' => ?_
  rw [back hy (Finset.mem_range.1 hy'), ← sum_refl hx (fun x' => f (y' * w + (x + w - x') % w) * g ((y + h - y') % h * w + x'))]
  refine Finset.sum_congr rfl fun x' hx' => ?_
  rw [back hx (Finset.mem_range.1 hx')]

/-- A mean of values in a range is in the range. -/
theorem cyclicR_range {w h : Nat} {f g : Nat → ℝ} {c : ℝ} (hf : ∀ i, i < h * w → 0 ≤ f i ∧ f i ≤ c) (hg : ∀ i, i < h * w → 0 ≤ g i)
    (hs : ∑ y ∈ range h, ∑ x ∈ range w, g (y * w + x) = 1) {x y : Nat} (hx : x < w) (hy : y < h) :
    0 ≤ cyclicR w h f g x y ∧ cyclicR w h f g x y ≤ c := by
  have lt : ∀ {a b : Nat}, a < w → b < h → b * w + a < h * w := fun ha hb => by
    have := Nat.mul_le_mul_right w hb
    rw [Nat.succ_mul] at this
    omega
  rw [cyclicR_comm f g hx hy]
  constructor
  · refine Finset.sum_nonneg fun y' hy' => Finset.sum_nonneg fun x' hx' => mul_nonneg (hf _ ?_).1 (hg _ ?_)
    · exact lt (Nat.mod_lt _ (by omega)) (Nat.mod_lt _ (by omega))
    · exact lt (Finset.mem_range.1 hx') (Finset.mem_range.1 hy')
  · calc _ ≤ ∑ y' ∈ range h, ∑ x' ∈ range w, c * g (y' * w + x') := by
          refine Finset.sum_le_sum fun y' hy' => Finset.sum_le_sum fun x' hx' => mul_le_mul_of_nonneg_right (hf _ ?_).2 (hg _ ?_)
          · exact lt (Nat.mod_lt _ (by omega)) (Nat.mod_lt _ (by omega))
          · exact lt (Finset.mem_range.1 hx') (Finset.mem_range.1 hy')
      _ = c * ∑ y ∈ range h, ∑ x ∈ range w, g (y * w + x) := by
          rw [Finset.mul_sum]
          exact Finset.sum_congr rfl fun y' _ => by rw [Finset.mul_sum]
      _ = c := by rw [hs, mul_one]

end PV.CudaGauss
