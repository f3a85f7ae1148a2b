import Mathlib.Data.Int.Log
import Mathlib.Analysis.Real.Pi.Bounds
import Mathlib.Analysis.SpecialFunctions.Trigonometric.Bounds
import Mathlib.Analysis.Complex.Exponential
import Verif.KissFlLemmas
import Verif.PropsKiss
/-
  C178: the Fourier transforms, the inverse of the direct one and the convolution with rounded arithmetic.

  The specification is that of C128, C129 and C130: `fourier` and `cyclic` of PropsKiss.lean.  `RealErr rnd u` (KissFlLemmas.lean) says that
  every operation has a relative error of at most u, `Table tab u` that the sines and cosines computed by the library are exact up to u,
  `effort n` is the sum of q + 4 over the prime factors q of n with multiplicity.
-/
namespace PV.Props
open PV PV.Kiss Finset
open PV.KissFl (RealErr Table effort)

/-! ### Specification -/

/-- An executor made for w x h values with a table of twiddle factors; both allocations succeeded. -/
structure MadeFl (tab : Nat → Bool → Nat → ℂ) (e : Executor) (w h : Nat) : Prop where
  made : ∃ jd ji, KissFl.init tab ⟨some jd, some ji⟩ w h () = .ok e ()
  wpos : 0 < w
  hpos : 0 < h
  small : w * h ≤ 1073741824

/-- The sum of the absolute values -/
noncomputable def absSum (n : Nat) (f : Nat → ℂ) : ℝ := ∑ j ∈ range n, ‖f j‖

/-- By how much a transform of w x h values multiplies errors -/
noncomputable def factorFl (u : ℝ) (w h : Nat) : ℝ := (1 + u) ^ (4 * (effort w + effort h))

variable {rnd : ℝ → ℝ} {u : ℝ} {tab : Nat → Bool → Nat → ℂ} {e : Executor} {w h : Nat}

/-! ### Helpers -/

theorem factorFl_ge (hu : 0 ≤ u) (w h : Nat) : 1 ≤ factorFl u w h := KissFl.one_le_g hu _

theorem absSum_nonneg (n : Nat) (f : Nat → ℂ) : 0 ≤ absSum n f := Finset.sum_nonneg fun _ _ => norm_nonneg _

theorem plan_fl (hr : RealErr rnd u) (ht : Table tab u) (inverse : Bool) (junk : Nat → ℂ) (hw : 0 < w) (hh : 0 < h) (hs : w * h ≤ 1073741824) :
    ∃ pl, KissFl.planAlloc tab w h inverse junk () = .ok pl () ∧ ∀ fin fout : Arr ℂ, fin.len = w * h → fout.len = w * h →
      ∃ c, KissFl.nd rnd pl fin fout () = .ok c () ∧ c.len = w * h ∧
        ∀ i k, i < w → k < h → ‖c.at' (i * h + k) - fourier (if inverse then 1 else -1) h w fin.at' k i‖ ≤ (factorFl u w h - 1) * absSum (w * h) fin.at' := by
  obtain ⟨pl, Lw, Lh, e1, f1, f2, g⟩ := KissFl.nd_ok hr ht (inverse := inverse) (junk := junk) hw hh hs
  refine ⟨pl, e1, fun fin fout h1 h2 => ?_⟩
  obtain ⟨c, k1, k2, k3⟩ := g fin fout h1 h2
  refine ⟨c, k1, k2, fun i k hi hk => ?_⟩
  rw [← dftR_fourier]
  refine (k3 i k hi hk).trans (mul_le_mul_of_nonneg_right ?_ (absSum_nonneg _ _))
  have c1 := KissFl.factor_cost hw f1
  have c2 := KissFl.factor_cost hh f2
  have g1 := KissFl.growth_le hr.nonneg Lw
  have g2 := KissFl.growth_le hr.nonneg Lh
  have g3 := KissFl.growth_ge hr.nonneg Lh
  have hp : ∀ {a b : Nat}, a ≤ b → (1 + u) ^ (4 * a) ≤ (1 + u) ^ (4 * b) := fun hab => pow_le_pow_right₀ (by have := hr.nonneg; linarith) (by omega)
  have := mul_le_mul (g1.trans (hp c1)) (g2.trans (hp c2)) (by linarith) (by have := hr.nonneg; positivity)
  rw [← pow_add, ← Nat.mul_add] at this
  rw [factorFl]
  linarith

theorem init_run_fl {jd ji : Nat → ℂ} {pd pi : Plan} (hw : 0 < w) (hh : 0 < h) (e1 : KissFl.planAlloc tab w h false jd () = .ok pd ())
    (e2 : KissFl.planAlloc tab w h true ji () = .ok pi ()) : KissFl.init tab ⟨some jd, some ji⟩ w h () = .ok ⟨w, h, some pd, some pi⟩ () := by
  have ht : throwIf (μ := Unit) (w == 0 || h == 0) () = .ok () () := by
    have : (w == 0 || h == 0) = false := by simp; omega
    rw [this]
    rfl
  have k1 : KissFl.makePlan tab w h false (some jd) () = .ok (some pd) () := (bind_ok e1).trans rfl
  have k2 : KissFl.makePlan tab w h true (some ji) () = .ok (some pi) () := (bind_ok e2).trans rfl
  exact (bind_ok ht).trans ((bind_ok k1).trans ((bind_ok k2).trans rfl))

theorem transform_run_fl {pl : Plan} {a b c : Arr ℂ} (he : e.width = w ∧ e.height = h) (hn : KissFl.nd rnd pl a b () = .ok c ()) :
    KissFl.transform rnd e (some pl) ⟨w, h, some a⟩ ⟨w, h, some b⟩ () = .ok ⟨w, h, some c⟩ () := by
  have ht : throwIf (μ := Unit) ((some pl).isNone || !(e.width == w && e.height == h) || !(w == w && h == h)) () = .ok () () := by
    rw [he.1, he.2]
    simp [throwIf_false]
  exact (bind_ok ht).trans ((bind_ok hn).trans rfl)

/-- Both transforms of an executor -/
theorem both_fl (hr : RealErr rnd u) (ht : Table tab u) (he : MadeFl tab e w h) {a b : Arr ℂ} (ha : a.len = w * h) (hb : b.len = w * h) :
    (∃ c, KissFl.directTransform rnd e ⟨w, h, some a⟩ ⟨w, h, some b⟩ () = .ok ⟨w, h, some c⟩ () ∧ c.len = w * h ∧
      ∀ i k, i < w → k < h → ‖c.at' (i * h + k) - fourier (-1) h w a.at' k i‖ ≤ (factorFl u w h - 1) * absSum (w * h) a.at') ∧
    (∃ c, KissFl.inverseTransform rnd e ⟨w, h, some a⟩ ⟨w, h, some b⟩ () = .ok ⟨w, h, some c⟩ () ∧ c.len = w * h ∧
      ∀ i k, i < w → k < h → ‖c.at' (i * h + k) - fourier 1 h w a.at' k i‖ ≤ (factorFl u w h - 1) * absSum (w * h) a.at') := by
  obtain ⟨⟨jd, ji, hi⟩, hw, hh, hs⟩ := he
  obtain ⟨pd, e1, g1⟩ := plan_fl hr ht false jd hw hh hs
  obtain ⟨pi, e2, g2⟩ := plan_fl hr ht true ji hw hh hs
  rw [init_run_fl hw hh e1 e2] at hi
  injection hi with hi
  subst hi
  obtain ⟨c, k1, k2, k3⟩ := g1 a b ha hb
  obtain ⟨d, l1, l2, l3⟩ := g2 a b ha hb
  exact ⟨⟨c, transform_run_fl ⟨rfl, rfl⟩ k1, k2, k3⟩, ⟨d, transform_run_fl ⟨rfl, rfl⟩ l1, l2, l3⟩⟩

theorem sum_grid_fl (F : Nat → ℝ) (h w : Nat) : ∑ y ∈ range w, ∑ x ∈ range h, F (y * h + x) = ∑ j ∈ range (w * h), F j := by
  have := sum_classes (fun n => ((F n : ℝ) : ℂ)) h w
  have h2 : ∑ n ∈ range (h * w), F n = ∑ q ∈ range h, ∑ t ∈ range w, F (q + h * t) := by exact_mod_cast this
  rw [Nat.mul_comm w h, h2, Finset.sum_comm]
  exact Finset.sum_congr rfl fun x _ => Finset.sum_congr rfl fun y _ => by rw [Nat.mul_comm y, Nat.add_comm]

theorem fourier_sub (s : ℂ) (f g : Nat → ℂ) (p q : Nat) : fourier s h w f p q - fourier s h w g p q = fourier s h w (fun j => f j - g j) p q := by
  simp only [fourier, ← Finset.sum_sub_distrib, ← sub_mul]

/-- A transform is at most the sum of the absolute values. -/
theorem fourier_norm {s : ℂ} (hs : s = 1 ∨ s = -1) (f : Nat → ℂ) (p q : Nat) : ‖fourier s h w f p q‖ ≤ absSum (w * h) f := by
  rw [absSum, ← sum_grid_fl (fun j => ‖f j‖)]
  refine norm_sum_le_of_le _ fun y _ => norm_sum_le_of_le _ fun x _ => ?_
  have h1 : ‖Complex.exp (s * (2 * Real.pi * Complex.I) * ((p : ℂ) * x / h + q * y / w))‖ = 1 := by
    have e1 : ∃ t : ℝ, s * (2 * Real.pi * Complex.I) * ((p : ℂ) * x / h + q * y / w) = t * Complex.I := by
      rcases hs with rfl | rfl
      · exact ⟨2 * Real.pi * ((p : ℝ) * x / h + q * y / w), by push_cast; ring⟩
      · exact ⟨-(2 * Real.pi * ((p : ℝ) * x / h + q * y / w)), by push_cast; ring⟩
    obtain ⟨t, ht⟩ := e1
    rw [ht, Complex.norm_exp_ofReal_mul_I]
  rw [norm_mul, h1, mul_one]

/-- Every index is i h + k. -/
theorem grid_index_fl {j : Nat} (hh : 0 < h) (hj : j < w * h) : j / h < w ∧ j % h < h ∧ j / h * h + j % h = j :=
  ⟨Nat.div_lt_of_lt_mul (by rwa [Nat.mul_comm]), Nat.mod_lt j hh, by rw [Nat.mul_comm]; exact Nat.div_add_mod j h⟩

/-! ### C178 -/

/-- C178: the direct transform is the Fourier transform of the values (taken as w rows of h values, see C128) up to an error which is
    relative to the sum of the absolute values.  The input and the output may be the same object. -/
theorem C178_direct (hr : RealErr rnd u) (ht : Table tab u) (he : MadeFl tab e w h) {a b : Arr ℂ} (ha : a.len = w * h) (hb : b.len = w * h) :
    ∃ c, KissFl.directTransform rnd e ⟨w, h, some a⟩ ⟨w, h, some b⟩ () = .ok ⟨w, h, some c⟩ () ∧ c.len = w * h ∧
      ∀ i k, i < w → k < h → ‖c.at' (i * h + k) - fourier (-1) h w a.at' k i‖ ≤ (factorFl u w h - 1) * absSum (w * h) a.at' :=
  (both_fl hr ht he ha hb).1

theorem C178_inverse (hr : RealErr rnd u) (ht : Table tab u) (he : MadeFl tab e w h) {a b : Arr ℂ} (ha : a.len = w * h) (hb : b.len = w * h) :
    ∃ c, KissFl.inverseTransform rnd e ⟨w, h, some a⟩ ⟨w, h, some b⟩ () = .ok ⟨w, h, some c⟩ () ∧ c.len = w * h ∧
      ∀ i k, i < w → k < h → ‖c.at' (i * h + k) - fourier 1 h w a.at' k i‖ ≤ (factorFl u w h - 1) * absSum (w * h) a.at' :=
  (both_fl hr ht he ha hb).2

/-- For the sizes for which C128 holds: the coefficient of the frequencies p and q of w x h values. -/
theorem C178_direct_symmetric (hr : RealErr rnd u) (ht : Table tab u) (he : MadeFl tab e w h) (hs : Symmetric w h) {a b : Arr ℂ} (ha : a.len = w * h) (hb : b.len = w * h) :
    ∃ c, KissFl.directTransform rnd e ⟨w, h, some a⟩ ⟨w, h, some b⟩ () = .ok ⟨w, h, some c⟩ () ∧
      ∀ p q, p < w → q < h → ‖c.at' (q * w + p) - fourier (-1) w h a.at' p q‖ ≤ (factorFl u w h - 1) * absSum (w * h) a.at' := by
  obtain ⟨c, k1, -, k3⟩ := C178_direct hr ht he ha hb
  have hh := he.hpos
  refine ⟨c, k1, fun p q hp hq => ?_⟩
  -- the exact values in the order of the output
  have := shape_swap (F := fun j => fourier (-1) h w a.at' (j % h) (j / h)) (f := a.at') (s := -1) hs (fun i k _ hk => by
    rw [show (i * h + k) % h = k by rw [Nat.add_comm, Nat.add_mul_mod_self_right, Nat.mod_eq_of_lt hk],
      show (i * h + k) / h = i by rw [Nat.add_comm, Nat.add_mul_div_right _ _ hh, Nat.div_eq_of_lt hk, Nat.zero_add]]) hp hq
  have hlt : q * w + p < w * h := by
    have : (q + 1) * w ≤ h * w := Nat.mul_le_mul_right _ hq
    rw [Nat.add_mul, Nat.one_mul, Nat.mul_comm h] at this
    omega
  obtain ⟨g1, g2, g3⟩ := grid_index_fl hh hlt
  have k := k3 _ _ g1 g2
  rw [g3] at k
  rw [← this]
  exact k

/-- If u is small the error is about 8 (effort w + effort h) u times the sum of the absolute values, at most. -/
theorem C178_small (hu : 0 ≤ u) (hs : 4 * (effort w + effort h : ℕ) * u ≤ 1) : factorFl u w h - 1 ≤ 8 * (effort w + effort h : ℕ) * u := by
  have h1 : factorFl u w h ≤ Real.exp (4 * (effort w + effort h : ℕ) * u) := by
    rw [factorFl]
    have h2 : (1 + u) ^ (4 * (effort w + effort h)) ≤ (Real.exp u) ^ (4 * (effort w + effort h)) :=
      pow_le_pow_left₀ (by linarith) (by have := Real.add_one_le_exp u; linarith) _
    rw [← Real.exp_nat_mul] at h2
    push_cast at h2 ⊢
    exact h2
  have hx : 0 ≤ 4 * (effort w + effort h : ℕ) * u := by positivity
  have h3 := Real.abs_exp_sub_one_le (x := 4 * (effort w + effort h : ℕ) * u) (by rw [abs_of_nonneg hx]; exact hs)
  rw [abs_of_nonneg hx] at h3
  have h4 := le_abs_self (Real.exp (4 * (effort w + effort h : ℕ) * u) - 1)
  linarith

/-- C178: the inverse transform of the direct transform is the original data times the number of values, for every size, up to an error
    which is relative to the sum of the absolute values. -/
theorem C178_inverse_direct (hr : RealErr rnd u) (ht : Table tab u) (he : MadeFl tab e w h) {a b b' : Arr ℂ} (ha : a.len = w * h) (hb : b.len = w * h) (hb' : b'.len = w * h) :
    ∃ c d, KissFl.directTransform rnd e ⟨w, h, some a⟩ ⟨w, h, some b⟩ () = .ok ⟨w, h, some c⟩ () ∧
      KissFl.inverseTransform rnd e ⟨w, h, some c⟩ ⟨w, h, some b'⟩ () = .ok ⟨w, h, some d⟩ () ∧ d.len = w * h ∧
      ∀ j, j < w * h → ‖d.at' j - (w * h : ℂ) * a.at' j‖ ≤ (w * h : ℝ) * ((factorFl u w h ^ 2 - 1) * absSum (w * h) a.at') := by
  have hh := he.hpos
  obtain ⟨c, k1, k2, k3⟩ := C178_direct hr ht he ha hb
  obtain ⟨d, l1, l2, l3⟩ := C178_inverse hr ht he k2 hb'
  refine ⟨c, d, k1, l1, l2, fun j hj => ?_⟩
  obtain ⟨hi, hk, hj'⟩ := grid_index_fl hh hj
  have hg := factorFl_ge hr.nonneg w h
  have hS := absSum_nonneg (w * h) a.at'
  generalize factorFl u w h = g at k3 l3 hg ⊢
  obtain ⟨F, hF⟩ : ∃ F : Nat → ℂ, ∀ j, F j = fourier (-1) h w a.at' (j % h) (j / h) := ⟨_, fun _ => rfl⟩
  have hdm : ∀ x y, x < h → (y * h + x) % h = x ∧ (y * h + x) / h = y := fun x y hx =>
    ⟨by rw [Nat.add_comm, Nat.add_mul_mod_self_right, Nat.mod_eq_of_lt hx],
      by rw [Nat.add_comm, Nat.add_mul_div_right _ _ hh, Nat.div_eq_of_lt hx, Nat.zero_add]⟩
  have hcF : ∀ j, j < w * h → ‖c.at' j - F j‖ ≤ (g - 1) * absSum (w * h) a.at' := fun j hj => by
    obtain ⟨i1, i2, i3⟩ := grid_index_fl hh hj
    have := k3 _ _ i1 i2
    rw [i3] at this
    rw [hF]
    exact this
  have hFn : ∀ j, ‖F j‖ ≤ absSum (w * h) a.at' := fun j => by rw [hF]; exact fourier_norm (.inr rfl) _ _ _
  have hcn : absSum (w * h) c.at' ≤ (w * h : ℝ) * (g * absSum (w * h) a.at') := by
    have : ∀ j ∈ range (w * h), ‖c.at' j‖ ≤ g * absSum (w * h) a.at' := fun j hj => by
      have h1 := hcF j (Finset.mem_range.1 hj)
      have h2 := norm_add_le (c.at' j - F j) (F j)
      rw [sub_add_cancel] at h2
      have h3 := hFn j
      linarith
    have := Finset.sum_le_card_nsmul _ _ _ this
    rw [Finset.card_range, nsmul_eq_mul] at this
    rw [absSum]
    exact_mod_cast this
  have hdF : absSum (w * h) (fun j => c.at' j - F j) ≤ (w * h : ℝ) * ((g - 1) * absSum (w * h) a.at') := by
    have := Finset.sum_le_card_nsmul (range (w * h)) (fun j => ‖c.at' j - F j‖) _ fun j hj => hcF j (Finset.mem_range.1 hj)
    rw [Finset.card_range, nsmul_eq_mul] at this
    rw [absSum]
    exact_mod_cast this
  have hinv : fourier 1 h w F (j % h) (j / h) = (w * h : ℂ) * a.at' j := by
    rw [← dftR_inv h w, dftR_inverse (f := a.at') (fun p q hp hq => by rw [hF, (hdm p q hp).1, (hdm p q hp).2, dftR_direct]) hk hi, hj', mul_comm (h : ℂ)]
  have d1 := l3 _ _ hi hk
  rw [hj'] at d1
  have d2 := fourier_norm (h := h) (w := w) (s := 1) (.inl rfl) (fun j => c.at' j - F j) (j % h) (j / h)
  rw [← fourier_sub, hinv] at d2
  have h3 := norm_add_le (d.at' j - fourier 1 h w c.at' (j % h) (j / h)) (fourier 1 h w c.at' (j % h) (j / h) - (w * h : ℂ) * a.at' j)
  rw [sub_add_sub_cancel] at h3
  have h4 := mul_le_mul_of_nonneg_left hcn (by linarith : 0 ≤ g - 1)
  refine h3.trans ((add_le_add (d1.trans h4) (d2.trans hdF)).trans (le_of_eq ?_))
  ring

/-! ### Convolution -/

theorem multiplication_run_fl (hr : RealErr rnd u) {a b o : Arr ℂ} (hw : 0 < w) (hh : 0 < h) (hs : w * h < 4294967296) (ha : a.len = w * h) (hb : b.len = w * h) (ho : o.len = w * h) :
    ∃ c, KissFl.multiplication rnd ⟨w, h, some a⟩ ⟨w, h, some b⟩ ⟨w, h, some o⟩ () = .ok ⟨w, h, some c⟩ () ∧ c.len = w * h ∧
      ∀ j, j < w * h → ‖c.at' j - a.at' j * b.at' j‖ ≤ ((1 + u) ^ 4 - 1) * (‖a.at' j‖ * ‖b.at' j‖) := by
  have ht : throwIf (μ := Unit) (!(w == w && h == h) || !(w == w && h == h) || w == 0 || h == 0) () = .ok () () := by
    have : (!(w == w && h == h) || !(w == w && h == h) || w == 0 || h == 0) = false := by simp; omega
    rw [this]
    rfl
  obtain ⟨c, e, h1, h2⟩ := forN_inv (n := u32 (w * h)) (m := o)
    (body := fun k => do
      let p ← a.rd k
      let q ← b.rd k
      wrF k (KissFl.cmul rnd p q))
    (P := fun k c => c.len = o.len ∧ ∀ j, j < k → ‖c.at' j - a.at' j * b.at' j‖ ≤ ((1 + u) ^ 4 - 1) * (‖a.at' j‖ * ‖b.at' j‖))
    ⟨rfl, fun _ h => absurd h (by omega)⟩ (by
      rintro k c hk ⟨g1, g2⟩
      rw [u32_of_lt hs] at hk
      refine ⟨_, (bind_ok (Arr.rd_ok (by omega) c)).trans ((bind_ok (Arr.rd_ok (by omega) c)).trans (wrF_ok _ (by omega))), g1, fun j hj => ?_⟩
      rw [put_at]
      split
      · rename_i hjk
        rw [hjk]
        exact KissFl.cmul_err hr _ _
      · exact g2 j (by omega))
  rw [u32_of_lt hs] at h2
  exact ⟨c, (bind_ok ht).trans ((bind_ok (onBuf_ok e ())).trans rfl), h1.trans ho, h2⟩

/-- C178: transform both, multiply, transform back.  The result is the number of values times the cyclic convolution (of the values taken
    as w rows of h values, see C130), up to an error which is relative to the product of the sums of the absolute values. -/
theorem C178_convolution (hr : RealErr rnd u) (ht : Table tab u) (he : MadeFl tab e w h) {a b p q r s : Arr ℂ} (ha : a.len = w * h) (hb : b.len = w * h)
    (hp : p.len = w * h) (hq : q.len = w * h) (hrl : r.len = w * h) (hs : s.len = w * h) :
    ∃ F G P R, KissFl.directTransform rnd e ⟨w, h, some a⟩ ⟨w, h, some p⟩ () = .ok ⟨w, h, some F⟩ () ∧
      KissFl.directTransform rnd e ⟨w, h, some b⟩ ⟨w, h, some q⟩ () = .ok ⟨w, h, some G⟩ () ∧
      KissFl.multiplication rnd ⟨w, h, some F⟩ ⟨w, h, some G⟩ ⟨w, h, some r⟩ () = .ok ⟨w, h, some P⟩ () ∧
      KissFl.inverseTransform rnd e ⟨w, h, some P⟩ ⟨w, h, some s⟩ () = .ok ⟨w, h, some R⟩ () ∧ R.len = w * h ∧
      ∀ i k, i < w → k < h → ‖R.at' (i * h + k) - (w * h : ℂ) * cyclic h w a.at' b.at' k i‖ ≤
        (w * h : ℝ) * ((factorFl u w h ^ 3 * (1 + u) ^ 4 - 1) * (absSum (w * h) a.at' * absSum (w * h) b.at')) := by
  have hw := he.wpos
  have hh := he.hpos
  obtain ⟨F, f1, f2, f3⟩ := C178_direct hr ht he ha hp
  obtain ⟨G, g1, g2, g3⟩ := C178_direct hr ht he hb hq
  obtain ⟨P, p1, p2, p3⟩ := multiplication_run_fl hr hw hh (by have := he.small; omega) f2 g2 hrl
  obtain ⟨R, r1, r2, r3⟩ := C178_inverse hr ht he p2 hs
  refine ⟨F, G, P, R, f1, g1, p1, r1, r2, fun i k hi hk => ?_⟩
  have hg := factorFl_ge hr.nonneg w h
  have hA := absSum_nonneg (w * h) a.at'
  have hB := absSum_nonneg (w * h) b.at'
  have hv := KissFl.one_le_g hr.nonneg 4
  generalize factorFl u w h = g at f3 g3 r3 hg ⊢
  generalize (1 + u) ^ 4 = v at p3 hv ⊢
  obtain ⟨A, hAe⟩ : ∃ A : Nat → ℂ, ∀ j, A j = fourier (-1) h w a.at' (j % h) (j / h) := ⟨_, fun _ => rfl⟩
  obtain ⟨B, hBe⟩ : ∃ B : Nat → ℂ, ∀ j, B j = fourier (-1) h w b.at' (j % h) (j / h) := ⟨_, fun _ => rfl⟩
  have hAn : ∀ j, ‖A j‖ ≤ absSum (w * h) a.at' := fun j => by rw [hAe]; exact fourier_norm (.inr rfl) _ _ _
  have hBn : ∀ j, ‖B j‖ ≤ absSum (w * h) b.at' := fun j => by rw [hBe]; exact fourier_norm (.inr rfl) _ _ _
  generalize absSum (w * h) a.at' = α at f3 hA hAn ⊢
  generalize absSum (w * h) b.at' = β at g3 hB hBn ⊢
  have hdm : ∀ x y, x < h → (y * h + x) % h = x ∧ (y * h + x) / h = y := fun x y hx =>
    ⟨by rw [Nat.add_comm, Nat.add_mul_mod_self_right, Nat.mod_eq_of_lt hx],
      by rw [Nat.add_comm, Nat.add_mul_div_right _ _ hh, Nat.div_eq_of_lt hx, Nat.zero_add]⟩
  have hFA : ∀ j, j < w * h → ‖F.at' j - A j‖ ≤ (g - 1) * α := fun j hj => by
    obtain ⟨i1, i2, i3⟩ := grid_index_fl hh hj
    have := f3 _ _ i1 i2
    rw [i3] at this
    rw [hAe]
    exact this
  have hGB : ∀ j, j < w * h → ‖G.at' j - B j‖ ≤ (g - 1) * β := fun j hj => by
    obtain ⟨i1, i2, i3⟩ := grid_index_fl hh hj
    have := g3 _ _ i1 i2
    rw [i3] at this
    rw [hBe]
    exact this
  -- the products
  have hPe : ∀ j, j < w * h → ‖P.at' j - A j * B j‖ ≤ (g ^ 2 * v - 1) * (α * β) := fun j hj => by
    have n1 : ‖F.at' j‖ ≤ g * α := by
      have h2 := norm_add_le (F.at' j - A j) (A j)
      rw [sub_add_cancel] at h2
      have := hFA j hj
      have := hAn j
      linarith
    have n2 : ‖G.at' j‖ ≤ g * β := by
      have h2 := norm_add_le (G.at' j - B j) (B j)
      rw [sub_add_cancel] at h2
      have := hGB j hj
      have := hBn j
      linarith
    have t1 : ‖P.at' j - F.at' j * G.at' j‖ ≤ (v - 1) * (g * α * (g * β)) :=
      (p3 j hj).trans (mul_le_mul_of_nonneg_left (mul_le_mul n1 n2 (norm_nonneg _) (by positivity)) (by linarith))
    have t2 : ‖(F.at' j - A j) * G.at' j‖ ≤ (g - 1) * α * (g * β) := by
      rw [norm_mul]
      exact mul_le_mul (hFA j hj) n2 (norm_nonneg _) (mul_nonneg (by linarith) hA)
    have t3 : ‖A j * (G.at' j - B j)‖ ≤ α * ((g - 1) * β) := by
      rw [norm_mul]
      exact mul_le_mul (hAn j) (hGB j hj) (norm_nonneg _) hA
    rw [show P.at' j - A j * B j = P.at' j - F.at' j * G.at' j + ((F.at' j - A j) * G.at' j + A j * (G.at' j - B j)) by ring]
    refine (norm_add_le _ _).trans ((add_le_add t1 ((norm_add_le _ _).trans (add_le_add t2 t3))).trans (le_of_eq ?_))
    ring
  have hPn : absSum (w * h) P.at' ≤ (w * h : ℝ) * (g ^ 2 * v * (α * β)) := by
    have : ∀ j ∈ range (w * h), ‖P.at' j‖ ≤ g ^ 2 * v * (α * β) := fun j hj => by
      have h1 := hPe j (Finset.mem_range.1 hj)
      have h2 := norm_add_le (P.at' j - A j * B j) (A j * B j)
      rw [sub_add_cancel] at h2
      have h3 : ‖A j * B j‖ ≤ α * β := by
        rw [norm_mul]
        exact mul_le_mul (hAn j) (hBn j) (norm_nonneg _) hA
      linarith
    have := Finset.sum_le_card_nsmul _ _ _ this
    rw [Finset.card_range, nsmul_eq_mul] at this
    rw [absSum]
    exact_mod_cast this
  have hdP : absSum (w * h) (fun j => P.at' j - A j * B j) ≤ (w * h : ℝ) * ((g ^ 2 * v - 1) * (α * β)) := by
    have := Finset.sum_le_card_nsmul (range (w * h)) (fun j => ‖P.at' j - A j * B j‖) _ fun j hj => hPe j (Finset.mem_range.1 hj)
    rw [Finset.card_range, nsmul_eq_mul] at this
    rw [absSum]
    exact_mod_cast this
  have hconv := fun u v => dftR_conv (w := h) (h := w) (root_one false hh) (root_one false hw) (f := a.at') (g := b.at')
    (c := fun j => cyclic h w a.at' b.at' (j % h) (j / h)) (fun x y hx _ => by rw [(hdm x y hx).1, (hdm x y hx).2, cyclic]) u v
  have hinv : fourier 1 h w (fun j => A j * B j) k i = (w * h : ℂ) * cyclic h w a.at' b.at' k i := by
    rw [← dftR_inv h w, dftR_inverse (f := fun j => cyclic h w a.at' b.at' (j % h) (j / h)) (fun u v hu hv => ?_) hk hi]
    · rw [(hdm k i hk).1, (hdm k i hk).2, mul_comm (h : ℂ)]
    · rw [hconv, hAe, hBe, (hdm u v hu).1, (hdm u v hu).2, dftR_direct, dftR_direct]
  have d1 := r3 i k hi hk
  have d2 := fourier_norm (h := h) (w := w) (s := 1) (.inl rfl) (fun j => P.at' j - A j * B j) k i
  rw [← fourier_sub, hinv] at d2
  have h3 := norm_add_le (R.at' (i * h + k) - fourier 1 h w P.at' k i) (fourier 1 h w P.at' k i - (w * h : ℂ) * cyclic h w a.at' b.at' k i)
  rw [sub_add_sub_cancel] at h3
  have h4 := mul_le_mul_of_nonneg_left hPn (by linarith : 0 ≤ g - 1)
  refine h3.trans ((add_le_add (d1.trans h4) (d2.trans hdP)).trans (le_of_eq ?_))
  ring

/-! ### The exact programs -/

theorem cmul_id (a b : ℂ) : KissFl.cmul (fun x => x) a b = a * b := rfl

theorem cadd_id (a b : ℂ) : KissFl.cadd (fun x => x) a b = a + b := rfl

theorem csub_id (a b : ℂ) : KissFl.csub (fun x => x) a b = a - b := Complex.ext (by simp [KissFl.csub]) (by simp [KissFl.csub])

local notation "same" => (fun x : ℝ => x)

theorem turn_id (b : Bool) (x y : ℂ) : KissFl.turn same b x y = (if b then ⟨x.re - y.im, x.im + y.re⟩ else ⟨x.re + y.im, x.im - y.re⟩ : ℂ) := rfl

theorem bfly_id (o fs : Nat) (st : Cfg) (m p : Nat) : KissFl.bfly same o fs st m p = Kiss.bfly o fs st m p := by
  have hg : ∀ k s r, KissFl.genericSum same o fs st k s r = Kiss.genericSum o fs st k s r := by
    intro k s r
    induction r with
    | zero => rfl
    | succ r ih =>
      rw [KissFl.genericSum, Kiss.genericSum, ih]
      simp only [cmul_id, cadd_id]
  unfold KissFl.bfly Kiss.bfly
  split
  · simp only [KissFl.bfly2, Kiss.bfly2, cmul_id, cadd_id, csub_id]
  · simp only [KissFl.bfly3, Kiss.bfly3, cmul_id, cadd_id, csub_id]
  · simp only [KissFl.bfly4, Kiss.bfly4, cmul_id, cadd_id, csub_id, turn_id]
    cases st.inverse <;> rfl
  · simp only [KissFl.bfly5, Kiss.bfly5, cmul_id, cadd_id, csub_id]
  · simp only [KissFl.bflyGeneric, Kiss.bflyGeneric, KissFl.genericOut, Kiss.genericOut, hg]

theorem work_id (st : Cfg) (f : Arr ℂ) (is : Nat) (L : List (Nat × Nat)) : ∀ o i fs, KissFl.work same st f is L o i fs = Kiss.work st f is L o i fs := by
  induction L with
  | nil => intros; rfl
  | cons pm L ih =>
    intro o i fs
    obtain ⟨p, m⟩ := pm
    rw [KissFl.work, Kiss.work, bfly_id]
    simp only [ih]

/-- The programs with rounding are those of C128–C130 if nothing is rounded. -/
theorem C178_exact (e : Executor) (p q r : CData) (mal : Mallocs) :
    KissFl.init Kiss.twiddle mal w h = Kiss.init mal w h ∧ KissFl.directTransform same e p q = Kiss.directTransform e p q ∧
    KissFl.inverseTransform same e p q = Kiss.inverseTransform e p q ∧ KissFl.multiplication same p q r = Kiss.multiplication p q r := by
  have hnd : ∀ pl a b, KissFl.nd same pl a b = Kiss.nd pl a b := by
    intro pl a b
    simp only [KissFl.nd, Kiss.nd, KissFl.stage, Kiss.stage, KissFl.fftStride, Kiss.fftStride, work_id]
  have hpl : ∀ i x, KissFl.makePlan Kiss.twiddle w h i x = Kiss.makePlan w h i x := fun i x => by cases x <;> rfl
  refine ⟨?_, ?_, ?_, ?_⟩
  · simp only [KissFl.init, Kiss.init, hpl]
  · simp only [KissFl.directTransform, KissFl.transform, Kiss.directTransform, Kiss.transform, hnd]
  · simp only [KissFl.inverseTransform, KissFl.transform, Kiss.inverseTransform, Kiss.transform, hnd]
  · simp only [KissFl.multiplication, Kiss.multiplication, cmul_id]

/-- Objects of another size than the executor are rejected, nothing is written. -/
theorem C178_rejects (rnd : ℝ → ℝ) (e : Executor) (p q : CData) (hs : ¬ (p.width = e.width ∧ p.height = e.height ∧ q.width = e.width ∧ q.height = e.height)) :
    KissFl.directTransform rnd e p q () = .throw () ∧ KissFl.inverseTransform rnd e p q () = .throw () := by
  have : ∀ pl : Option Plan, KissFl.transform rnd e pl p q () = .throw () := by
    intro pl
    have hb : (pl.isNone || !(e.width == p.width && e.height == p.height) || !(p.width == q.width && p.height == q.height)) = true := by
      by_contra hc
      simp only [Bool.not_eq_true, Bool.or_eq_false_iff, Bool.not_eq_false', Bool.and_eq_true, beq_iff_eq] at hc
      omega
    rw [KissFl.transform, hb]
    rfl
  exact ⟨this _, this _⟩

/-! ### A rounding -/

/-- Rounding of real numbers to b + 1 bits (without limits of the exponent) -/
noncomputable def roundBits (b : Nat) (x : ℝ) : ℝ := round (x / 2 ^ (Int.log 2 |x| - b)) * 2 ^ (Int.log 2 |x| - b)

noncomputable abbrev round24 : ℝ → ℝ := roundBits 23

theorem RealErr.roundBits (b : Nat) : RealErr (roundBits b) (1 / 2 ^ (b + 1)) := by
  refine ⟨by positivity, fun x => ?_⟩
  rw [Props.roundBits]
  by_cases hx : x = 0
  · subst hx
    simp
  have h0 : 0 < |x| := abs_pos.2 hx
  have h1 := Int.zpow_log_le_self (R := ℝ) (b := 2) (by decide) h0
  have hd : (0 : ℝ) < 2 ^ (Int.log 2 |x| - b) := by positivity
  have h2 := abs_sub_round (x / 2 ^ (Int.log 2 |x| - b))
  rw [abs_sub_comm] at h2
  have e1 : (round (x / 2 ^ (Int.log 2 |x| - b)) : ℝ) * 2 ^ (Int.log 2 |x| - b) - x =
      (round (x / 2 ^ (Int.log 2 |x| - b)) - x / 2 ^ (Int.log 2 |x| - b)) * 2 ^ (Int.log 2 |x| - b) := by
    rw [sub_mul, div_mul_cancel₀ _ hd.ne']
  rw [e1, abs_mul, abs_of_pos hd]
  have h3 := mul_le_mul_of_nonneg_right h2 hd.le
  refine h3.trans ?_
  rw [zpow_sub₀ (by norm_num)]
  have h4 : ((2 : ℕ) : ℝ) ^ Int.log 2 |x| = 2 ^ Int.log 2 |x| := by norm_num
  rw [h4] at h1
  rw [zpow_natCast, pow_succ]
  have h5 : (0 : ℝ) < 2 ^ b := by positivity
  have h6 : (1 / 2 : ℝ) * (2 ^ Int.log 2 |x| / 2 ^ b) = 1 / (2 ^ b * 2) * 2 ^ Int.log 2 |x| := by field_simp
  rw [h6]
  exact mul_le_mul_of_nonneg_left h1 (by positivity)

theorem RealErr.round24 : RealErr round24 (1 / 2 ^ 24) := RealErr.roundBits 23

/-- The table of rounded sines and cosines -/
noncomputable def table24 (n : Nat) (inv : Bool) (k : Nat) : ℂ := ⟨round24 (twiddle n inv k).re, round24 (twiddle n inv k).im⟩

theorem Table.table24 : Table table24 (1 / 2 ^ 24) := by
  have key : ∀ x : ℝ, |x| ≤ 1 → |Props.round24 x - x| ≤ 1 / 2 ^ 24 := fun x hx => by
    have := RealErr.round24.err x
    nlinarith
  refine ⟨fun n inv k _ => ?_, fun n inv k _ => ?_⟩
  · have e := (KissFl.twiddle_parts n inv k).1
    rw [← twiddle_eq] at e
    rw [Props.table24, e]
    exact key _ (Real.abs_cos_le_one _)
  · have e := (KissFl.twiddle_parts n inv k).2
    rw [← twiddle_eq] at e
    rw [Props.table24, e]
    refine key _ ?_
    rw [abs_mul]
    have := Real.abs_sin_le_one (2 * Real.pi * k / n)
    cases inv <;> simp <;> exact this

/-- The functions of the library for `double`: at most 2^-50 away from cosine and sine (about 8 units in the last place of 1) -/
structure TrigLib (cosD sinD : ℝ → ℝ) : Prop where
  cos : ∀ x, |cosD x - Real.cos x| ≤ 1 / 2 ^ 50
  sin : ∀ x, |sinD x - Real.sin x| ≤ 1 / 2 ^ 50

/-- C178: the table the code makes, with phases in `double` and entries in `float`, is right up to 2^-23. -/
theorem C178_table {rd fl cosD sinD : ℝ → ℝ} (hd : RealErr rd (1 / 2 ^ 53)) (hf : RealErr fl (1 / 2 ^ 24)) (hl : TrigLib cosD sinD) :
    Table (KissFl.twiddle rd fl cosD sinD) (1 / 2 ^ 23) := by
  have hp1 := Real.pi_gt_d20
  have hp2 := Real.pi_lt_d20
  have m0 : KissFl.Maj (1 / 2 ^ 53) 1 Real.pi Real.pi 3.141592653589793238462643383279502884197169399375105820974944 := by
    refine ⟨by rw [abs_of_pos (by linarith)], abs_le.2 ⟨?_, ?_⟩⟩
    · norm_num at hp1 hp2 ⊢
      linarith
    · norm_num at hp1 hp2 ⊢
      linarith
  have m1 := (KissFl.Maj.exact (u := 1 / 2 ^ 53) (-2)).mul hd (m0.round hd)
  have key : ∀ n inv k, k < n → ∃ f : ℝ, KissFl.twiddle rd fl cosD sinD n inv k = ⟨fl (cosD f), fl (sinD f)⟩ ∧
      |f - (if inv then 1 else -1) * (2 * Real.pi * k / n)| ≤ 1 / 2 ^ 47 := by
    intro n inv k hk
    have hn : (0 : ℝ) < n := by exact_mod_cast (show 0 < n by omega)
    have hkn : (k : ℝ) ≤ n := by exact_mod_cast hk.le
    have m2 := (m1.mul hd (KissFl.Maj.exact (u := 1 / 2 ^ 53) (k : ℝ))).mul hd (KissFl.Maj.exact (u := 1 / 2 ^ 53) ((n : ℝ)⁻¹))
    have hX : |(-2 : ℝ)| * Real.pi * |(k : ℝ)| * |(n : ℝ)⁻¹| ≤ 6.3 := by
      rw [abs_of_nonneg (show (0 : ℝ) ≤ k from Nat.cast_nonneg k), abs_of_pos (inv_pos.2 hn), show |(-2 : ℝ)| = 2 by norm_num, ← div_eq_mul_inv, div_le_iff₀ hn]
      norm_num at hp2 ⊢
      nlinarith
    have m3 := (m2.weaken hd.nonneg (by omega : _ ≤ 6) hX)
    have m4 := (m3.mul hd (KissFl.Maj.exact (u := 1 / 2 ^ 53) (-1))).weaken hd.nonneg (by omega : _ ≤ 7) (show _ ≤ 6.3 by norm_num)
    rw [← div_eq_mul_inv] at m3 m4
    cases inv
    · refine ⟨_, rfl, ?_⟩
      have := m3.err
      simp only [Bool.false_eq_true, if_false]
      rw [show (-1 : ℝ) * (2 * Real.pi * k / n) = -2 * Real.pi * k * (n : ℝ)⁻¹ by rw [div_eq_mul_inv]; ring]
      exact this.trans (by norm_num)
    · refine ⟨_, rfl, ?_⟩
      have := m4.err
      simp only [if_true]
      rw [show (1 : ℝ) * (2 * Real.pi * k / n) = -2 * Real.pi * k * (n : ℝ)⁻¹ * -1 by rw [div_eq_mul_inv]; ring]
      exact this.trans (by norm_num)
  have fin : ∀ {x y z f g : ℝ}, |y| ≤ 1 → |x - y| ≤ 1 / 2 ^ 50 → |y - z| ≤ |f - g| → |f - g| ≤ 1 / 2 ^ 47 → |fl x - z| ≤ 1 / 2 ^ 23 := by
    intro x y z f g h1 h2 h3 h4
    have h5 := hf.err x
    have h6 := abs_add_le (x - y) y
    rw [sub_add_cancel] at h6
    have h7 := abs_sub_le (fl x) x z
    have h8 := abs_sub_le x y z
    norm_num at *
    linarith
  refine ⟨fun n inv k hk => ?_, fun n inv k hk => ?_⟩
  · obtain ⟨f, e, h⟩ := key n inv k hk
    rw [e]
    refine fin (Real.abs_cos_le_one f) (hl.cos f) ?_ h
    have := Real.abs_cos_sub_cos_le f ((if inv then 1 else -1) * (2 * Real.pi * k / n))
    cases inv
    · simpa using this
    · simpa using this
  · obtain ⟨f, e, h⟩ := key n inv k hk
    rw [e]
    refine fin (Real.abs_sin_le_one f) (hl.sin f) ?_ h
    have := Real.abs_sin_sub_sin_le f ((if inv then 1 else -1) * (2 * Real.pi * k / n))
    cases inv
    · simpa using this
    · simpa using this

theorem exists_made_fl (hr : RealErr rnd u) (ht : Table tab u) (hw : 0 < w) (hh : 0 < h) (hs : w * h ≤ 1073741824) : ∃ e, MadeFl tab e w h := by
  obtain ⟨pd, e1, -⟩ := plan_fl hr ht false (fun _ => 7) hw hh hs
  obtain ⟨pi, e2, -⟩ := plan_fl hr ht true (fun _ => 7) hw hh hs
  exact ⟨⟨w, h, some pd, some pi⟩, ⟨fun _ => 7, fun _ => 7, init_run_fl hw hh e1 e2⟩, hw, hh, hs⟩

theorem effort_512 : effort 512 = 54 := by
  have h2 : effort 2 = 6 := by rw [effort, Nat.primeFactorsList_prime Nat.prime_two]; rfl
  have h4 : effort 4 = 12 := by rw [show 4 = 2 * 2 from rfl, KissFl.effort_mul (by decide) (by decide), h2]
  have h16 : effort 16 = 24 := by rw [show 16 = 4 * 4 from rfl, KissFl.effort_mul (by decide) (by decide), h4]
  rw [show 512 = 16 * 16 * 2 from rfl, KissFl.effort_mul (by decide) (by decide), KissFl.effort_mul (by decide) (by decide), h16, h2]

/-- C178: the code as it is (`double` for the phases, `float` for the rest) with 512 x 512 values: the error is at most 1/9700 of the sum of
    the absolute values. -/
theorem C178_float {rd fl cosD sinD : ℝ → ℝ} (hd : RealErr rd (1 / 2 ^ 53)) (hf : RealErr fl (1 / 2 ^ 24)) (hl : TrigLib cosD sinD) :
    ∃ e, MadeFl (KissFl.twiddle rd fl cosD sinD) e 512 512 ∧ ∀ a b : Arr ℂ, a.len = 512 * 512 → b.len = 512 * 512 →
    ∃ c, KissFl.directTransform fl e ⟨512, 512, some a⟩ ⟨512, 512, some b⟩ () = .ok ⟨512, 512, some c⟩ () ∧
      ∀ p q, p < 512 → q < 512 → ‖c.at' (q * 512 + p) - fourier (-1) 512 512 a.at' p q‖ ≤ absSum (512 * 512) a.at' / 9700 := by
  have hf' : RealErr fl (1 / 2 ^ 23) := ⟨by positivity, fun a => (hf.err a).trans (mul_le_mul_of_nonneg_right (by norm_num) (abs_nonneg a))⟩
  have ht := C178_table hd hf hl
  obtain ⟨e, he⟩ := exists_made_fl (w := 512) (h := 512) hf' ht (by omega) (by omega) (by omega)
  refine ⟨e, he, fun a b ha hb => ?_⟩
  obtain ⟨c, k1, k2⟩ := C178_direct_symmetric hf' ht he (.inl rfl) ha hb
  refine ⟨c, k1, fun p q hp hq => (k2 p q hp hq).trans ?_⟩
  have hs := C178_small (u := 1 / 2 ^ 23) (w := 512) (h := 512) (by positivity) (by rw [effort_512]; norm_num)
  rw [effort_512] at hs
  have h1 : factorFl (1 / 2 ^ 23) 512 512 - 1 ≤ 1 / 9700 := hs.trans (by norm_num)
  have h2 := mul_le_mul_of_nonneg_right h1 (absSum_nonneg (512 * 512) a.at')
  linarith

example : ∃ e, MadeFl table24 e 7 12 := exists_made_fl RealErr.round24 Table.table24 (by omega) (by omega) (by omega)

example : RealErr (roundBits 52) (1 / 2 ^ 53) ∧ RealErr round24 (1 / 2 ^ 24) ∧ TrigLib Real.cos Real.sin :=
  ⟨RealErr.roundBits 52, RealErr.round24, fun x => by simp, fun x => by simp⟩

example : round24 (1 / 3) ≠ 1 / 3 := by
  intro hc
  rw [round24, roundBits] at hc
  have hl : Int.log 2 |(1 / 3 : ℝ)| = -2 := by
    rw [abs_of_pos (by norm_num), one_div, show ((3 : ℝ)⁻¹) = ((3 : ℕ) : ℝ)⁻¹ by norm_num, Int.log_inv, Int.clog_natCast]
    decide
  rw [hl] at hc
  generalize round ((1 / 3 : ℝ) / 2 ^ (-2 - (23 : ℕ) : ℤ)) = z at hc
  have h1 : (2 : ℝ) ^ (-2 - (23 : ℕ) : ℤ) = 1 / 33554432 := by norm_num
  rw [h1] at hc
  have h2 : (3 * z : ℝ) = 33554432 := by linarith
  have h3 : 3 * z = 33554432 := by exact_mod_cast h2
  omega

end PV.Props
