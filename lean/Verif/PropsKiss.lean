import Verif.KissConv
/-
  C128: the direct transform; C129: the inverse transform of the direct one; C130: convolution by complex multiplication.

  Numbers are exact (see Kiss.lean).
-/
namespace PV.Props
open PV PV.Kiss Finset

/-! ### Specification -/

/-- The two-dimensional Fourier transform of w x h values stored row by row: the coefficient of the frequencies u (along a row) and v.
    The sign is -1 for the direct transform, 1 for the inverse one. -/
noncomputable def fourier (sign : ℂ) (w h : Nat) (f : Nat → ℂ) (u v : Nat) : ℂ :=
  ∑ y ∈ range h, ∑ x ∈ range w, f (y * w + x) * Complex.exp (sign * (2 * Real.pi * Complex.I) * (u * x / w + v * y / h))

/-- The cyclic convolution of w x h values stored row by row -/
noncomputable def cyclic (w h : Nat) (f g : Nat → ℂ) (x y : Nat) : ℂ :=
  ∑ y' ∈ range h, ∑ x' ∈ range w, f (y' * w + x') * g ((y + h - y') % h * w + (x + w - x') % w)

/-- An executor made for w x h values; both allocations succeeded, `jd` and `ji` is what the memory contained before.  (Since `jd` and
    `ji` are arbitrary, it may as well be the contents left by earlier transforms.) -/
structure Made (e : Executor) (w h : Nat) : Prop where
  made : ∃ jd ji, init ⟨some jd, some ji⟩ w h () = .ok e ()
  wpos : 0 < w
  hpos : 0 < h
  small : w * h ≤ 1073741824

/-- The shapes for which the order of the dimensions does not matter. -/
def Symmetric (w h : Nat) : Prop := w = h ∨ w = 1 ∨ h = 1

/-! ### Helpers -/

theorem root_pow (inverse : Bool) (n k : Nat) : root inverse n ^ k = Complex.exp ((if inverse then 1 else -1) * (2 * Real.pi * Complex.I) * (k / n)) := by
  rw [root, ← Complex.exp_nat_mul]
  congr 1
  ring

theorem dftR_fourier (inverse : Bool) (w h : Nat) (f : Nat → ℂ) (u v : Nat) :
    dftR (root inverse w) (root inverse h) w h f u v = fourier (if inverse then 1 else -1) w h f u v := by
  refine Finset.sum_congr rfl fun y _ => Finset.sum_congr rfl fun x _ => ?_
  rw [root_pow, root_pow, ← Complex.exp_add]
  congr 2
  push_cast
  ring

theorem dftR_direct (w h : Nat) (f : Nat → ℂ) (u v : Nat) : dftR (root false w) (root false h) w h f u v = fourier (-1) w h f u v :=
  dftR_fourier false w h f u v

theorem dftR_inv (w h : Nat) (f : Nat → ℂ) (u v : Nat) : dftR (root true w) (root true h) w h f u v = fourier 1 w h f u v :=
  dftR_fourier true w h f u v

theorem init_run {w h : Nat} {jd ji : Nat → ℂ} {pd pi : Plan} (hw : 0 < w) (hh : 0 < h) (e1 : planAlloc w h false jd () = .ok pd ())
    (e2 : planAlloc w h true ji () = .ok pi ()) : init ⟨some jd, some ji⟩ w h () = .ok ⟨w, h, some pd, some pi⟩ () := by
  have ht : throwIf (μ := Unit) (w == 0 || h == 0) () = .ok () () := by
    have : (w == 0 || h == 0) = false := by simp; omega
    rw [this]
    rfl
  have k1 : makePlan w h false (some jd) () = .ok (some pd) () := (bind_ok e1).trans rfl
  have k2 : makePlan w h true (some ji) () = .ok (some pi) () := (bind_ok e2).trans rfl
  exact (bind_ok ht).trans ((bind_ok k1).trans ((bind_ok k2).trans rfl))

theorem made_plan {e : Executor} {w h : Nat} (he : Made e w h) :
    e.width = w ∧ e.height = h ∧ ∃ pd pi, e.direct = some pd ∧ e.inverse = some pi ∧
      (∀ fin fout : Arr ℂ, fin.len = w * h → fout.len = w * h →
        ∃ c, nd pd fin fout () = .ok c () ∧ c.len = w * h ∧ ∀ i k, i < w → k < h → c.at' (i * h + k) = fourier (-1) h w fin.at' k i) ∧
      (∀ fin fout : Arr ℂ, fin.len = w * h → fout.len = w * h →
        ∃ c, nd pi fin fout () = .ok c () ∧ c.len = w * h ∧ ∀ i k, i < w → k < h → c.at' (i * h + k) = fourier 1 h w fin.at' k i) := by
  obtain ⟨⟨jd, ji, hi⟩, hw, hh, hs⟩ := he
  obtain ⟨pd, e1, g1⟩ := nd_ok (inverse := false) (junk := jd) hw hh hs
  obtain ⟨pi, e2, g2⟩ := nd_ok (inverse := true) (junk := ji) hw hh hs
  rw [init_run hw hh e1 e2] at hi
  injection hi with hi
  subst hi
  refine ⟨rfl, rfl, pd, pi, rfl, rfl, ?_, ?_⟩
  · intro fin fout h1 h2
    obtain ⟨c, k1, k2, k3⟩ := g1 fin fout h1 h2
    exact ⟨c, k1, k2, fun i k hi hk => by rw [k3 i k hi hk, dftR_fourier]; rfl⟩
  · intro fin fout h1 h2
    obtain ⟨c, k1, k2, k3⟩ := g2 fin fout h1 h2
    exact ⟨c, k1, k2, fun i k hi hk => by rw [k3 i k hi hk, dftR_fourier]; rfl⟩

theorem transform_run {e : Executor} {w h : Nat} {pl : Plan} {a b c : Arr ℂ} (he : e.width = w ∧ e.height = h) (hn : nd pl a b () = .ok c ()) :
    transform e (some pl) ⟨w, h, some a⟩ ⟨w, h, some b⟩ () = .ok ⟨w, h, some c⟩ () := by
  have ht : throwIf (μ := Unit) ((some pl).isNone || !(e.width == w && e.height == h) || !(w == w && h == h)) () = .ok () () := by
    rw [he.1, he.2]
    simp [throwIf_false]
  exact (bind_ok ht).trans ((bind_ok hn).trans rfl)

theorem shape_swap {w h : Nat} {s : ℂ} {f F : Nat → ℂ} (hs : Symmetric w h) (hF : ∀ i k, i < w → k < h → F (i * h + k) = fourier s h w f k i) {u v : Nat} (hu : u < w) (hv : v < h) :
    F (v * w + u) = fourier s w h f u v := by
  rcases hs with hs | hs | hs
  · subst hs
    exact hF v u hv hu
  · subst hs
    obtain rfl : u = 0 := by omega
    have := hF 0 v (by omega) hv
    rw [Nat.zero_mul, Nat.zero_add] at this
    rw [Nat.mul_one, Nat.add_zero, this]
    simp [fourier]
  · subst hs
    obtain rfl : v = 0 := by omega
    have := hF u 0 hu (by omega)
    rw [Nat.mul_one, Nat.add_zero] at this
    rw [Nat.zero_mul, Nat.zero_add, this]
    simp [fourier]

/-! ### C128 -/

/-- C128 for every size: what directTransform computes is the Fourier transform of the values taken as w rows of h values.  The input
    and the output may be the same object. -/
theorem C128_direct_exact {e : Executor} {w h : Nat} (he : Made e w h) {a b : Arr ℂ} (ha : a.len = w * h) (hb : b.len = w * h) :
    ∃ c, directTransform e ⟨w, h, some a⟩ ⟨w, h, some b⟩ () = .ok ⟨w, h, some c⟩ () ∧ c.len = w * h ∧
      ∀ i k, i < w → k < h → c.at' (i * h + k) = fourier (-1) h w a.at' k i := by
  obtain ⟨h1, h2, pd, pi, e1, e2, g, -⟩ := made_plan he
  obtain ⟨c, k1, k2, k3⟩ := g a b ha hb
  exact ⟨c, by rw [directTransform, e1]; exact transform_run ⟨h1, h2⟩ k1, k2, k3⟩

/-- C128: the same for the inverse transform. -/
theorem C128_inverse_exact {e : Executor} {w h : Nat} (he : Made e w h) {a b : Arr ℂ} (ha : a.len = w * h) (hb : b.len = w * h) :
    ∃ c, inverseTransform e ⟨w, h, some a⟩ ⟨w, h, some b⟩ () = .ok ⟨w, h, some c⟩ () ∧ c.len = w * h ∧
      ∀ i k, i < w → k < h → c.at' (i * h + k) = fourier 1 h w a.at' k i := by
  obtain ⟨h1, h2, pd, pi, e1, e2, -, g⟩ := made_plan he
  obtain ⟨c, k1, k2, k3⟩ := g a b ha hb
  exact ⟨c, by rw [inverseTransform, e2]; exact transform_run ⟨h1, h2⟩ k1, k2, k3⟩

/-- C128 holds for square images and for images of one row or one column.  Missing: all other sizes, for which it is false
    (`C128_wrong`). -/
theorem C128_direct_partial {e : Executor} {w h : Nat} (he : Made e w h) (hs : Symmetric w h) {a b : Arr ℂ} (ha : a.len = w * h) (hb : b.len = w * h) :
    ∃ c, directTransform e ⟨w, h, some a⟩ ⟨w, h, some b⟩ () = .ok ⟨w, h, some c⟩ () ∧ c.len = w * h ∧
      ∀ u v, u < w → v < h → c.at' (v * w + u) = fourier (-1) w h a.at' u v := by
  obtain ⟨c, k1, k2, k3⟩ := C128_direct_exact he ha hb
  exact ⟨c, k1, k2, fun u v hu hv => shape_swap hs k3 hu hv⟩

theorem C128_inverse_partial {e : Executor} {w h : Nat} (he : Made e w h) (hs : Symmetric w h) {a b : Arr ℂ} (ha : a.len = w * h) (hb : b.len = w * h) :
    ∃ c, inverseTransform e ⟨w, h, some a⟩ ⟨w, h, some b⟩ () = .ok ⟨w, h, some c⟩ () ∧ c.len = w * h ∧
      ∀ u v, u < w → v < h → c.at' (v * w + u) = fourier 1 w h a.at' u v := by
  obtain ⟨c, k1, k2, k3⟩ := C128_inverse_exact he ha hb
  exact ⟨c, k1, k2, fun u v hu hv => shape_swap hs k3 hu hv⟩

/-- Objects of another size than the executor are rejected, nothing is written. -/
theorem C128_rejects (e : Executor) (p q : CData) (h : ¬ (p.width = e.width ∧ p.height = e.height ∧ q.width = e.width ∧ q.height = e.height)) :
    directTransform e p q () = .throw () ∧ inverseTransform e p q () = .throw () := by
  have : ∀ pl : Option Plan, transform e pl p q () = .throw () := by
    intro pl
    have hb : (pl.isNone || !(e.width == p.width && e.height == p.height) || !(p.width == q.width && p.height == q.height)) = true := by
      cases hc : (e.width == p.width && e.height == p.height)
      · simp
      · cases hd : (p.width == q.width && p.height == q.height)
        · simp
        · simp only [Bool.and_eq_true, beq_iff_eq] at hc hd
          exact absurd ⟨hc.1.symm, hc.2.symm, (hc.1.trans hd.1).symm, (hc.2.trans hd.2).symm⟩ h
    rw [transform, hb]
    exact bind_throw (throwIf_true ())
  exact ⟨this _, this _⟩

/-- So is everything if the memory for the plan could not be allocated. -/
theorem C128_rejects_no_plan (e : Executor) (p q : CData) :
    (e.direct = none → directTransform e p q () = .throw ()) ∧ (e.inverse = none → inverseTransform e p q () = .throw ()) :=
  ⟨fun h => by rw [directTransform, h]; rfl, fun h => by rw [inverseTransform, h]; rfl⟩

/-- An executor cannot be made for no values: in particular the constructor without parameters always throws. -/
theorem C128_rejects_empty (mal : Mallocs) (w h : Nat) (hz : w = 0 ∨ h = 0) : init mal w h () = .throw () := by
  have : (w == 0 || h == 0) = true := by rcases hz with h | h <;> simp [h]
  rw [init, this]
  rfl

/-- If a plan cannot be allocated the executor is made all the same. -/
theorem C128_failed_plan {w h : Nat} (hw : 0 < w) (hh : 0 < h) : init ⟨none, none⟩ w h () = .ok ⟨w, h, none, none⟩ () := by
  have : (w == 0 || h == 0) = false := by simp; omega
  rw [init, this]
  rfl

/-- One value which is 1 -/
def delta (n k : Nat) : Arr ℂ := ⟨n, fun i => if i = k then 1 else 0⟩

theorem exists_made {w h : Nat} (hw : 0 < w) (hh : 0 < h) (hs : w * h ≤ 1073741824) : ∃ e, Made e w h := by
  obtain ⟨pd, e1, -⟩ := nd_ok (inverse := false) (junk := fun _ => 7) hw hh hs
  obtain ⟨pi, e2, -⟩ := nd_ok (inverse := true) (junk := fun _ => 7) hw hh hs
  refine ⟨⟨w, h, some pd, some pi⟩, ⟨fun _ => 7, fun _ => 7, ?_⟩, hw, hh, hs⟩
  exact init_run hw hh e1 e2

/-- C128 is false for other sizes: for 2 x 3 values with a 1 at x = 1, y = 0 the coefficient of u = 1, v = 0 is -1; another one comes out
    (its real part is -1/2). -/
theorem C128_wrong : ∃ e, Made e 2 3 ∧ ∃ c, directTransform e ⟨2, 3, some (delta 6 1)⟩ ⟨2, 3, some (delta 6 0)⟩ () = .ok ⟨2, 3, some c⟩ () ∧
    fourier (-1) 2 3 (delta 6 1).at' 1 0 = -1 ∧ (c.at' (0 * 2 + 1)).re = -(1 / 2) := by
  obtain ⟨e, he⟩ := exists_made (w := 2) (h := 3) (by omega) (by omega) (by omega)
  obtain ⟨c, k1, -, k3⟩ := C128_direct_exact he (a := delta 6 1) (b := delta 6 0) rfl rfl
  refine ⟨e, he, c, k1, ?_, ?_⟩
  · simp only [fourier, delta, Finset.sum_range_succ, Finset.sum_range_zero]
    norm_num
    rw [show -(2 * (Real.pi : ℂ) * Complex.I * (1 / 2)) = -(Real.pi * Complex.I) by ring, Complex.exp_neg, Complex.exp_pi_mul_I]
    norm_num
  · have := k3 0 1 (by omega) (by omega)
    rw [show 0 * 2 + 1 = 0 * 3 + 1 from rfl, this]
    simp only [fourier, delta, Finset.sum_range_succ, Finset.sum_range_zero]
    norm_num
    rw [show -(2 * (Real.pi : ℂ) * Complex.I * (1 / 3)) = ((-(2 * Real.pi / 3) : ℝ) : ℂ) * Complex.I by push_cast; ring, Complex.exp_ofReal_mul_I_re,
      Real.cos_neg, show 2 * Real.pi / 3 = Real.pi - Real.pi / 3 by ring, Real.cos_pi_sub, Real.cos_pi_div_three]

/-! ### C129 -/

/-- C129: for every size the inverse transform of the direct transform gives the values times their number. -/
theorem C129_inverse_direct {e : Executor} {w h : Nat} (he : Made e w h) {a b b' : Arr ℂ} (ha : a.len = w * h) (hb : b.len = w * h) (hb' : b'.len = w * h) :
    ∃ c d, directTransform e ⟨w, h, some a⟩ ⟨w, h, some b⟩ () = .ok ⟨w, h, some c⟩ () ∧
      inverseTransform e ⟨w, h, some c⟩ ⟨w, h, some b'⟩ () = .ok ⟨w, h, some d⟩ () ∧ d.len = w * h ∧
      ∀ j, j < w * h → d.at' j = (w * h : ℂ) * a.at' j := by
  obtain ⟨c, k1, k2, k3⟩ := C128_direct_exact he ha hb
  obtain ⟨d, l1, l2, l3⟩ := C128_inverse_exact he k2 hb'
  refine ⟨c, d, k1, l1, l2, fun j hj => ?_⟩
  have hi : j / h < w := Nat.div_lt_of_lt_mul (by rwa [Nat.mul_comm])
  have hk := Nat.mod_lt j he.hpos
  have hj' : j / h * h + j % h = j := by rw [Nat.mul_comm]; exact Nat.div_add_mod j h
  have := l3 (j / h) (j % h) hi hk
  rw [hj'] at this
  rw [this, ← dftR_inv h w, dftR_inverse (fun u v hu hv => by rw [k3 v u hv hu, dftR_direct]) hk hi, hj', mul_comm (h : ℂ)]

/-- The same in place: one object, transformed twice. -/
theorem C129_in_place {e : Executor} {w h : Nat} (he : Made e w h) {a : Arr ℂ} (ha : a.len = w * h) :
    ∃ c d, directTransform e ⟨w, h, some a⟩ ⟨w, h, some a⟩ () = .ok ⟨w, h, some c⟩ () ∧
      inverseTransform e ⟨w, h, some c⟩ ⟨w, h, some c⟩ () = .ok ⟨w, h, some d⟩ () ∧ d.len = w * h ∧
      ∀ j, j < w * h → d.at' j = (w * h : ℂ) * a.at' j := by
  obtain ⟨c, k1, k2, k3⟩ := C128_direct_exact he ha ha
  obtain ⟨c', d, l1, l2, l3⟩ := C129_inverse_direct he ha ha k2
  rw [k1] at l1
  injection l1 with l1
  injection l1 with _ _ l1
  injection l1 with l1
  subst l1
  exact ⟨c, d, k1, l2, l3⟩

/-! ### C130 -/

/-- The exact product of two objects -/
theorem multiplication_run {w h : Nat} {a b o : Arr ℂ} (hw : 0 < w) (hh : 0 < h) (hs : w * h < 4294967296) (ha : a.len = w * h) (hb : b.len = w * h) (ho : o.len = w * h) :
    ∃ c, multiplication ⟨w, h, some a⟩ ⟨w, h, some b⟩ ⟨w, h, some o⟩ () = .ok ⟨w, h, some c⟩ () ∧ c.len = w * h ∧ ∀ j, j < w * h → c.at' j = a.at' j * b.at' j := by
  have ht : throwIf (μ := Unit) (!(w == w && h == h) || !(w == w && h == h) || w == 0 || h == 0) () = .ok () () := by
    have : (!(w == w && h == h) || !(w == w && h == h) || w == 0 || h == 0) = false := by simp; omega
    rw [this]
    rfl
  obtain ⟨c, e, h1, h2⟩ := forN_inv (n := u32 (w * h)) (m := o)
    (body := fun k => do
      let p ← a.rd k
      let q ← b.rd k
      wrF k (p * q))
    (P := fun k c => c.len = o.len ∧ ∀ j, j < k → c.at' j = a.at' j * b.at' j)
    ⟨rfl, fun _ h => absurd h (by omega)⟩ (by
      rintro k c hk ⟨g1, g2⟩
      rw [u32_of_lt hs] at hk
      refine ⟨_, (bind_ok (Arr.rd_ok (by omega) c)).trans ((bind_ok (Arr.rd_ok (by omega) c)).trans (wrF_ok _ (by omega))), g1, fun j hj => ?_⟩
      rw [put_at]
      split
      · rename_i hjk
        rw [hjk]
      · exact g2 j (by omega))
  rw [u32_of_lt hs] at h2
  exact ⟨c, (bind_ok ht).trans ((bind_ok (onBuf_ok e ())).trans rfl), h1.trans ho, h2⟩

/-- C130 for every size: transform both, multiply, transform back.  The result is the number of values times the cyclic convolution of
    the values taken as w rows of h values. -/
theorem C130_convolution_exact {e : Executor} {w h : Nat} (he : Made e w h) {a b p q r s : Arr ℂ} (ha : a.len = w * h) (hb : b.len = w * h)
    (hp : p.len = w * h) (hq : q.len = w * h) (hr : r.len = w * h) (hs : s.len = w * h) :
    ∃ F G P R, directTransform e ⟨w, h, some a⟩ ⟨w, h, some p⟩ () = .ok ⟨w, h, some F⟩ () ∧
      directTransform e ⟨w, h, some b⟩ ⟨w, h, some q⟩ () = .ok ⟨w, h, some G⟩ () ∧
      multiplication ⟨w, h, some F⟩ ⟨w, h, some G⟩ ⟨w, h, some r⟩ () = .ok ⟨w, h, some P⟩ () ∧
      inverseTransform e ⟨w, h, some P⟩ ⟨w, h, some s⟩ () = .ok ⟨w, h, some R⟩ () ∧ R.len = w * h ∧
      ∀ i k, i < w → k < h → R.at' (i * h + k) = (w * h : ℂ) * cyclic h w a.at' b.at' k i := by
  have hw := he.wpos
  have hh := he.hpos
  obtain ⟨F, f1, f2, f3⟩ := C128_direct_exact he ha hp
  obtain ⟨G, g1, g2, g3⟩ := C128_direct_exact he hb hq
  obtain ⟨P, p1, p2, p3⟩ := multiplication_run hw hh (by have := he.small; omega) f2 g2 hr
  obtain ⟨R, r1, r2, r3⟩ := C128_inverse_exact he p2 hs
  refine ⟨F, G, P, R, f1, g1, p1, r1, r2, fun i k hi hk => ?_⟩
  have hdm : ∀ x y, x < h → (y * h + x) % h = x ∧ (y * h + x) / h = y := fun x y hx => by
    constructor
    · rw [Nat.add_comm, Nat.add_mul_mod_self_right, Nat.mod_eq_of_lt hx]
    · rw [Nat.add_comm, Nat.add_mul_div_right _ _ hh, Nat.div_eq_of_lt hx, Nat.zero_add]
  have hlt : ∀ x y, x < h → y < w → y * h + x < w * h := fun x y hx hy => by
    have : (y + 1) * h ≤ w * h := Nat.mul_le_mul_right _ hy
    rw [Nat.add_mul, Nat.one_mul] at this
    omega
  have hconv := fun u v => dftR_conv (w := h) (h := w) (root_one false hh) (root_one false hw) (f := a.at') (g := b.at')
    (c := fun j => cyclic h w a.at' b.at' (j % h) (j / h)) (fun x y hx _ => by rw [(hdm x y hx).1, (hdm x y hx).2, cyclic]) u v
  rw [r3 i k hi hk, ← dftR_inv h w, dftR_inverse (f := fun j => cyclic h w a.at' b.at' (j % h) (j / h)) (fun u v hu hv => ?_) hk hi]
  · rw [(hdm k i hk).1, (hdm k i hk).2, mul_comm (h : ℂ)]
  · rw [hconv, p3 _ (hlt u v hu hv), f3 v u hv hu, g3 v u hv hu, dftR_direct, dftR_direct]

/-- C130 holds for square images and for images of one row or one column.  Missing: all other sizes, for which it is false
    (`C130_wrong`). -/
theorem C130_convolution_partial {e : Executor} {w h : Nat} (he : Made e w h) (hsym : Symmetric w h) {a b p q r s : Arr ℂ} (ha : a.len = w * h)
    (hb : b.len = w * h) (hp : p.len = w * h) (hq : q.len = w * h) (hr : r.len = w * h) (hs : s.len = w * h) :
    ∃ F G P R, directTransform e ⟨w, h, some a⟩ ⟨w, h, some p⟩ () = .ok ⟨w, h, some F⟩ () ∧
      directTransform e ⟨w, h, some b⟩ ⟨w, h, some q⟩ () = .ok ⟨w, h, some G⟩ () ∧
      multiplication ⟨w, h, some F⟩ ⟨w, h, some G⟩ ⟨w, h, some r⟩ () = .ok ⟨w, h, some P⟩ () ∧
      inverseTransform e ⟨w, h, some P⟩ ⟨w, h, some s⟩ () = .ok ⟨w, h, some R⟩ () ∧ R.len = w * h ∧
      ∀ x y, x < w → y < h → R.at' (y * w + x) = (w * h : ℂ) * cyclic w h a.at' b.at' x y := by
  obtain ⟨F, G, P, R, f1, g1, p1, r1, r2, r3⟩ := C130_convolution_exact he ha hb hp hq hr hs
  refine ⟨F, G, P, R, f1, g1, p1, r1, r2, fun x y hx hy => ?_⟩
  rcases hsym with h1 | h1 | h1
  · subst h1
    exact r3 y x hy hx
  · subst h1
    obtain rfl : x = 0 := by omega
    have := r3 0 y (by omega) hy
    rw [Nat.zero_mul, Nat.zero_add] at this
    rw [Nat.mul_one, Nat.add_zero, this]
    simp [cyclic, Nat.mod_one]
  · subst h1
    obtain rfl : y = 0 := by omega
    have := r3 x 0 hx (by omega)
    rw [Nat.mul_one, Nat.add_zero] at this
    rw [Nat.zero_mul, Nat.zero_add, this]
    simp [cyclic, Nat.mod_one]

/-- C130 is false for other sizes: for 2 x 3 values a 1 at x = 1, y = 0 convolved with itself should be at x = 0, y = 0 (2 is 0 modulo
    the width); it comes out at index 2, which is x = 0, y = 1. -/
theorem C130_wrong : ∃ e, Made e 2 3 ∧ ∃ F P R, directTransform e ⟨2, 3, some (delta 6 1)⟩ ⟨2, 3, some (delta 6 0)⟩ () = .ok ⟨2, 3, some F⟩ () ∧
    multiplication ⟨2, 3, some F⟩ ⟨2, 3, some F⟩ ⟨2, 3, some (delta 6 0)⟩ () = .ok ⟨2, 3, some P⟩ () ∧
    inverseTransform e ⟨2, 3, some P⟩ ⟨2, 3, some (delta 6 0)⟩ () = .ok ⟨2, 3, some R⟩ () ∧
    R.at' 0 = 0 ∧ R.at' 2 = 6 ∧ cyclic 2 3 (delta 6 1).at' (delta 6 1).at' 0 0 = 1 ∧ cyclic 2 3 (delta 6 1).at' (delta 6 1).at' 0 1 = 0 := by
  obtain ⟨e, he⟩ := exists_made (w := 2) (h := 3) (by omega) (by omega) (by omega)
  obtain ⟨F, G, P, R, f1, g1, p1, r1, -, r3⟩ := C130_convolution_exact he (a := delta 6 1) (b := delta 6 1) (p := delta 6 0) (q := delta 6 0)
    (r := delta 6 0) (s := delta 6 0) rfl rfl rfl rfl rfl rfl
  rw [f1] at g1
  injection g1 with g1
  injection g1 with _ _ g1
  injection g1 with g1
  subst g1
  refine ⟨e, he, F, P, R, f1, p1, r1, ?_, ?_, ?_, ?_⟩
  · have := r3 0 0 (by omega) (by omega)
    rw [show 0 * 3 + 0 = 0 from rfl] at this
    rw [this]
    simp [cyclic, delta, Finset.sum_range_succ]
  · have := r3 0 2 (by omega) (by omega)
    rw [show 0 * 3 + 2 = 2 from rfl] at this
    rw [this]
    simp [cyclic, delta, Finset.sum_range_succ]
    norm_num
  · simp [cyclic, delta, Finset.sum_range_succ]
  · simp [cyclic, delta, Finset.sum_range_succ]

theorem C130_rejects (p q o : CData) (h : ¬ (p.width = q.width ∧ p.height = q.height ∧ p.width = o.width ∧ p.height = o.height) ∨ p.width = 0 ∨ p.height = 0) :
    multiplication p q o () = .throw () := by
  have hb : (!(p.width == q.width && p.height == q.height) || !(p.width == o.width && p.height == o.height) || p.width == 0 || p.height == 0) = true := by
    rcases h with h | h | h
    · cases hc : (p.width == q.width && p.height == q.height)
      · simp
      · cases hd : (p.width == o.width && p.height == o.height)
        · simp
        · simp only [Bool.and_eq_true, beq_iff_eq] at hc hd
          exact absurd ⟨hc.1, hc.2, hd.1, hd.2⟩ h
    · simp [h]
    · simp [h]
  rw [multiplication, hb]
  exact bind_throw (throwIf_true ())

/-! #### Examples -/

/-- 60 = 4 · 3 · 5, 77 = 7 · 11, 1 and a prime: the factors found -/
example : factor 60 = some [(4, 15), (3, 5), (5, 1)] ∧ factor 77 = some [(7, 11), (11, 1)] ∧ factor 1 = some [(1, 1)] ∧ factor 13 = some [(13, 1)] ∧
    factor 1024 = some [(4, 256), (4, 64), (4, 16), (4, 4), (4, 1)] := by
  decide +kernel

/-- Executors for a square of 60 x 60, for 1 x 77 and for 12 x 7 values -/
example : (∃ e, Made e 60 60) ∧ Symmetric 60 60 ∧ (∃ e, Made e 1 77) ∧ Symmetric 1 77 ∧ ∃ e, Made e 12 7 :=
  ⟨exists_made (by omega) (by omega) (by omega), .inl rfl, exists_made (by omega) (by omega) (by omega), .inr (.inl rfl),
    exists_made (by omega) (by omega) (by omega)⟩

/-- The spectrum of a 1 at the origin is 1 everywhere: 12 x 7 values -/
example : fourier (-1) 12 7 (delta 84 0).at' 5 3 = 1 := by
  rw [fourier, Finset.sum_eq_single 0, Finset.sum_eq_single 0]
  · simp [delta]
  · intro x _ hx
    simp [delta, hx]
  · simp
  · intro y _ hy
    refine Finset.sum_eq_zero fun x _ => ?_
    rw [delta]
    simp only
    rw [if_neg (by omega), zero_mul]
  · simp

end PV.Props
