import Mathlib.Analysis.Complex.Norm
import Mathlib.Data.Nat.Factors
import Verif.KissFl
import Verif.KissConv
/-
  Rounding errors of the transforms, for PropsKissFl.lean.
-/
namespace PV.KissFl
open PV PV.Kiss Finset

/-- A rounding of real numbers with relative error u -/
structure RealErr (rnd : ℝ → ℝ) (u : ℝ) : Prop where
  nonneg : 0 ≤ u
  err : ∀ a, |rnd a - a| ≤ u * |a|

/-- X is a bound of x, and y is x with the relative errors of n operations. -/
structure Maj (u : ℝ) (n : Nat) (X x y : ℝ) : Prop where
  le : |x| ≤ X
  err : |y - x| ≤ ((1 + u) ^ n - 1) * X

variable {rnd : ℝ → ℝ} {u : ℝ}

theorem one_le_g (hu : 0 ≤ u) (n : Nat) : 1 ≤ (1 + u) ^ n := one_le_pow₀ (by linarith)

theorem Maj.nonneg {n : Nat} {X x y : ℝ} (h : Maj u n X x y) : 0 ≤ X := (abs_nonneg x).trans h.le

theorem Maj.weaken (hu : 0 ≤ u) {n k : Nat} {X Y x y : ℝ} (h : Maj u n X x y) (hn : n ≤ k) (hX : X ≤ Y) : Maj u k Y x y := by
  refine ⟨h.le.trans hX, h.err.trans ?_⟩
  have h1 : (1 + u) ^ n ≤ (1 + u) ^ k := pow_le_pow_right₀ (by linarith) hn
  have h2 := one_le_g hu n
  exact mul_le_mul (by linarith) hX h.nonneg (by linarith)

theorem Maj.exact (x : ℝ) : Maj u 0 |x| x x := ⟨le_refl _, by simp⟩

theorem Maj.bound {n : Nat} {X x y : ℝ} (h : Maj u n X x y) : |y| ≤ (1 + u) ^ n * X := by
  have h1 := abs_add_le (y - x) x
  rw [sub_add_cancel] at h1
  have h2 := h.le
  have h3 := h.err
  linarith

theorem Maj.neg {n : Nat} {X x y : ℝ} (h : Maj u n X x y) : Maj u n X (-x) (-y) :=
  ⟨by rw [abs_neg]; exact h.le, by rw [show -y - -x = -(y - x) by ring, abs_neg]; exact h.err⟩

/-- One more rounding -/
theorem Maj.round (hr : RealErr rnd u) {n : Nat} {X x y : ℝ} (h : Maj u n X x y) : Maj u (n + 1) X x (rnd y) := by
  refine ⟨h.le, ?_⟩
  have h1 := hr.err y
  have h2 := mul_le_mul_of_nonneg_left h.bound hr.nonneg
  have h3 := abs_add_le (rnd y - y) (y - x)
  rw [sub_add_sub_cancel] at h3
  have h4 := h.err
  rw [pow_succ]
  linarith

theorem Maj.add (hr : RealErr rnd u) {n k : Nat} {X Y x y x' y' : ℝ} (h : Maj u n X x x') (h' : Maj u k Y y y') :
    Maj u (max n k + 1) (X + Y) (x + y) (rnd (x' + y')) := by
  have a := h.weaken hr.nonneg (le_max_left n k) (le_refl _)
  have b := h'.weaken hr.nonneg (le_max_right n k) (le_refl _)
  refine Maj.round hr ⟨(abs_add_le _ _).trans (add_le_add a.le b.le), ?_⟩
  have := abs_add_le (x' - x) (y' - y)
  rw [show x' - x + (y' - y) = x' + y' - (x + y) by ring] at this
  have h1 := a.err
  have h2 := b.err
  linarith

theorem Maj.sub (hr : RealErr rnd u) {n k : Nat} {X Y x y x' y' : ℝ} (h : Maj u n X x x') (h' : Maj u k Y y y') :
    Maj u (max n k + 1) (X + Y) (x - y) (rnd (x' - y')) := by
  rw [sub_eq_add_neg, sub_eq_add_neg]
  exact h.add hr h'.neg

theorem Maj.mul (hr : RealErr rnd u) {n k : Nat} {X Y x y x' y' : ℝ} (h : Maj u n X x x') (h' : Maj u k Y y y') :
    Maj u (n + k + 1) (X * Y) (x * y) (rnd (x' * y')) := by
  refine Maj.round hr ⟨by rw [abs_mul]; exact mul_le_mul h.le h'.le (abs_nonneg _) h.nonneg, ?_⟩
  have h1 := abs_add_le ((x' - x) * y') (x * (y' - y))
  rw [show (x' - x) * y' + x * (y' - y) = x' * y' - x * y by ring, abs_mul, abs_mul] at h1
  have hg := one_le_g hr.nonneg n
  have h2 := mul_le_mul h.err h'.bound (abs_nonneg _) (mul_nonneg (by linarith) h.nonneg)
  have h3 := mul_le_mul h.le h'.err (abs_nonneg _) h.nonneg
  rw [pow_add]
  refine h1.trans ((add_le_add h2 h3).trans (le_of_eq ?_))
  ring

/-- Both parts of a complex number -/
structure CMaj (u : ℝ) (n : Nat) (X : ℝ) (x y : ℂ) : Prop where
  re : Maj u n X x.re y.re
  im : Maj u n X x.im y.im

/-- |re| + |im| -/
def n1 (z : ℂ) : ℝ := |z.re| + |z.im|

theorem CMaj.weaken (hu : 0 ≤ u) {n k : Nat} {X Y : ℝ} {x y : ℂ} (h : CMaj u n X x y) (hn : n ≤ k) (hX : X ≤ Y) : CMaj u k Y x y :=
  ⟨h.re.weaken hu hn hX, h.im.weaken hu hn hX⟩

theorem CMaj.exact (hu : 0 ≤ u) (x : ℂ) : CMaj u 0 (n1 x) x x :=
  ⟨(Maj.exact _).weaken hu (le_refl _) (le_add_of_nonneg_right (abs_nonneg _)), (Maj.exact _).weaken hu (le_refl _) (le_add_of_nonneg_left (abs_nonneg _))⟩

theorem CMaj.add (hr : RealErr rnd u) {n k : Nat} {X Y : ℝ} {x y x' y' : ℂ} (h : CMaj u n X x x') (h' : CMaj u k Y y y') :
    CMaj u (max n k + 1) (X + Y) (x + y) (cadd rnd x' y') := ⟨h.re.add hr h'.re, h.im.add hr h'.im⟩

theorem CMaj.sub (hr : RealErr rnd u) {n k : Nat} {X Y : ℝ} {x y x' y' : ℂ} (h : CMaj u n X x x') (h' : CMaj u k Y y y') :
    CMaj u (max n k + 1) (X + Y) (x - y) (csub rnd x' y') := ⟨h.re.sub hr h'.re, h.im.sub hr h'.im⟩

/-- A product by a twiddle factor -/
theorem CMaj.tw (hr : RealErr rnd u) {w w' : ℂ} (h : CMaj u 1 1 w w') (x : ℂ) : CMaj u 3 (n1 x) (x * w) (cmul rnd x w') := by
  have e := @Maj.exact u
  constructor
  · refine (((e x.re).mul hr h.re).sub hr ((e x.im).mul hr h.im)).weaken hr.nonneg (by decide) (le_of_eq ?_)
    rw [n1, mul_one, mul_one]
  · refine (((e x.re).mul hr h.im).add hr ((e x.im).mul hr h.re)).weaken hr.nonneg (by decide) (le_of_eq ?_)
    rw [n1, mul_one, mul_one]

theorem n1_nonneg (z : ℂ) : 0 ≤ n1 z := add_nonneg (abs_nonneg _) (abs_nonneg _)

theorem n1_le (z : ℂ) : n1 z ≤ √2 * ‖z‖ := by
  have h2 : (√2 : ℝ) ^ 2 = 2 := Real.sq_sqrt (by norm_num)
  refine abs_le_of_sq_le_sq' ?_ (mul_nonneg (Real.sqrt_nonneg _) (norm_nonneg _)) |>.2
  rw [mul_pow, h2, Complex.sq_norm, Complex.normSq_apply, n1]
  nlinarith [sq_nonneg (|z.re| - |z.im|), sq_abs z.re, sq_abs z.im]

/-- Numbers with the bound c Σ n1 -/
theorem CMaj.norm (hu : 0 ≤ u) {n k p : Nat} {X : ℝ} {x x' y : ℂ} {a : Nat → ℂ} (h : CMaj u n X x y) (hn : n ≤ k) (hX : X ≤ 2 * ∑ q ∈ range p, n1 (a q))
    (hx : x' = x) : ‖y - x'‖ ≤ 4 * ((1 + u) ^ k - 1) * ∑ q ∈ range p, ‖a q‖ := by
  rw [hx]
  have hb : X ≤ 2 * (√2 * ∑ q ∈ range p, ‖a q‖) := by
    refine hX.trans ?_
    rw [mul_sum (a := √2)]
    exact mul_le_mul_of_nonneg_left (sum_le_sum fun q _ => n1_le _) zero_le_two
  have h' := h.weaken hu hn hb
  have hg := one_le_g hu k
  have h1 := Complex.norm_le_sqrt_two_mul_max (y - x)
  refine h1.trans ?_
  rw [Complex.sub_re, Complex.sub_im]
  refine (mul_le_mul_of_nonneg_left (max_le h'.re.err h'.im.err) (Real.sqrt_nonneg _)).trans (le_of_eq ?_)
  have h2 : (√2 : ℝ) * √2 = 2 := Real.mul_self_sqrt (by norm_num)
  calc √2 * (((1 + u) ^ k - 1) * (2 * (√2 * ∑ q ∈ range p, ‖a q‖)))
      = (√2 * √2) * 2 * ((1 + u) ^ k - 1) * ∑ q ∈ range p, ‖a q‖ := by ring
    _ = _ := by rw [h2]; ring

/-! ### Butterflies -/

/-- The twiddle factors are the powers of W up to u. -/
structure Near (st : Cfg) (W : ℂ) (u : ℝ) : Prop where
  roots : Roots { st with twiddles := ⟨st.nfft, fun k => W ^ k⟩ } W
  len : st.twiddles.len = st.nfft
  tw : ∀ k, k < st.nfft → CMaj u 1 1 (W ^ k) (st.twiddles.at' k)

theorem Near.rd {st : Cfg} {W : ℂ} (h : Near st W u) {k : Nat} (hk : k < st.nfft) (a : Arr ℂ) :
    st.twiddles.rd k a = .ok (st.twiddles.at' k) a := Arr.rd_ok (by rw [h.len]; exact hk) a

/-- The rounding errors of one butterfly of radix p, relative to its input -/
noncomputable def kappa (u : ℝ) (p : Nat) : ℝ := 4 * ((1 + u) ^ (if p = 1 then 0 else p + 4) - 1)

/-- The result of a butterfly for all classes, up to rounding. -/
def MixedFl (u : ℝ) (W : ℂ) (o fstride m p : Nat) (a a' : Arr ℂ) : Prop :=
  a'.len = a.len ∧
  (∀ v k, v < m → k < p → ‖a'.at' (o + v + k * m) - mix W fstride m p v (fun q => a.at' (o + v + q * m)) k‖ ≤ kappa u p * ∑ q ∈ range p, ‖a.at' (o + v + q * m)‖) ∧
  ∀ i, (i < o ∨ o + p * m ≤ i) → a'.at' i = a.at' i

/-- A loop whose round v replaces the values with the indices v, v + m, …, v + (p - 1) m. -/
theorem forN_classes' {o m p : Nat} {body : Nat → M (Arr ℂ) Unit} {R : Nat → (Nat → ℂ) → Nat → ℂ → Prop}
    (hb : ∀ v a, v < m → o + p * m ≤ a.len → ∃ a', body v a = .ok () a' ∧ a'.len = a.len ∧
      (∀ q, q < p → R v (fun q => a.at' (o + v + q * m)) q (a'.at' (o + v + q * m))) ∧ ∀ i, (∀ q, q < p → i ≠ o + v + q * m) → a'.at' i = a.at' i)
    {a : Arr ℂ} (ha : o + p * m ≤ a.len) :
    ∃ a', forN m body a = .ok () a' ∧ a'.len = a.len ∧
      (∀ v q, v < m → q < p → R v (fun q => a.at' (o + v + q * m)) q (a'.at' (o + v + q * m))) ∧
      ∀ i, (i < o ∨ o + p * m ≤ i) → a'.at' i = a.at' i := by
  obtain ⟨a', e, h1, h2, h3, h4⟩ := forN_inv (n := m) (body := body) (m := a)
    (P := fun j b => b.len = a.len ∧
      (∀ v q, v < j → q < p → R v (fun q => a.at' (o + v + q * m)) q (b.at' (o + v + q * m))) ∧
      (∀ v q, j ≤ v → v < m → b.at' (o + v + q * m) = a.at' (o + v + q * m)) ∧
      ∀ i, (i < o ∨ o + p * m ≤ i) → b.at' i = a.at' i)
    ⟨rfl, fun v q h _ => absurd h (by omega), fun _ _ _ _ => rfl, fun _ _ => rfl⟩ (by
      rintro j b hj ⟨g1, g2, g3, g4⟩
      obtain ⟨b', e, s1, s2, s3⟩ := hb j b hj (by omega)
      refine ⟨b', e, s1.trans g1, ?_, ?_, ?_⟩
      · intro v q hu hq
        by_cases huj : v = j
        · subst huj
          have := s2 q hq
          rwa [show (fun q => b.at' (o + v + q * m)) = fun q => a.at' (o + v + q * m) from funext fun q => g3 v q (Nat.le_refl _) hj] at this
        · rw [s3 _ fun r _ hc => huj (class_inj (by omega) hj hc).1]
          exact g2 v q (by omega) hq
      · intro v q hu hum
        rw [s3 _ fun r _ hc => (by have := (class_inj hum hj hc).1; omega), g3 v q (by omega) hum]
      · intro i hi
        rw [s3 _ fun r hr hc => (by have := class_lt (o := o) hj hr; omega), g4 i hi])
  exact ⟨a', e, h1, h2, h4⟩

theorem bfly2_ok (hr : RealErr rnd u) {st : Cfg} {W : ℂ} (h : Near st W u) {o fstride m : Nat} (hN : fstride * m * 2 = st.nfft) {a : Arr ℂ}
    (ha : o + 2 * m ≤ a.len) : ∃ a', bfly2 rnd o fstride st m a = .ok () a' ∧ MixedFl u W o fstride m 2 a a' := by
  have hpos := h.roots.pos
  obtain ⟨hf, hm⟩ := pos_of_mul hN hpos
  rw [bfly2, doN_eq _ hm]
  refine forN_classes' (R := fun v b k z => ‖z - mix W fstride m 2 v b k‖ ≤ kappa u 2 * ∑ q ∈ range 2, ‖b q‖) (fun v a hu ha => ?_) ha
  have hx := stride_lt hu hf
  have ht : v * fstride < st.nfft := by rw [Nat.mul_comm v]; omega
  refine ⟨_, (bind_ok (rdF_ok (by omega))).trans ((bind_ok (rdF_ok (by omega))).trans ((bind_ok (h.rd ht a)).trans
    ((bind_ok (wrF_ok _ (by omega))).trans (wrF_ok _ (by rw [put_len]; omega))))), rfl, ?_, ?_⟩
  · intro q hq
    have hz := h.roots.half _ hN
    have e : v * fstride = fstride * v := Nat.mul_comm _ _
    have e' : o + m + v = o + v + m := by omega
    have hw := h.tw _ ht
    rw [e'] 
    generalize st.twiddles.at' (v * fstride) = w' at hw ⊢
    rw [e] at hw
    have c0 := CMaj.exact hr.nonneg (a.at' (o + v))
    have c1 := CMaj.tw hr hw (a.at' (o + v + m))
    have hX : n1 (a.at' (o + v)) + n1 (a.at' (o + v + m)) ≤ 2 * ∑ q ∈ range 2, n1 ((fun q => a.at' (o + v + q * m)) q) := by
      simp only [Finset.sum_range_succ, Finset.sum_range_zero, Nat.zero_mul, Nat.one_mul, Nat.add_zero]
      have := n1_nonneg (a.at' (o + v))
      have := n1_nonneg (a.at' (o + v + m))
      linarith
    rw [mix_eq, hz]
    interval_cases q
    · rw [put_at, if_pos (by omega)]
      refine (c0.add hr c1).norm hr.nonneg (by decide) hX ?_
      simp [Finset.sum_range_succ]
    · rw [put_at, put_at, if_neg (by omega), if_pos (by omega)]
      refine (c0.sub hr c1).norm hr.nonneg (by decide) hX ?_
      simp [Finset.sum_range_succ, sub_eq_add_neg]
  · intro i hi
    rw [put_at, put_at, if_neg (by have := hi 0 (by omega); omega), if_neg (by have := hi 1 (by omega); omega)]

theorem bfly3_ok (hr : RealErr rnd u) {st : Cfg} {W : ℂ} (h : Near st W u) {o fstride m : Nat} (hN : fstride * m * 3 = st.nfft) {a : Arr ℂ}
    (ha : o + 3 * m ≤ a.len) : ∃ a', bfly3 rnd o fstride st m a = .ok () a' ∧ MixedFl u W o fstride m 3 a a' := by
  have hpos : 0 < st.nfft := h.roots.pos
  obtain ⟨hf, hm⟩ := pos_of_mul hN hpos
  have h1 : W ^ st.nfft = 1 := h.roots.one
  have hz3 : (W ^ (fstride * m)) ^ 3 = 1 := by rw [← pow_mul, hN, h1]
  have hz2 : (W ^ (fstride * m)) ^ 2 = (starRingEnd ℂ) (W ^ (fstride * m)) := by
    rw [← pow_mul]
    exact conj_pow h.roots.unit (by rw [show fstride * m + fstride * m * 2 = st.nfft by omega, h1])
  obtain ⟨hz4, hre⟩ : (W ^ (fstride * m)) ^ 4 = W ^ (fstride * m) ∧ (W ^ (fstride * m)).re = -(1 / 2) :=
    ⟨by rw [pow_succ, hz3, one_mul], h.roots.third _ hN⟩
  have hep := h.tw (fstride * m) (by omega)
  rw [bfly3, bind_ok (h.rd (by omega) a), doN_eq _ hm]
  refine forN_classes' (R := fun v b k z => ‖z - mix W fstride m 3 v b k‖ ≤ kappa u 3 * ∑ q ∈ range 3, ‖b q‖) (fun v a hu ha => ?_) ha
  have hx := stride_lt hu hf
  have e1 : v * fstride = fstride * v := Nat.mul_comm _ _
  have e2 : v * (fstride * 2) = fstride * v * 2 := by ring
  refine ⟨_, (bind_ok (rdF_ok (by omega))).trans ((bind_ok (rdF_ok (by omega))).trans ((bind_ok (rdF_ok (by omega))).trans
    ((bind_ok (h.rd (by omega) a)).trans ((bind_ok (h.rd (by omega) a)).trans
    ((bind_ok (wrF_ok _ (by omega))).trans ((bind_ok (wrF_ok _ (by rw [put_len]; omega))).trans
      (wrF_ok _ (by rw [put_len, put_len]; omega)))))))), rfl, ?_, ?_⟩
  · intro q hq
    have hw1 := h.tw (fstride * v) (by omega)
    have hw2 := h.tw (fstride * v * 2) (by omega)
    rw [mix_eq, e1, e2]
    rw [pow_mul W (fstride * v) 2] at hw2
    generalize st.twiddles.at' (fstride * v) = w1 at hw1 ⊢
    generalize st.twiddles.at' (fstride * v * 2) = w2 at hw2 ⊢
    generalize st.twiddles.at' (fstride * m) = ep at hep ⊢
    generalize W ^ (fstride * v) = w at hw1 hw2 ⊢
    generalize W ^ (fstride * m) = z at hz3 hz2 hz4 hre hep ⊢
    have c0 := CMaj.exact hr.nonneg (a.at' (o + v))
    have s1 := CMaj.tw hr hw1 (a.at' (o + v + m))
    have s2 := CMaj.tw hr hw2 (a.at' (o + v + 2 * m))
    have s3 := s1.add hr s2
    have s0 := s1.sub hr s2
    have hh : Maj u 0 (1 / 2) (1 / 2) (1 / 2) := by
      have := Maj.exact (u := u) (1 / 2)
      rwa [abs_of_nonneg (by norm_num : (0 : ℝ) ≤ 1 / 2)] at this
    have gre := c0.re.sub hr (s3.re.mul hr hh)
    have gim := c0.im.sub hr (s3.im.mul hr hh)
    have tre := s0.re.mul hr hep.im
    have tim := s0.im.mul hr hep.im
    obtain ⟨k1, k2⟩ := mix3 (s0 := a.at' (o + v)) (s1 := a.at' (o + v + m) * w) (s2 := a.at' (o + v + 2 * m) * w ^ 2) hre hz2
    have p0 := n1_nonneg (a.at' (o + v))
    have p1 := n1_nonneg (a.at' (o + v + m))
    have p2 := n1_nonneg (a.at' (o + v + 2 * m))
    have hS : ∑ q ∈ range 3, n1 ((fun q => a.at' (o + v + q * m)) q) = n1 (a.at' (o + v)) + n1 (a.at' (o + v + m)) + n1 (a.at' (o + v + 2 * m)) := by
      simp only [Finset.sum_range_succ, Finset.sum_range_zero, Nat.zero_mul, Nat.one_mul, Nat.add_zero, zero_add]
    have hX : n1 (a.at' (o + v)) + (n1 (a.at' (o + v + m)) + n1 (a.at' (o + v + 2 * m))) * (1 / 2) + (n1 (a.at' (o + v + m)) + n1 (a.at' (o + v + 2 * m))) * 1
        ≤ 2 * ∑ q ∈ range 3, n1 ((fun q => a.at' (o + v + q * m)) q) := by
      rw [hS]
      linarith
    interval_cases q
    · rw [put_at, put_at, put_at, if_neg (by omega), if_neg (by omega), if_pos (by omega)]
      refine (c0.add hr s3).norm hr.nonneg (by decide) (by rw [hS]; linarith) ?_
      simp [Finset.sum_range_succ]
      ring
    · rw [put_at, if_pos (by omega)]
      refine CMaj.norm (x := ⟨_, _⟩) (y := ⟨_, _⟩) hr.nonneg ⟨gre.sub hr tim, gim.add hr tre⟩ (by decide) hX ?_
      rw [k1]
      simp [Finset.sum_range_succ]
      ring
    · rw [put_at, put_at, if_neg (by omega), if_pos (by omega)]
      refine CMaj.norm (x := ⟨_, _⟩) (y := ⟨_, _⟩) hr.nonneg ⟨gre.add hr tim, gim.sub hr tre⟩ (by decide) hX ?_
      rw [k2]
      simp [Finset.sum_range_succ, hz4]
      ring
  · intro i hi
    have h0 := hi 0 (by omega)
    have h1 := hi 1 (by omega)
    have h2 := hi 2 (by omega)
    rw [put_at, put_at, put_at, if_neg (by omega), if_neg (by omega), if_neg (by omega)]

theorem turn_maj (hr : RealErr rnd u) (b : Bool) {n : Nat} {X Y : ℝ} {x y x' y' : ℂ} (h : CMaj u n X x x') (h' : CMaj u n Y y y') :
    CMaj u (n + 1) (X + Y) (x + (if b = true then Complex.I else -Complex.I) * y) (turn rnd b x' y') := by
  have e := (mix4 b x y).1
  cases b
  · rw [← e]
    have := (⟨h.re.add hr h'.im, h.im.sub hr h'.re⟩ : CMaj u (max n n + 1) (X + Y) ⟨_, _⟩ ⟨_, _⟩)
    rw [max_self] at this
    exact this
  · rw [← e]
    have := (⟨h.re.sub hr h'.im, h.im.add hr h'.re⟩ : CMaj u (max n n + 1) (X + Y) ⟨_, _⟩ ⟨_, _⟩)
    rw [max_self] at this
    exact this

theorem bfly4_ok (hr : RealErr rnd u) {st : Cfg} {W : ℂ} (h : Near st W u) {o fstride m : Nat} (hN : fstride * m * 4 = st.nfft) {a : Arr ℂ}
    (ha : o + 4 * m ≤ a.len) : ∃ a', bfly4 rnd o fstride st m a = .ok () a' ∧ MixedFl u W o fstride m 4 a a' := by
  have hpos : 0 < st.nfft := h.roots.pos
  obtain ⟨hf, hm⟩ := pos_of_mul hN hpos
  have hz : W ^ (fstride * m) = if st.inverse = true then Complex.I else -Complex.I := h.roots.quarter _ hN
  rw [bfly4, doN_eq _ hm]
  refine forN_classes' (R := fun v b k z => ‖z - mix W fstride m 4 v b k‖ ≤ kappa u 4 * ∑ q ∈ range 4, ‖b q‖) (fun v a hu ha => ?_) ha
  have hx := stride_lt hu hf
  have e1 : v * fstride = fstride * v := Nat.mul_comm _ _
  have e2 : v * (fstride * 2) = fstride * v * 2 := by ring
  have e3 : v * (fstride * 3) = fstride * v * 3 := by ring
  refine ⟨_, (bind_ok (rdF_ok (by omega))).trans ((bind_ok (rdF_ok (by omega))).trans ((bind_ok (rdF_ok (by omega))).trans
    ((bind_ok (rdF_ok (by omega))).trans
    ((bind_ok (h.rd (by omega) a)).trans ((bind_ok (h.rd (by omega) a)).trans ((bind_ok (h.rd (by omega) a)).trans
    ((bind_ok (wrF_ok _ (by omega))).trans ((bind_ok (wrF_ok _ (by rw [put_len]; omega))).trans
      ((bind_ok (wrF_ok _ (by rw [put_len, put_len]; omega))).trans
      (wrF_ok _ (by rw [put_len, put_len, put_len]; omega))))))))))), rfl, ?_, ?_⟩
  · intro q hq
    have hw1 := h.tw (fstride * v) (by omega)
    have hw2 := h.tw (fstride * v * 2) (by omega)
    have hw3 := h.tw (fstride * v * 3) (by omega)
    rw [mix_eq, e1, e2, e3, hz]
    rw [pow_mul W (fstride * v) 2] at hw2
    rw [pow_mul W (fstride * v) 3] at hw3
    generalize st.twiddles.at' (fstride * v) = w1 at hw1 ⊢
    generalize st.twiddles.at' (fstride * v * 2) = w2 at hw2 ⊢
    generalize st.twiddles.at' (fstride * v * 3) = w3 at hw3 ⊢
    generalize W ^ (fstride * v) = w at hw1 hw2 hw3 ⊢
    have c0 := CMaj.exact hr.nonneg (a.at' (o + v))
    have s0 := CMaj.tw hr hw1 (a.at' (o + v + m))
    have s1 := CMaj.tw hr hw2 (a.at' (o + v + 2 * m))
    have s2 := CMaj.tw hr hw3 (a.at' (o + v + 3 * m))
    have s5 := c0.sub hr s1
    have f0 := c0.add hr s1
    have s3 := s0.add hr s2
    have s4 := s0.sub hr s2
    have t1 := turn_maj hr st.inverse s5 s4
    have t3 := turn_maj hr (!st.inverse) s5 s4
    have hnot : (if (!st.inverse) = true then Complex.I else -Complex.I) = -(if st.inverse = true then Complex.I else -Complex.I) := by
      cases st.inverse <;> simp
    rw [hnot] at t3
    have p0 := n1_nonneg (a.at' (o + v))
    have p1 := n1_nonneg (a.at' (o + v + m))
    have p2 := n1_nonneg (a.at' (o + v + 2 * m))
    have p3 := n1_nonneg (a.at' (o + v + 3 * m))
    have hX : n1 (a.at' (o + v)) + n1 (a.at' (o + v + 2 * m)) + (n1 (a.at' (o + v + m)) + n1 (a.at' (o + v + 3 * m)))
        ≤ 2 * ∑ q ∈ range 4, n1 ((fun q => a.at' (o + v + q * m)) q) := by
      simp only [Finset.sum_range_succ, Finset.sum_range_zero, Nat.zero_mul, Nat.one_mul, Nat.add_zero, zero_add]
      linarith
    have hz2 : (if st.inverse = true then Complex.I else -Complex.I) ^ 2 = -1 := by
      split
      · exact Complex.I_sq
      · rw [neg_sq, Complex.I_sq]
    generalize (if st.inverse = true then Complex.I else -Complex.I) = z at hz2 t1 t3 ⊢
    have hz3 : z ^ 3 = -z := by rw [pow_succ, hz2, neg_one_mul]
    have hz4 : z ^ 4 = 1 := by rw [show z ^ 4 = z ^ 2 * z ^ 2 by ring, hz2]; ring
    have hz6 : z ^ 6 = -1 := by rw [show z ^ 6 = z ^ 4 * z ^ 2 by ring, hz4, hz2, one_mul]
    have hz9 : z ^ 9 = z := by rw [show z ^ 9 = z ^ 4 * z ^ 4 * z by ring, hz4, one_mul, one_mul]
    interval_cases q
    · rw [put_at, put_at, put_at, if_neg (by omega), if_neg (by omega), if_pos (by omega)]
      refine (f0.add hr s3).norm hr.nonneg (by decide) hX ?_
      simp [Finset.sum_range_succ]
      ring
    · rw [put_at, put_at, if_neg (by omega), if_pos (by omega)]
      refine t1.norm hr.nonneg (by decide) hX ?_
      simp [Finset.sum_range_succ, hz2, hz3]
      ring
    · rw [put_at, put_at, put_at, put_at, if_neg (by omega), if_neg (by omega), if_neg (by omega), if_pos (by omega)]
      refine (f0.sub hr s3).norm hr.nonneg (by decide) hX ?_
      simp [Finset.sum_range_succ, hz2, hz4, hz6]
      ring
    · rw [put_at, if_pos (by omega)]
      refine t3.norm hr.nonneg (by decide) hX ?_
      simp [Finset.sum_range_succ, hz3, hz6, hz9]
      ring
  · intro i hi
    have h0 := hi 0 (by omega)
    have h1 := hi 1 (by omega)
    have h2 := hi 2 (by omega)
    have h3 := hi 3 (by omega)
    rw [put_at, put_at, put_at, put_at, if_neg (by omega), if_neg (by omega), if_neg (by omega), if_neg (by omega)]

theorem bfly5_ok (hr : RealErr rnd u) {st : Cfg} {W : ℂ} (h : Near st W u) {o fstride m : Nat} (hN : fstride * m * 5 = st.nfft) {a : Arr ℂ}
    (ha : o + 5 * m ≤ a.len) : ∃ a', bfly5 rnd o fstride st m a = .ok () a' ∧ MixedFl u W o fstride m 5 a a' := by
  have hpos : 0 < st.nfft := h.roots.pos
  obtain ⟨hf, hm⟩ := pos_of_mul hN hpos
  have h1 : W ^ st.nfft = 1 := h.roots.one
  have e0 : fstride * 2 * m = fstride * m * 2 := by ring
  have hz5 : (W ^ (fstride * m)) ^ 5 = 1 := by rw [← pow_mul, hN, h1]
  have hz4 : (W ^ (fstride * m)) ^ 4 = (starRingEnd ℂ) (W ^ (fstride * m)) := by
    rw [← pow_mul]
    exact conj_pow h.roots.unit (by rw [show fstride * m + fstride * m * 4 = st.nfft by omega, h1])
  have hz3 : (W ^ (fstride * m)) ^ 3 = (starRingEnd ℂ) ((W ^ (fstride * m)) ^ 2) := by
    rw [← pow_mul, ← pow_mul]
    exact conj_pow h.roots.unit (by rw [show fstride * m * 2 + fstride * m * 3 = st.nfft by omega, h1])
  have hya := h.tw (fstride * m) (by omega)
  have hyb := h.tw (fstride * m * 2) (by omega)
  rw [pow_mul W (fstride * m) 2] at hyb
  rw [bfly5, bind_ok (h.rd (by omega) a), bind_ok (h.rd (by omega) a)]
  refine forN_classes' (R := fun v b k z => ‖z - mix W fstride m 5 v b k‖ ≤ kappa u 5 * ∑ q ∈ range 5, ‖b q‖) (fun v a hu ha => ?_) ha
  have hx := stride_lt hu hf
  have e1 : v * fstride = fstride * v := Nat.mul_comm _ _
  have e2 : 2 * v * fstride = fstride * v * 2 := by ring
  have e3 : 3 * v * fstride = fstride * v * 3 := by ring
  have e4 : 4 * v * fstride = fstride * v * 4 := by ring
  refine ⟨_, (bind_ok (rdF_ok (by omega))).trans ((bind_ok (rdF_ok (by omega))).trans ((bind_ok (rdF_ok (by omega))).trans
    ((bind_ok (rdF_ok (by omega))).trans ((bind_ok (rdF_ok (by omega))).trans
    ((bind_ok (h.rd (by omega) a)).trans ((bind_ok (h.rd (by omega) a)).trans ((bind_ok (h.rd (by omega) a)).trans ((bind_ok (h.rd (by omega) a)).trans
    ((bind_ok (wrF_ok _ (by omega))).trans ((bind_ok (wrF_ok _ (by rw [put_len]; omega))).trans
      ((bind_ok (wrF_ok _ (by rw [put_len, put_len]; omega))).trans ((bind_ok (wrF_ok _ (by rw [put_len, put_len, put_len]; omega))).trans
      (wrF_ok _ (by rw [put_len, put_len, put_len, put_len]; omega)))))))))))))), rfl, ?_, ?_⟩
  · intro q hq
    have hw1 := h.tw (fstride * v) (by omega)
    have hw2 := h.tw (fstride * v * 2) (by omega)
    have hw3 := h.tw (fstride * v * 3) (by omega)
    have hw4 := h.tw (fstride * v * 4) (by omega)
    rw [mix_eq, e0, e1, e2, e3, e4]
    rw [pow_mul W (fstride * v) 2] at hw2
    rw [pow_mul W (fstride * v) 3] at hw3
    rw [pow_mul W (fstride * v) 4] at hw4
    generalize st.twiddles.at' (fstride * v) = w1 at hw1 ⊢
    generalize st.twiddles.at' (fstride * v * 2) = w2 at hw2 ⊢
    generalize st.twiddles.at' (fstride * v * 3) = w3 at hw3 ⊢
    generalize st.twiddles.at' (fstride * v * 4) = w4 at hw4 ⊢
    generalize st.twiddles.at' (fstride * m) = ya at hya ⊢
    generalize st.twiddles.at' (fstride * m * 2) = yb at hyb ⊢
    generalize W ^ (fstride * v) = w at hw1 hw2 hw3 hw4 ⊢
    generalize W ^ (fstride * m) = z at hz3 hz4 hz5 hya hyb ⊢
    have hz6 : z ^ 6 = z := by rw [pow_succ, hz5, one_mul]
    have hz8 : z ^ 8 = z ^ 3 := by rw [show z ^ 8 = z ^ 5 * z ^ 3 by ring, hz5, one_mul]
    have hz9 : z ^ 9 = z ^ 4 := by rw [show z ^ 9 = z ^ 5 * z ^ 4 by ring, hz5, one_mul]
    have hz12 : z ^ 12 = z ^ 2 := by rw [show z ^ 12 = z ^ 5 * z ^ 5 * z ^ 2 by ring, hz5, one_mul, one_mul]
    have hz16 : z ^ 16 = z := by rw [show z ^ 16 = z ^ 5 * z ^ 5 * z ^ 5 * z by ring, hz5]; ring
    obtain ⟨k1, k4, k2, k3⟩ := mix5 (s0 := a.at' (o + v)) (s1 := a.at' (o + v + m) * w) (s2 := a.at' (o + v + 2 * m) * w ^ 2)
      (s3 := a.at' (o + v + 3 * m) * w ^ 3) (s4 := a.at' (o + v + 4 * m) * w ^ 4) (z := z) (y := z ^ 2)
    rw [← hz3, ← hz4] at k1 k2 k3 k4
    have c0 := CMaj.exact hr.nonneg (a.at' (o + v))
    have s1 := CMaj.tw hr hw1 (a.at' (o + v + m))
    have s2 := CMaj.tw hr hw2 (a.at' (o + v + 2 * m))
    have s3 := CMaj.tw hr hw3 (a.at' (o + v + 3 * m))
    have s4 := CMaj.tw hr hw4 (a.at' (o + v + 4 * m))
    have s7 := s1.add hr s4
    have s10 := s1.sub hr s4
    have s8 := s2.add hr s3
    have s9 := s2.sub hr s3
    have s5 : CMaj u _ _ ⟨_, _⟩ ⟨_, _⟩ := ⟨(c0.re.add hr (s7.re.mul hr hya.re)).add hr (s8.re.mul hr hyb.re), (c0.im.add hr (s7.im.mul hr hya.re)).add hr (s8.im.mul hr hyb.re)⟩
    have s6 : CMaj u _ _ ⟨_, _⟩ ⟨_, _⟩ := ⟨(s10.im.mul hr hya.im).add hr (s9.im.mul hr hyb.im), (s10.re.mul hr hya.im).neg.sub hr (s9.re.mul hr hyb.im)⟩
    have s11 : CMaj u _ _ ⟨_, _⟩ ⟨_, _⟩ := ⟨(c0.re.add hr (s7.re.mul hr hyb.re)).add hr (s8.re.mul hr hya.re), (c0.im.add hr (s7.im.mul hr hyb.re)).add hr (s8.im.mul hr hya.re)⟩
    have s12 : CMaj u _ _ ⟨_, _⟩ ⟨_, _⟩ := ⟨(s10.im.mul hr hyb.im).neg.add hr (s9.im.mul hr hya.im), (s10.re.mul hr hyb.im).sub hr (s9.re.mul hr hya.im)⟩
    have p0 := n1_nonneg (a.at' (o + v))
    have p1 := n1_nonneg (a.at' (o + v + m))
    have p2 := n1_nonneg (a.at' (o + v + 2 * m))
    have p3 := n1_nonneg (a.at' (o + v + 3 * m))
    have p4 := n1_nonneg (a.at' (o + v + 4 * m))
    have hS : ∑ q ∈ range 5, n1 ((fun q => a.at' (o + v + q * m)) q) = n1 (a.at' (o + v)) + n1 (a.at' (o + v + m)) + n1 (a.at' (o + v + 2 * m)) + n1 (a.at' (o + v + 3 * m)) + n1 (a.at' (o + v + 4 * m)) := by
      simp only [Finset.sum_range_succ, Finset.sum_range_zero, Nat.zero_mul, Nat.one_mul, Nat.add_zero, zero_add]
    interval_cases q
    · rw [put_at, put_at, put_at, put_at, put_at, if_neg (by omega), if_neg (by omega), if_neg (by omega), if_neg (by omega), if_pos (by omega)]
      refine CMaj.norm (x := ⟨_, _⟩) (y := ⟨_, _⟩) hr.nonneg ⟨c0.re.add hr (s7.re.add hr s8.re), c0.im.add hr (s7.im.add hr s8.im)⟩ (by decide) (by rw [hS]; linarith) ?_
      apply Complex.ext <;> simp [Finset.sum_range_succ] <;> ring
    · rw [put_at, put_at, put_at, put_at, if_neg (by omega), if_neg (by omega), if_neg (by omega), if_pos (by omega)]
      refine (s5.sub hr s6).norm hr.nonneg (by decide) (by rw [hS]; linarith) ?_
      rw [k1]
      simp [Finset.sum_range_succ]
      ring
    · rw [put_at, put_at, if_neg (by omega), if_pos (by omega)]
      refine (s11.add hr s12).norm hr.nonneg (by decide) (by rw [hS]; linarith) ?_
      rw [k2]
      simp [Finset.sum_range_succ, hz6, hz8]
      ring
    · rw [put_at, if_pos (by omega)]
      refine (s11.sub hr s12).norm hr.nonneg (by decide) (by rw [hS]; linarith) ?_
      rw [k3]
      simp [Finset.sum_range_succ, hz6, hz9, hz12]
      ring
    · rw [put_at, put_at, put_at, if_neg (by omega), if_neg (by omega), if_pos (by omega)]
      refine (s5.add hr s6).norm hr.nonneg (by decide) (by rw [hS]; linarith) ?_
      rw [k4]
      simp [Finset.sum_range_succ, hz8, hz12, hz16]
      ring
  · intro i hi
    have h0 := hi 0 (by omega)
    have h1 := hi 1 (by omega)
    have h2 := hi 2 (by omega)
    have h3 := hi 3 (by omega)
    have h4 := hi 4 (by omega)
    rw [put_at, put_at, put_at, put_at, put_at, if_neg (by omega), if_neg (by omega), if_neg (by omega), if_neg (by omega), if_neg (by omega)]

/-! ### The generic butterfly -/

theorem put_self (a : Arr ℂ) (i : Nat) : put a i (a.at' i) = a := by
  obtain ⟨l, f⟩ := a
  simp only [put]
  congr 1
  funext k
  split
  · rename_i hk
    rw [hk]
  · rfl

theorem genericSum_ok (hr : RealErr rnd u) {st : Cfg} {W : ℂ} (h : Near st W u) {o fstride k : Nat} {s : Nat → ℂ} {p : Nat} {a : Arr ℂ} (hk : o + k < a.len)
    (hf : fstride * k < st.nfft) (r : Nat) (hp : r + 1 ≤ p) :
    ∃ y, genericSum rnd o fstride st k ((List.range p).map s) r a = .ok (fstride * k * r % st.nfft) (put a (o + k) y) ∧
      CMaj u (if r = 0 then 0 else r + 3) (n1 (a.at' (o + k)) + ∑ q ∈ range r, n1 (s (q + 1)))
        (a.at' (o + k) + ∑ q ∈ range r, s (q + 1) * W ^ (fstride * k * (q + 1))) y := by
  induction r with
  | zero =>
    refine ⟨a.at' (o + k), ?_, ?_⟩
    · rw [genericSum, put_self, Nat.mul_zero, Nat.zero_mod]
      rfl
    · simpa using CMaj.exact hr.nonneg (a.at' (o + k))
  | succ r ih =>
    obtain ⟨y, e, g⟩ := ih (by omega)
    have hN : 0 < st.nfft := h.roots.pos
    have hsm : st.nfft ≤ 1073741824 := h.roots.small
    have hlt := Nat.mod_lt (fstride * k * r) hN
    have hnx : nextTw fstride k st.nfft (fstride * k * r % st.nfft) = pure (fstride * k * (r + 1) % st.nfft) := by
      rw [nextTw, if_pos (by omega), mod_step hf]
    have hsc : ((List.range p).map s)[r + 1]? = some (s (r + 1)) := by
      rw [List.getElem?_map, List.getElem?_range (by omega)]
      rfl
    have ht := h.tw (fstride * k * (r + 1) % st.nfft) (Nat.mod_lt _ hN)
    have hpm : W ^ (fstride * k * (r + 1) % st.nfft) = W ^ (fstride * k * (r + 1)) := pow_mod' h.roots (fstride * k * (r + 1))
    rw [hpm] at ht
    refine ⟨cadd rnd y (cmul rnd (s (r + 1)) (st.twiddles.at' (fstride * k * (r + 1) % st.nfft))), ?_, ?_⟩
    · rw [genericSum, bind_ok e, hnx, pure_bind', hsc, orUb_some, pure_bind', bind_ok (h.rd (Nat.mod_lt _ hN) _),
        bind_ok (rdF_ok (by exact hk)), bind_ok (wrF_ok _ (by exact hk)), put_put, put_at, if_pos rfl]
      rfl
    · rw [Finset.sum_range_succ, Finset.sum_range_succ, ← add_assoc, ← add_assoc]
      refine (g.add hr (CMaj.tw hr ht (s (r + 1)))).weaken hr.nonneg ?_ (le_refl _)
      rw [if_neg (Nat.succ_ne_zero r)]
      split <;> omega

theorem genericOut_ok (hr : RealErr rnd u) {st : Cfg} {W : ℂ} (h : Near st W u) {o fstride k : Nat} {s : Nat → ℂ} {p : Nat} {a : Arr ℂ} (hk : o + k < a.len)
    (hf : fstride * k < st.nfft) (hp : 0 < p) :
    ∃ y, genericOut rnd o fstride st k p ((List.range p).map s) a = .ok () (put a (o + k) y) ∧
      ‖y - ∑ q ∈ range p, s q * W ^ (fstride * k * q)‖ ≤ kappa u p * ∑ q ∈ range p, ‖s q‖ := by
  obtain ⟨p, rfl⟩ : ∃ r, p = r + 1 := ⟨p - 1, by omega⟩
  have hsc : ((List.range (p + 1)).map s)[0]? = some (s 0) := by
    rw [List.getElem?_map, List.getElem?_range (by omega)]
    rfl
  obtain ⟨y, e, g⟩ := genericSum_ok hr h (s := s) (p := p + 1) (a := put a (o + k) (s 0)) (by exact hk) hf p (le_refl _)
  rw [put_at, if_pos rfl] at g
  rw [put_put] at e
  refine ⟨y, ?_, ?_⟩
  · rw [genericOut, hsc, orUb_some, pure_bind', bind_ok (wrF_ok _ hk), Nat.add_sub_cancel, bind_ok e]
    rfl
  · have hsn : 0 ≤ ∑ q ∈ range (p + 1), n1 (s q) := Finset.sum_nonneg fun q _ => n1_nonneg _
    refine g.norm hr.nonneg ?_ ?_ ?_
    · split <;> split <;> omega
    · rw [Finset.sum_range_succ'] at hsn ⊢
      linarith
    · rw [Finset.sum_range_succ', add_comm (s 0)]
      simp

theorem bflyGeneric_ok (hr : RealErr rnd u) {st : Cfg} {W : ℂ} (h : Near st W u) {o fstride m p : Nat} (hN : fstride * m * p = st.nfft) {a : Arr ℂ}
    (ha : o + p * m ≤ a.len) : ∃ a', bflyGeneric rnd o fstride st m p a = .ok () a' ∧ MixedFl u W o fstride m p a a' := by
  have hpos : 0 < st.nfft := h.roots.pos
  obtain ⟨hf, hm⟩ := pos_of_mul hN hpos
  have hp : 0 < p := by
    rcases Nat.eq_zero_or_pos p with rfl | g
    · rw [Nat.mul_zero] at hN
      omega
    · exact g
  rw [bflyGeneric]
  refine forN_classes' (R := fun v b k z => ‖z - mix W fstride m p v b k‖ ≤ kappa u p * ∑ q ∈ range p, ‖b q‖) (fun v a hu ha => ?_) ha
  obtain ⟨a', e, h1, h2, h3⟩ := forN_inv (n := p) (m := a)
    (body := fun q1 => genericOut rnd o fstride st (v + q1 * m) p ((List.range p).map fun q => a.at' (o + v + q * m)))
    (P := fun j b => b.len = a.len ∧ (∀ k, k < j → ‖b.at' (o + v + k * m) - mix W fstride m p v (fun q => a.at' (o + v + q * m)) k‖ ≤ kappa u p * ∑ q ∈ range p, ‖a.at' (o + v + q * m)‖) ∧
      ∀ i, (∀ q, q < j → i ≠ o + v + q * m) → b.at' i = a.at' i)
    ⟨rfl, fun q hq => absurd hq (by omega), fun _ _ => rfl⟩ (by
      rintro j b hj ⟨g1, g2, g3⟩
      have hlt := class_lt (o := o) hu hj
      have hk : fstride * (v + j * m) < st.nfft := by
        rw [← hN, Nat.mul_assoc, Nat.mul_comm m]
        have := class_lt (o := 0) hu hj
        exact Nat.mul_lt_mul_of_pos_left (by omega) hf
      obtain ⟨y, ey, hy⟩ := genericOut_ok hr h (o := o) (s := fun q => a.at' (o + v + q * m)) (a := b) (by omega) hk hp
      refine ⟨_, ey, g1, ?_, ?_⟩
      · intro q hq
        rw [put_at]
        by_cases hqj : q = j
        · subst hqj
          rw [if_pos (by omega)]
          exact hy
        · rw [if_neg (fun hc => hqj (class_inj hu hu (by omega : o + v + q * m = o + v + j * m)).2)]
          exact g2 q (by omega)
      · intro i hi
        rw [put_at, if_neg (by have := hi j (by omega); omega), g3 i fun q hq => hi q (by omega)])
  exact ⟨a', (bind_ok (gather_ok fun q hq => by have := class_lt (o := o) hu hq; omega)).trans e, h1, h2, h3⟩

theorem bfly_ok (hr : RealErr rnd u) {st : Cfg} {W : ℂ} (h : Near st W u) {o fstride m p : Nat} (hN : fstride * m * p = st.nfft) {a : Arr ℂ}
    (ha : o + p * m ≤ a.len) : ∃ a', bfly rnd o fstride st m p a = .ok () a' ∧ MixedFl u W o fstride m p a a' := by
  unfold bfly
  split
  · exact bfly2_ok hr h hN ha
  · exact bfly3_ok hr h hN ha
  · exact bfly4_ok hr h hN ha
  · exact bfly5_ok hr h hN ha
  · exact bflyGeneric_ok hr h hN ha

/-! ### kf_work -/

/-- How much the errors grow -/
noncomputable def growth (u : ℝ) : List (Nat × Nat) → ℝ
  | [] => 1
  | (p, m) :: rest => (1 + kappa u p) * (if m = 1 then 1 else growth u rest)

theorem kappa_nonneg (hu : 0 ≤ u) (p : Nat) : 0 ≤ kappa u p := by
  have := one_le_g hu (if p = 1 then 0 else p + 4)
  rw [kappa]
  linarith

theorem growth_ge (hu : 0 ≤ u) (L : List (Nat × Nat)) : 1 ≤ growth u L := by
  induction L with
  | nil => exact le_refl _
  | cons pm L ih =>
    obtain ⟨p, m⟩ := pm
    have hk := kappa_nonneg hu p
    rw [growth]
    refine one_le_mul_of_one_le_of_one_le (by linarith) ?_
    split
    · exact le_refl _
    · exact ih

theorem norm_root {st : Cfg} {W : ℂ} (h : Near st W u) (n : Nat) : ‖W ^ n‖ = 1 := by
  have h1 := h.roots.unit
  rw [Complex.mul_conj] at h1
  have h2 : Complex.normSq W = 1 := by exact_mod_cast h1
  rw [norm_pow, Complex.norm_def, h2, Real.sqrt_one, one_pow]

theorem work_ok (hr : RealErr rnd u) {st : Cfg} {W : ℂ} (h : Near st W u) {f : Arr ℂ} {is : Nat} (L : List (Nat × Nat)) :
    ∀ {n o i fs : Nat} {a : Arr ℂ}, Chain n L → fs * n = st.nfft → o + n ≤ a.len → (∀ j, j < n → i + j * (fs * is) < f.len) →
    ∃ a', work rnd st f is L o i fs a = .ok () a' ∧ a'.len = a.len ∧
      (∀ k, k < n → ‖a'.at' (o + k) - ∑ j ∈ range n, f.at' (i + j * (fs * is)) * W ^ (fs * j * k)‖ ≤ (growth u L - 1) * ∑ j ∈ range n, ‖f.at' (i + j * (fs * is))‖) ∧
      ∀ x, (x < o ∨ o + n ≤ x) → a'.at' x = a.at' x := by
  induction L with
  | nil => exact fun hc => hc.elim
  | cons pm L ih =>
    obtain ⟨p, m⟩ := pm
    rintro n o i fs a ⟨hp, hn, hm⟩ hN ha hf
    subst hn
    have hNpos : 0 < st.nfft := h.roots.pos
    have hN' : fs * m * p = st.nfft := by rw [← hN]; ring
    obtain ⟨hfs, hmpos⟩ := pos_of_mul hN' hNpos
    obtain ⟨g, hg⟩ : ∃ g, g = (if m = 1 then 1 else growth u L) := ⟨_, rfl⟩
    have hg1 : 1 ≤ g := by
      rw [hg]
      split
      · exact le_refl _
      · exact growth_ge hr.nonneg L
    -- one round
    have hround : ∀ q b, q < p → b.len = a.len → ∃ b', (if m = 1 then do
          let v ← f.rd (i + q * (fs * is))
          wrF (o + q) v
        else work rnd st f is L (o + q * m) (i + q * (fs * is)) (fs * p)) b = .ok () b' ∧ b'.len = b.len ∧
        (∀ t, t < m → ‖b'.at' (o + q * m + t) - ∑ j ∈ range m, f.at' (i + (q + p * j) * (fs * is)) * W ^ (fs * p * j * t)‖
          ≤ (g - 1) * ∑ j ∈ range m, ‖f.at' (i + (q + p * j) * (fs * is))‖) ∧
        ∀ x, (x < o + q * m ∨ o + q * m + m ≤ x) → b'.at' x = b.at' x := by
      intro q b hq hb
      have hqm : q * m + m ≤ p * m := by
        have : (q + 1) * m ≤ p * m := Nat.mul_le_mul_right _ hq
        rwa [Nat.add_mul, Nat.one_mul] at this
      by_cases h1 : m = 1
      · subst h1
        rw [if_pos rfl]
        have hq1 := hf q (by omega)
        refine ⟨_, (bind_ok (Arr.rd_ok hq1 b)).trans (wrF_ok _ (by omega)), rfl, ?_, ?_⟩
        · intro t ht
          obtain rfl : t = 0 := by omega
          rw [put_at, if_pos (by omega), hg]
          simp
        · intro x hx
          rw [put_at, if_neg (by omega)]
      · rw [if_neg h1]
        rw [if_neg h1] at hg
        have hidx : ∀ j, i + q * (fs * is) + j * (fs * p * is) = i + (q + p * j) * (fs * is) := fun j => by ring
        obtain ⟨b', e, g1, g2, g3⟩ := ih (n := m) (o := o + q * m) (i := i + q * (fs * is)) (fs := fs * p) (a := b)
          (hm.resolve_left h1) (by rw [← hN]; ring) (by omega) (by
            intro j hj
            rw [hidx]
            refine hf _ ?_
            have : p * (j + 1) ≤ p * m := Nat.mul_le_mul_left _ hj
            rw [Nat.mul_add, Nat.mul_one] at this
            omega)
        refine ⟨b', e, g1, fun t ht => ?_, g3⟩
        have := g2 t ht
        simp only [hidx] at this
        rw [hg]
        exact this
    obtain ⟨b, e, g1, g2, g3⟩ := forN_inv (n := p) (m := a)
      (body := fun q => if m = 1 then do
          let v ← f.rd (i + q * (fs * is))
          wrF (o + q) v
        else work rnd st f is L (o + q * m) (i + q * (fs * is)) (fs * p))
      (P := fun q b => b.len = a.len ∧
        (∀ q' t, q' < q → t < m → ‖b.at' (o + q' * m + t) - ∑ j ∈ range m, f.at' (i + (q' + p * j) * (fs * is)) * W ^ (fs * p * j * t)‖
          ≤ (g - 1) * ∑ j ∈ range m, ‖f.at' (i + (q' + p * j) * (fs * is))‖) ∧
        ∀ x, (x < o ∨ o + p * m ≤ x) → b.at' x = a.at' x)
      ⟨rfl, fun _ _ hq => absurd hq (by omega), fun _ _ => rfl⟩ (by
        rintro q b hq ⟨g1, g2, g3⟩
        obtain ⟨b', e, k1, k2, k3⟩ := hround q b hq g1
        have hqm : q * m + m ≤ p * m := by
          have : (q + 1) * m ≤ p * m := Nat.mul_le_mul_right _ hq
          rwa [Nat.add_mul, Nat.one_mul] at this
        refine ⟨b', e, k1.trans g1, ?_, ?_⟩
        · intro q' t hq' ht
          by_cases hc : q' = q
          · subst hc
            exact k2 t ht
          · have : q' * m + m ≤ q * m := by
              have : (q' + 1) * m ≤ q * m := Nat.mul_le_mul_right _ (by omega)
              rwa [Nat.add_mul, Nat.one_mul] at this
            rw [k3 _ (by omega)]
            exact g2 q' t (by omega) ht
        · intro x hx
          rw [k3 x (by omega), g3 x hx])
    obtain ⟨a', e', k1, k2, k3⟩ := bfly_ok hr h (o := o) (a := b) hN' (by omega)
    refine ⟨a', ?_, k1.trans g1, ?_, fun x hx => (k3 x hx).trans (g3 x hx)⟩
    · rw [work, doN_eq _ hp]
      exact (bind_ok e).trans e'
    · intro k hk
      have hkm := Nat.mod_add_div k m
      have hu := Nat.mod_lt k hmpos
      have hv : k / m < p := Nat.div_lt_of_lt_mul (by rwa [Nat.mul_comm])
      have hidx : o + k = o + k % m + k / m * m := by rw [Nat.mul_comm (k / m)]; omega
      have hk' : k % m + k / m * m = k := by rw [Nat.mul_comm (k / m)]; omega
      have hone : W ^ st.nfft = 1 := h.roots.one
      -- the exact values
      obtain ⟨A, hA⟩ : ∃ A : Nat → ℂ, ∀ q, A q = ∑ j ∈ range m, f.at' (i + (q + p * j) * (fs * is)) * W ^ (fs * p * j * (k % m)) := ⟨_, fun _ => rfl⟩
      obtain ⟨S, hS⟩ : ∃ S : Nat → ℝ, ∀ q, S q = ∑ j ∈ range m, ‖f.at' (i + (q + p * j) * (fs * is))‖ := ⟨_, fun _ => rfl⟩
      have hSn : ∀ q, 0 ≤ S q := fun q => by rw [hS]; exact Finset.sum_nonneg fun _ _ => norm_nonneg _
      have hAS : ∀ q, ‖A q‖ ≤ S q := fun q => by
        rw [hA, hS]
        refine norm_sum_le_of_le _ fun j _ => ?_
        rw [norm_mul, norm_root h, mul_one]
      have hb : ∀ q, q < p → ‖b.at' (o + k % m + q * m) - A q‖ ≤ (g - 1) * S q := fun q hq => by
        rw [hA, hS, show o + k % m + q * m = o + q * m + k % m by omega]
        exact g2 q _ hq hu
      have hb' : ∀ q, q < p → ‖b.at' (o + k % m + q * m)‖ ≤ g * S q := fun q hq => by
        have h1 := hb q hq
        have h2 := norm_add_le (b.at' (o + k % m + q * m) - A q) (A q)
        rw [sub_add_cancel] at h2
        have h3 := hAS q
        linarith
      have hsum : ∑ j ∈ range (p * m), f.at' (i + j * (fs * is)) * W ^ (fs * j * k) = mix W fs m p (k % m) A (k / m) := by
        rw [mix, sum_classes]
        refine Finset.sum_congr rfl fun q hq => ?_
        rw [hA, Finset.sum_mul, hk']
        refine Finset.sum_congr rfl fun t _ => ?_
        rw [mul_assoc (f.at' _)]
        congr 1
        have : fs * (q + p * t) * k = fs * p * t * (k % m) + fs * k * q + st.nfft * (t * (k / m)) := by
          conv_lhs => rw [← hk']
          conv_rhs => rw [← hk', ← hN', Nat.add_mul_mod_self_right, Nat.mod_mod, Nat.add_mul_div_right _ _ hmpos, Nat.div_eq_of_lt hu, Nat.zero_add]
          ring
        rw [this, pow_add, pow_add, pow_mul W st.nfft, hone, one_pow, mul_one]
      have hT : ∑ j ∈ range (p * m), ‖f.at' (i + j * (fs * is))‖ = ∑ q ∈ range p, S q := by
        have hre : ∀ F : Nat → ℝ, ∑ n ∈ range (p * m), F n = ∑ q ∈ range p, ∑ t ∈ range m, F (q + p * t) := by
          intro F
          have := sum_classes (fun n => ((F n : ℝ) : ℂ)) p m
          exact_mod_cast this
        rw [hre]
        exact Finset.sum_congr rfl fun q _ => (hS q).symm
      have d1 : ‖a'.at' (o + k) - mix W fs m p (k % m) (fun q => b.at' (o + k % m + q * m)) (k / m)‖ ≤ kappa u p * (g * ∑ q ∈ range p, S q) := by
        rw [hidx]
        refine (k2 _ _ hu hv).trans (mul_le_mul_of_nonneg_left ?_ (kappa_nonneg hr.nonneg p))
        rw [Finset.mul_sum]
        exact Finset.sum_le_sum fun q hq => hb' q (Finset.mem_range.1 hq)
      have d2 : ‖mix W fs m p (k % m) (fun q => b.at' (o + k % m + q * m)) (k / m) - mix W fs m p (k % m) A (k / m)‖ ≤ (g - 1) * ∑ q ∈ range p, S q := by
        rw [mix, mix, ← Finset.sum_sub_distrib, Finset.mul_sum]
        refine norm_sum_le_of_le _ fun q hq => ?_
        rw [← sub_mul, norm_mul, norm_root h, mul_one]
        exact hb q (Finset.mem_range.1 hq)
      rw [hsum, hT, growth, ← hg]
      have h3 := norm_add_le (a'.at' (o + k) - mix W fs m p (k % m) (fun q => b.at' (o + k % m + q * m)) (k / m))
        (mix W fs m p (k % m) (fun q => b.at' (o + k % m + q * m)) (k / m) - mix W fs m p (k % m) A (k / m))
      rw [sub_add_sub_cancel] at h3
      refine h3.trans ((add_le_add d1 d2).trans (le_of_eq ?_))
      ring

/-! ### The plan -/

/-- The table holds the sines and cosines up to u. -/
structure Table (tab : Nat → Bool → Nat → ℂ) (u : ℝ) : Prop where
  re : ∀ n inv k, k < n → |(tab n inv k).re - Real.cos (2 * Real.pi * k / n)| ≤ u
  im : ∀ n inv k, k < n → |(tab n inv k).im - (if inv then 1 else -1) * Real.sin (2 * Real.pi * k / n)| ≤ u

theorem twiddle_parts (n : Nat) (inv : Bool) (k : Nat) :
    (root inv n ^ k).re = Real.cos (2 * Real.pi * k / n) ∧ (root inv n ^ k).im = (if inv then 1 else -1) * Real.sin (2 * Real.pi * k / n) := by
  rw [← twiddle_eq]
  have e : (-2 * Real.pi * k / n : ℝ) = -(2 * Real.pi * k / n) := by ring
  unfold Kiss.twiddle
  cases inv
  · simp only [Bool.false_eq_true, if_false]
    rw [e, Real.cos_neg, Real.sin_neg]
    exact ⟨rfl, by ring⟩
  · simp only [if_true]
    rw [e, mul_neg_one, neg_neg]
    exact ⟨rfl, by ring⟩

theorem table_near {tab : Nat → Bool → Nat → ℂ} (ht : Table tab u) {n : Nat} {inverse : Bool} {L : List (Nat × Nat)} (hn : 0 < n) (hs : n ≤ 1073741824) :
    Near ⟨n, inverse, L, ⟨n, tab n inverse⟩⟩ (root inverse n) u := by
  have hr := root_roots (inverse := inverse) (L := L) hn hs
  refine ⟨⟨hr.pos, hr.small, rfl, fun _ _ => rfl, hr.one, hr.unit, hr.half, hr.third, hr.quarter⟩, rfl, fun k hk => ?_⟩
  obtain ⟨e1, e2⟩ := twiddle_parts n inverse k
  have h1 := ht.re n inverse k hk
  have h2 := ht.im n inverse k hk
  refine ⟨⟨?_, ?_⟩, ⟨?_, ?_⟩⟩
  · rw [e1]
    exact Real.abs_cos_le_one _
  · rw [e1, pow_one, mul_one, add_sub_cancel_left]
    exact h1
  · rw [e2, abs_mul]
    have := Real.abs_sin_le_one (2 * Real.pi * k / n)
    cases inverse <;> simp <;> exact this
  · rw [e2, pow_one, mul_one, add_sub_cancel_left]
    exact h2

theorem alloc_ok {tab : Nat → Bool → Nat → ℂ} (ht : Table tab u) {μ : Type} {n : Nat} (inverse : Bool) (hn : 0 < n) (hs : n ≤ 1073741824) (m : μ) :
    ∃ st, alloc tab n inverse m = .ok st m ∧ st.nfft = n ∧ Near st (root inverse n) u ∧ Chain n st.factors ∧ factor n = some st.factors := by
  obtain ⟨L, e, c, l⟩ := factor_ok hn (by omega)
  refine ⟨⟨n, inverse, L, ⟨n, tab n inverse⟩⟩, ?_, rfl, table_near ht hn hs, c, e⟩
  rw [alloc, e, orUb_some, pure_bind', if_pos (by omega)]
  rfl

theorem fftStride_ok (hr : RealErr rnd u) {st : Cfg} {W : ℂ} (h : Near st W u) {f : Arr ℂ} {is o i : Nat} (hc : Chain st.nfft st.factors) {a : Arr ℂ}
    (ha : o + st.nfft ≤ a.len) (hf : ∀ j, j < st.nfft → i + j * is < f.len) :
    ∃ a', fftStride rnd st f i o is a = .ok () a' ∧ a'.len = a.len ∧
      (∀ k, k < st.nfft → ‖a'.at' (o + k) - ∑ j ∈ range st.nfft, f.at' (i + j * is) * W ^ (j * k)‖ ≤ (growth u st.factors - 1) * ∑ j ∈ range st.nfft, ‖f.at' (i + j * is)‖) ∧
      ∀ x, (x < o ∨ o + st.nfft ≤ x) → a'.at' x = a.at' x := by
  obtain ⟨a', e, h1, h2, h3⟩ := work_ok hr h (is := is) st.factors hc (Nat.one_mul _) ha (fun j hj => by rw [Nat.one_mul]; exact hf j hj)
  refine ⟨a', e, h1, fun k hk => ?_, h3⟩
  have := h2 k hk
  simpa only [Nat.one_mul] using this

theorem stage_ok (hr : RealErr rnd u) {st : Cfg} {W : ℂ} (h : Near st W u) (hc : Chain st.nfft st.factors) {s : Nat} {f a : Arr ℂ} (hf : f.len = st.nfft * s) (ha : a.len = st.nfft * s) :
    ∃ a', stage rnd (st.nfft * s) st f a = .ok () a' ∧ a'.len = a.len ∧
      ∀ i k, i < s → k < st.nfft → ‖a'.at' (i * st.nfft + k) - ∑ j ∈ range st.nfft, f.at' (i + j * s) * W ^ (j * k)‖ ≤ (growth u st.factors - 1) * ∑ j ∈ range st.nfft, ‖f.at' (i + j * s)‖ := by
  have hpos : 0 < st.nfft := h.roots.pos
  unfold stage
  rw [Nat.mul_div_cancel_left _ hpos]
  obtain ⟨a', e, h1, h2⟩ := forN_inv (n := s) (m := a) (body := fun i => fftStride rnd st f i (i * st.nfft) s)
    (P := fun c b => b.len = a.len ∧ ∀ i k, i < c → k < st.nfft → ‖b.at' (i * st.nfft + k) - ∑ j ∈ range st.nfft, f.at' (i + j * s) * W ^ (j * k)‖ ≤ (growth u st.factors - 1) * ∑ j ∈ range st.nfft, ‖f.at' (i + j * s)‖)
    ⟨rfl, fun _ _ h => absurd h (by omega)⟩ (by
      rintro c b hcs ⟨g1, g2⟩
      have hcl : c * st.nfft + st.nfft ≤ st.nfft * s := by
        have : (c + 1) * st.nfft ≤ s * st.nfft := Nat.mul_le_mul_right _ hcs
        rw [Nat.add_mul, Nat.one_mul, Nat.mul_comm s] at this
        exact this
      obtain ⟨b', e, k1, k2, k3⟩ := fftStride_ok hr h (f := f) (is := s) (o := c * st.nfft) (i := c) hc (a := b) (by omega) (by
        intro j hj
        have : (j + 1) * s ≤ st.nfft * s := Nat.mul_le_mul_right _ hj
        rw [Nat.add_mul, Nat.one_mul] at this
        omega)
      refine ⟨b', e, k1.trans g1, fun i k hi hk => ?_⟩
      by_cases hic : i = c
      · subst hic
        exact k2 k hk
      · have : (i + 1) * st.nfft ≤ c * st.nfft := Nat.mul_le_mul_right _ (by omega)
        rw [Nat.add_mul, Nat.one_mul] at this
        rw [k3 _ (by omega)]
        exact g2 i k (by omega) hk)
  exact ⟨a', e, h1, h2⟩

/-- The two stages -/
theorem nd_ok (hr : RealErr rnd u) {tab : Nat → Bool → Nat → ℂ} (ht : Table tab u) {w h : Nat} {inverse : Bool} {junk : Nat → ℂ} (hw : 0 < w) (hh : 0 < h) (hs : w * h ≤ 1073741824) :
    ∃ pl Lw Lh, planAlloc tab w h inverse junk () = .ok pl () ∧ factor w = some Lw ∧ factor h = some Lh ∧ ∀ fin fout : Arr ℂ, fin.len = w * h → fout.len = w * h →
      ∃ c, nd rnd pl fin fout () = .ok c () ∧ c.len = w * h ∧
        ∀ i k, i < w → k < h → ‖c.at' (i * h + k) - dftR (root inverse h) (root inverse w) h w fin.at' k i‖ ≤ (growth u Lw * growth u Lh - 1) * ∑ j ∈ range (w * h), ‖fin.at' j‖ := by
  have hw' : w ≤ w * h := Nat.le_mul_of_pos_right _ hh
  have hh' : h ≤ w * h := Nat.le_mul_of_pos_left _ hw
  obtain ⟨s0, e0, n0, r0, c0, f0⟩ := alloc_ok ht inverse hw (by omega) ()
  obtain ⟨s1, e1, n1, r1, c1, f1⟩ := alloc_ok ht inverse hh (by omega) ()
  refine ⟨⟨w * h, s0, s1, ⟨w * h, junk⟩⟩, s0.factors, s1.factors, ?_, f0, f1, ?_⟩
  · rw [planAlloc, if_pos (by omega), bind_ok e0, bind_ok e1]
    rfl
  · intro fin fout hfin hfout
    rw [← n0] at c0
    rw [← n1] at c1
    obtain ⟨t, et, lt, gt⟩ := stage_ok hr r0 c0 (s := h) (f := fin) (a := ⟨w * h, junk⟩) (by rw [n0, hfin]) (by rw [n0])
    obtain ⟨c, ec, lc, gc⟩ := stage_ok hr r1 c1 (s := w) (f := t) (a := fout) (by rw [n1, lt, Nat.mul_comm]) (by rw [n1, hfout, Nat.mul_comm])
    rw [n0] at et gt
    rw [n1, Nat.mul_comm h w] at ec
    rw [n1] at gc
    refine ⟨c, (bind_ok (onBuf_ok et ())).trans (onBuf_ok ec ()), lc.trans hfout, ?_⟩
    intro i k hi hk
    have G0 := growth_ge hr.nonneg s0.factors
    have G1 := growth_ge hr.nonneg s1.factors
    generalize growth u s0.factors = g0 at gt G0 ⊢
    generalize growth u s1.factors = g1 at gc G1 ⊢
    obtain ⟨T, hT⟩ : ∃ T : Nat → ℂ, ∀ j, T j = ∑ j' ∈ range w, fin.at' (j + j' * h) * root inverse w ^ (j' * i) := ⟨_, fun _ => rfl⟩
    obtain ⟨S, hS⟩ : ∃ S : Nat → ℝ, ∀ j, S j = ∑ j' ∈ range w, ‖fin.at' (j + j' * h)‖ := ⟨_, fun _ => rfl⟩
    have hTS : ∀ j, ‖T j‖ ≤ S j := fun j => by
      rw [hT, hS]
      refine norm_sum_le_of_le _ fun j' _ => ?_
      rw [norm_mul, norm_root r0, mul_one]
    have hb : ∀ j, j < h → ‖t.at' (i + j * w) - T j‖ ≤ (g0 - 1) * S j := fun j hj => by
      rw [show i + j * w = j * w + i by omega, hT, hS]
      exact gt j i hj hi
    have hb' : ∀ j, j < h → ‖t.at' (i + j * w)‖ ≤ g0 * S j := fun j hj => by
      have h1 := hb j hj
      have h2 := norm_add_le (t.at' (i + j * w) - T j) (T j)
      rw [sub_add_cancel] at h2
      have h3 := hTS j
      linarith
    have hre : ∑ j ∈ range (w * h), ‖fin.at' j‖ = ∑ j ∈ range h, S j := by
      have := sum_classes (fun n => ((‖fin.at' n‖ : ℝ) : ℂ)) h w
      rw [Nat.mul_comm w h]
      have h2 : ∑ n ∈ range (h * w), ‖fin.at' n‖ = ∑ q ∈ range h, ∑ t ∈ range w, ‖fin.at' (q + h * t)‖ := by exact_mod_cast this
      rw [h2]
      refine Finset.sum_congr rfl fun j _ => ?_
      rw [hS]
      exact Finset.sum_congr rfl fun j' _ => by rw [Nat.mul_comm h]
    have hd : dftR (root inverse h) (root inverse w) h w fin.at' k i = ∑ j ∈ range h, T j * root inverse h ^ (j * k) := by
      rw [dftR, Finset.sum_comm]
      refine Finset.sum_congr rfl fun j _ => ?_
      rw [hT, Finset.sum_mul]
      refine Finset.sum_congr rfl fun j' _ => ?_
      rw [Nat.add_comm j, mul_assoc, mul_comm (root inverse w ^ _)]
    have d1 : ‖c.at' (i * h + k) - ∑ j ∈ range h, t.at' (i + j * w) * root inverse h ^ (j * k)‖ ≤ (g1 - 1) * (g0 * ∑ j ∈ range h, S j) := by
      refine (gc i k hi hk).trans (mul_le_mul_of_nonneg_left ?_ (by linarith))
      rw [Finset.mul_sum]
      exact Finset.sum_le_sum fun j hj => hb' j (Finset.mem_range.1 hj)
    have d2 : ‖∑ j ∈ range h, t.at' (i + j * w) * root inverse h ^ (j * k) - ∑ j ∈ range h, T j * root inverse h ^ (j * k)‖ ≤ (g0 - 1) * ∑ j ∈ range h, S j := by
      rw [← Finset.sum_sub_distrib, Finset.mul_sum]
      refine norm_sum_le_of_le _ fun j hj => ?_
      rw [← sub_mul, norm_mul, norm_root r1, mul_one]
      exact hb j (Finset.mem_range.1 hj)
    rw [hre, hd]
    have h3 := norm_add_le (c.at' (i * h + k) - ∑ j ∈ range h, t.at' (i + j * w) * root inverse h ^ (j * k))
      (∑ j ∈ range h, t.at' (i + j * w) * root inverse h ^ (j * k) - ∑ j ∈ range h, T j * root inverse h ^ (j * k))
    rw [sub_add_sub_cancel] at h3
    refine h3.trans ((add_le_add d1 d2).trans (le_of_eq ?_))
    ring

/-! ### The factors -/

/-- Bernoulli's inequality -/
theorem one_kappa (hu : 0 ≤ u) (p : Nat) : 1 + kappa u p ≤ (1 + u) ^ (4 * (if p = 1 then 0 else p + 4)) := by
  have h1 := one_le_g hu (if p = 1 then 0 else p + 4)
  have h2 := one_add_mul_le_pow (a := (1 + u) ^ (if p = 1 then 0 else p + 4) - 1) (by linarith) 4
  rw [add_sub_cancel, ← pow_mul, Nat.mul_comm] at h2
  rw [kappa]
  exact_mod_cast h2

/-- Σ of p + 4 over the factors -/
def cost : List (Nat × Nat) → Nat
  | [] => 0
  | (p, m) :: rest => (if p = 1 then 0 else p + 4) + (if m = 1 then 0 else cost rest)

theorem growth_le (hu : 0 ≤ u) (L : List (Nat × Nat)) : growth u L ≤ (1 + u) ^ (4 * cost L) := by
  induction L with
  | nil => simp [growth, cost]
  | cons pm L ih =>
    obtain ⟨p, m⟩ := pm
    rw [growth, cost, Nat.mul_add, pow_add]
    have hg := growth_ge hu L
    refine mul_le_mul (one_kappa hu p) ?_ (by split <;> linarith) (by positivity)
    split
    · simp
    · exact ih

/-- A factor found by kf_factor: no smaller prime divides n. -/
def Low (n p : Nat) : Prop := p = 4 ∨ p = 2 ∨ (3 ≤ p ∧ p % 2 = 1 ∧ ∀ q, q.Prime → q < p → ¬ q ∣ n) ∨ (p = n ∧ (n.Prime ∨ n = 1))

theorem low_next {n s p : Nat} (hn : 0 < n) (hs : n < (s + 1) * (s + 1)) (hl : Low n p) (hd : n % p ≠ 0) : Low n (nextP n s p) := by
  have hnp : ¬ p ∣ n := fun hc => hd (Nat.mod_eq_zero_of_dvd hc)
  -- all primes up to s have been tried
  have fin : ∀ r, (∀ q, q.Prime → q < r → ¬ q ∣ n) → s < r → Low n n := by
    intro r hr hsr
    refine .inr (.inr (.inr ⟨rfl, ?_⟩))
    by_contra hc
    push Not at hc
    have h1 := Nat.minFac_sq_le_self hn hc.1
    have h2 := Nat.minFac_prime hc.2
    have h3 : ¬ n.minFac < r := fun hlt => hr _ h2 hlt (Nat.minFac_dvd n)
    have h4 : (s + 1) * (s + 1) ≤ n.minFac * n.minFac := Nat.mul_le_mul (by omega) (by omega)
    rw [sq] at h1
    omega
  have two : ∀ q, q.Prime → q < 2 → ¬ q ∣ n := fun q hq hlt => absurd hq.two_le (by omega)
  unfold nextP
  rcases hl with rfl | rfl | ⟨h3, ho, hq⟩ | ⟨rfl, -⟩
  · simp only [if_true]
    split
    · exact fin 2 two (by assumption)
    · exact .inr (.inl rfl)
  · have three : ∀ q, q.Prime → q < 3 → ¬ q ∣ n := fun q hq hlt => by
      obtain rfl : q = 2 := by have := hq.two_le; omega
      exact hnp
    simp only [show (2 : Nat) ≠ 4 by decide, if_false, if_true]
    split
    · exact fin 3 three (by assumption)
    · exact .inr (.inr (.inl ⟨le_refl _, rfl, three⟩))
  · have nxt : ∀ q, q.Prime → q < p + 2 → ¬ q ∣ n := fun q hp hlt => by
      by_cases h1 : q < p
      · exact hq q hp h1
      · by_cases h2 : q = p
        · rw [h2]
          exact hnp
        · obtain rfl : q = p + 1 := by omega
          rcases hp.eq_two_or_odd with h5 | h5 <;> omega
    have e : (if p = 4 then 2 else if p = 2 then 3 else p + 2) = p + 2 := by rw [if_neg (by omega), if_neg (by omega)]
    simp only [e]
    split
    · exact fin (p + 2) nxt (by assumption)
    · exact .inr (.inr (.inl ⟨by omega, by omega, nxt⟩))
  · exact absurd (dvd_refl _) hnp

theorem findP_low {n s : Nat} (hn : 0 < n) (hs : n < (s + 1) * (s + 1)) (fuel : Nat) : ∀ p r, Low n p → findP n s fuel p = some r → Low n r ∧ r ∣ n := by
  induction fuel with
  | zero => intro p r _ h; simp [findP] at h
  | succ fuel ih =>
    intro p r hl h
    rw [findP] at h
    split at h
    · exact ih _ _ (low_next hn hs hl (by assumption)) h
    · rename_i hd
      injection h with h
      subst h
      exact ⟨hl, Nat.dvd_of_mod_eq_zero (by omega)⟩

theorem low_prime {n p : Nat} (hl : Low n p) (hd : p ∣ n) : p = 4 ∨ p.Prime ∨ p = 1 := by
  rcases hl with h | rfl | ⟨h3, -, hq⟩ | ⟨rfl, h | h⟩
  · exact .inl h
  · exact .inr (.inl Nat.prime_two)
  · refine .inr (.inl ?_)
    by_contra hc
    have h1 := Nat.minFac_prime (n := p) (by omega)
    have h2 := (Nat.not_prime_iff_minFac_lt (by omega)).1 hc
    exact hq _ h1 h2 ((Nat.minFac_dvd p).trans hd)
  · exact .inr (.inl h)
  · exact .inr (.inr h)

/-- Σ of q + 4 over the prime factors of n, with multiplicity. Not in the code: for statements. -/
def effort (n : Nat) : Nat := (n.primeFactorsList.map (· + 4)).sum

theorem effort_mul {a b : Nat} (ha : a ≠ 0) (hb : b ≠ 0) : effort (a * b) = effort a + effort b := by
  rw [effort, effort, effort, ← List.sum_append, ← List.map_append]
  exact ((Nat.perm_primeFactorsList_mul ha hb).map _).sum_eq

theorem effort_factor {p : Nat} (h : p = 4 ∨ p.Prime ∨ p = 1) : (if p = 1 then 0 else p + 4) ≤ effort p := by
  rcases h with rfl | h | rfl
  · rw [show effort 4 = 12 by rw [show 4 = 2 * 2 from rfl, effort_mul (by decide) (by decide), effort, Nat.primeFactorsList_prime Nat.prime_two]; rfl]
    decide
  · rw [effort, Nat.primeFactorsList_prime h, if_neg h.ne_one]
    simp
  · simp

theorem factorLoop_cost {s : Nat} (fuel : Nat) : ∀ n p L, 0 < n → n < (s + 1) * (s + 1) → Low n p → factorLoop s fuel n p = some L → cost L ≤ effort n := by
  induction fuel with
  | zero => intro n p L _ _ _ h; simp [factorLoop] at h
  | succ fuel ih =>
    intro n p L hn hs hl h
    rw [factorLoop] at h
    cases hf : findP n s (s + 5) p with
    | none => rw [hf] at h; simp at h
    | some r =>
      rw [hf, Option.bind_some] at h
      obtain ⟨hr, hd⟩ := findP_low hn hs _ _ _ hl hf
      have hrpos : 0 < r := Nat.pos_of_dvd_of_pos hd hn
      have hle : r ≤ n := Nat.le_of_dvd hn hd
      have hm : 0 < n / r := Nat.div_pos hle hrpos
      have hmul : r * (n / r) = n := Nat.mul_div_cancel' hd
      have he := effort_factor (low_prime hr hd)
      rw [← hmul, effort_mul (by omega) (by omega)]
      split at h
      · rename_i h1
        cases hL : factorLoop s fuel (n / r) r with
        | none => rw [hL] at h; simp at h
        | some R =>
          rw [hL, Option.map_some] at h
          injection h with h
          subst h
          have hdn : n / r ∣ n := ⟨r, by rw [Nat.mul_comm]; exact hmul.symm⟩
          have hlow : Low (n / r) r := by
            rcases hr with g | g | ⟨g1, g2, g3⟩ | ⟨g, -⟩
            · exact .inl g
            · exact .inr (.inl g)
            · exact .inr (.inr (.inl ⟨g1, g2, fun q hq hlt hc => g3 q hq hlt (hc.trans hdn)⟩))
            · rw [g, Nat.div_self hn] at h1
              omega
          have := ih (n / r) r R hm (lt_of_le_of_lt (Nat.div_le_self n r) hs) hlow hL
          rw [cost, if_neg (by omega : ¬ n / r = 1)]
          omega
      · injection h with h
        subst h
        rw [cost, if_pos (by omega : n / r = 1)]
        omega

theorem factor_cost {n : Nat} {L : List (Nat × Nat)} (hn : 0 < n) (h : factor n = some L) : cost L ≤ effort n :=
  factorLoop_cost 33 n 4 L hn (Nat.lt_succ_sqrt n) (.inl rfl) h

/-! ### Products -/

theorem parts_le (x y : ℂ) : |x.re| * |y.re| + |x.im| * |y.im| ≤ ‖x‖ * ‖y‖ ∧ |x.re| * |y.im| + |x.im| * |y.re| ≤ ‖x‖ * ‖y‖ := by
  have hx : ‖x‖ ^ 2 = |x.re| ^ 2 + |x.im| ^ 2 := by rw [Complex.sq_norm, Complex.normSq_apply, sq_abs, sq_abs]; ring
  have hy : ‖y‖ ^ 2 = |y.re| ^ 2 + |y.im| ^ 2 := by rw [Complex.sq_norm, Complex.normSq_apply, sq_abs, sq_abs]; ring
  have hn : 0 ≤ ‖x‖ * ‖y‖ := mul_nonneg (norm_nonneg _) (norm_nonneg _)
  constructor <;> refine (abs_le_of_sq_le_sq' ?_ hn).2 <;> rw [mul_pow, hx, hy]
  · nlinarith [sq_nonneg (|x.re| * |y.im| - |x.im| * |y.re|)]
  · nlinarith [sq_nonneg (|x.re| * |y.re| - |x.im| * |y.im|)]

theorem cmul_err (hr : RealErr rnd u) (x y : ℂ) : ‖cmul rnd x y - x * y‖ ≤ ((1 + u) ^ 4 - 1) * (‖x‖ * ‖y‖) := by
  have e := @Maj.exact u
  obtain ⟨b1, b2⟩ := parts_le x y
  have h1 := (((e x.re).mul hr (e y.re)).sub hr ((e x.im).mul hr (e y.im))).weaken hr.nonneg (k := 2) (by decide) b1
  have h2 := (((e x.re).mul hr (e y.im)).add hr ((e x.im).mul hr (e y.re))).weaken hr.nonneg (k := 2) (by decide) b2
  have hg := one_le_g hr.nonneg 2
  have hn : 0 ≤ ‖x‖ * ‖y‖ := mul_nonneg (norm_nonneg _) (norm_nonneg _)
  have h3 := Complex.norm_le_sqrt_two_mul_max (cmul rnd x y - x * y)
  rw [Complex.sub_re, Complex.sub_im] at h3
  have h4 := max_le h1.err h2.err
  have h5 : (√2 : ℝ) ≤ 2 := by rw [Real.sqrt_le_left (by norm_num)]; norm_num
  have h6 := mul_le_mul h5 h4 (le_max_of_le_left (abs_nonneg _)) (by norm_num)
  refine h3.trans (h6.trans ?_)
  rw [← mul_assoc]
  refine mul_le_mul_of_nonneg_right ?_ hn
  nlinarith [sq_nonneg ((1 + u) ^ 2 - 1)]

end PV.KissFl
