import Mathlib.RingTheory.RootsOfUnity.Complex
import Mathlib.Algebra.BigOperators.Intervals
import Mathlib.Algebra.Field.GeomSum
import Mathlib.Tactic.IntervalCases
import Mathlib.Tactic.LinearCombination
import Verif.Kiss
/-
  Lemmas about the transforms of Kiss.lean.
-/
namespace PV.Kiss
open PV Finset

variable {μ : Type}

/-! ### Loops -/

theorem forN_inv {n : Nat} {body : Nat → M μ Unit} {P : Nat → μ → Prop} {m : μ} (h0 : P 0 m)
    (hs : ∀ j m, j < n → P j m → ∃ m', body j m = .ok () m' ∧ P (j + 1) m') : ∃ m', forN n body m = .ok () m' ∧ P n m' := by
  induction n with
  | zero => exact ⟨m, rfl, h0⟩
  | succ n ih =>
    obtain ⟨m1, e1, p1⟩ := ih fun j m hj => hs j m (by omega)
    obtain ⟨m2, e2, p2⟩ := hs n m1 (by omega) p1
    exact ⟨m2, (bind_ok e1).trans e2, p2⟩

theorem doN_eq {n : Nat} (body : Nat → M μ Unit) (h : 0 < n) : doN n body = forN n body := if_neg (by omega)

/-- The buffer after `Fout[i] = v` -/
def put (a : Arr ℂ) (i : Nat) (v : ℂ) : Arr ℂ := ⟨a.len, fun k => if k = i then v else a.at' k⟩

@[simp] theorem put_len (a : Arr ℂ) (i : Nat) (v : ℂ) : (put a i v).len = a.len := rfl

@[simp] theorem put_at (a : Arr ℂ) (i : Nat) (v : ℂ) (k : Nat) : (put a i v).at' k = if k = i then v else a.at' k := rfl

theorem rdF_ok {i : Nat} {a : Arr ℂ} (h : i < a.len) : rdF i a = .ok (a.at' i) a := if_pos h

theorem wrF_ok {i : Nat} {a : Arr ℂ} (v : ℂ) (h : i < a.len) : wrF i v a = .ok () (put a i v) := if_pos h

/-- `a'` differs from `a` in the p places `idx 0`, `idx 1`, … only, where it has the values `g`. -/
structure Step (a a' : Arr ℂ) (idx : Nat → Nat) (p : Nat) (g : Nat → ℂ) : Prop where
  len : a'.len = a.len
  new : ∀ q, q < p → a'.at' (idx q) = g q
  old : ∀ i, (∀ q, q < p → i ≠ idx q) → a'.at' i = a.at' i

theorem class_inj {o u v q r m : Nat} (hu : u < m) (hv : v < m) (h : o + u + q * m = o + v + r * m) : u = v ∧ q = r := by
  have h' : u + q * m = v + r * m := by omega
  have h1 : u = v := by
    have := congrArg (· % m) h'
    simpa [Nat.add_mul_mod_self_right, Nat.mod_eq_of_lt hu, Nat.mod_eq_of_lt hv] using this
  subst h1
  exact ⟨rfl, Nat.eq_of_mul_eq_mul_right (by omega : 0 < m) (by omega)⟩

theorem class_lt {o u q m p : Nat} (hu : u < m) (hq : q < p) : o + u + q * m < o + p * m := by
  have : (q + 1) * m ≤ p * m := Nat.mul_le_mul_right _ hq
  rw [Nat.add_mul, Nat.one_mul] at this
  omega

/-- A loop whose round u replaces the values with the indices u, u + m, …, u + (p - 1) m. -/
theorem forN_classes {o m p : Nat} {body : Nat → M (Arr ℂ) Unit} {G : Nat → (Nat → ℂ) → Nat → ℂ}
    (hb : ∀ u a, u < m → o + p * m ≤ a.len → ∃ a', body u a = .ok () a' ∧ Step a a' (fun q => o + u + q * m) p (G u fun q => a.at' (o + u + q * m)))
    {a : Arr ℂ} (ha : o + p * m ≤ a.len) :
    ∃ a', forN m body a = .ok () a' ∧ a'.len = a.len ∧
      (∀ u q, u < m → q < p → a'.at' (o + u + q * m) = G u (fun q => a.at' (o + u + q * m)) q) ∧
      ∀ i, (i < o ∨ o + p * m ≤ i) → a'.at' i = a.at' i := by
  obtain ⟨a', e, h1, h2, h3, h4⟩ := forN_inv (n := m) (body := body) (m := a)
    (P := fun j b => b.len = a.len ∧
      (∀ u q, u < j → q < p → b.at' (o + u + q * m) = G u (fun q => a.at' (o + u + q * m)) q) ∧
      (∀ u q, j ≤ u → u < m → b.at' (o + u + q * m) = a.at' (o + u + q * m)) ∧
      ∀ i, (i < o ∨ o + p * m ≤ i) → b.at' i = a.at' i)
    ⟨rfl, fun u q h _ => absurd h (by omega), fun _ _ _ _ => rfl, fun _ _ => rfl⟩ (by
      rintro j b hj ⟨g1, g2, g3, g4⟩
      obtain ⟨b', e, st⟩ := hb j b hj (by omega)
      refine ⟨b', e, st.len.trans g1, ?_, ?_, ?_⟩
      · intro u q hu hq
        by_cases huj : u = j
        · subst huj
          rw [st.new q hq]
          congr 1
          funext q
          exact g3 u q (Nat.le_refl _) hj
        · rw [st.old _ fun r _ hc => huj (class_inj (by omega) hj hc).1, g2 u q (by omega) hq]
      · intro u q hu hum
        rw [st.old _ fun r _ hc => (by have := (class_inj hum hj hc).1; omega), g3 u q (by omega) hum]
      · intro i hi
        rw [st.old _ fun r hr hc => (by have := class_lt (o := o) hj hr; omega), g4 i hi])
  exact ⟨a', e, h1, h2, h4⟩

/-! ### Twiddle factors -/

/-- What the butterflies need of the state of a transform: its twiddle factors are the powers of W. -/
structure Roots (st : Cfg) (W : ℂ) : Prop where
  pos : 0 < st.nfft
  small : st.nfft ≤ 1073741824
  len : st.twiddles.len = st.nfft
  tw : ∀ k, k < st.nfft → st.twiddles.at' k = W ^ k
  one : W ^ st.nfft = 1
  unit : W * (starRingEnd ℂ) W = 1
  half : ∀ q, q * 2 = st.nfft → W ^ q = -1
  third : ∀ q, q * 3 = st.nfft → (W ^ q).re = -(1 / 2)
  quarter : ∀ q, q * 4 = st.nfft → W ^ q = if st.inverse then Complex.I else -Complex.I

/-- What a butterfly of radix p does to the values a 0, …, a (p - 1) of class u. -/
noncomputable def mix (W : ℂ) (fstride m p u : Nat) (a : Nat → ℂ) (k : Nat) : ℂ :=
  ∑ q ∈ range p, a q * W ^ (fstride * (u + k * m) * q)

theorem mix_eq (W : ℂ) (fstride m p u : Nat) (a : Nat → ℂ) (k : Nat) :
    mix W fstride m p u a k = ∑ q ∈ range p, a q * ((W ^ (fstride * u)) ^ q * (W ^ (fstride * m)) ^ (k * q)) := by
  refine Finset.sum_congr rfl fun q _ => ?_
  rw [← pow_mul, ← pow_mul, ← pow_add]
  congr 2
  ring

/-- The result of a butterfly for all classes. -/
def Mixed (W : ℂ) (o fstride m p : Nat) (a a' : Arr ℂ) : Prop :=
  a'.len = a.len ∧
  (∀ u k, u < m → k < p → a'.at' (o + u + k * m) = mix W fstride m p u (fun q => a.at' (o + u + q * m)) k) ∧
  ∀ i, (i < o ∨ o + p * m ≤ i) → a'.at' i = a.at' i

theorem Roots.rd {st : Cfg} {W : ℂ} (h : Roots st W) {k : Nat} (hk : k < st.nfft) (a : Arr ℂ) :
    st.twiddles.rd k a = .ok (W ^ k) a := by
  rw [Arr.rd_ok (by rw [h.len]; exact hk), h.tw k hk]

theorem conj_pow {W : ℂ} (h : W * (starRingEnd ℂ) W = 1) {q n : Nat} (hq : W ^ (q + n) = 1) : W ^ n = (starRingEnd ℂ) (W ^ q) := by
  have h1 : W ^ q * (starRingEnd ℂ) (W ^ q) = 1 := by rw [map_pow, ← mul_pow, h, one_pow]
  have h2 : W ^ q * W ^ n = 1 := by rw [← pow_add, hq]
  have h3 : W ^ q ≠ 0 := fun hc => by rw [hc, zero_mul] at h1; exact one_ne_zero h1.symm
  exact mul_left_cancel₀ h3 (h2.trans h1.symm)

theorem stride_lt {u m fstride : Nat} (hu : u < m) (hf : 0 < fstride) : fstride * u < fstride * m :=
  Nat.mul_lt_mul_of_pos_left hu hf

theorem pos_of_mul {f m p n : Nat} (h : f * m * p = n) (hn : 0 < n) : 0 < f ∧ 0 < m := by
  constructor
  · rcases Nat.eq_zero_or_pos f with rfl | g
    · simp at h
      omega
    · exact g
  · rcases Nat.eq_zero_or_pos m with rfl | g
    · simp at h
      omega
    · exact g

theorem bfly2_ok {st : Cfg} {W : ℂ} (h : Roots st W) {o fstride m : Nat} (hN : fstride * m * 2 = st.nfft) {a : Arr ℂ}
    (ha : o + 2 * m ≤ a.len) : ∃ a', bfly2 o fstride st m a = .ok () a' ∧ Mixed W o fstride m 2 a a' := by
  have hpos := h.pos
  obtain ⟨hf, hm⟩ := pos_of_mul hN hpos
  rw [bfly2, doN_eq _ hm]
  refine forN_classes (G := mix W fstride m 2) (fun u a hu ha => ?_) ha
  have hx := stride_lt hu hf
  have ht : u * fstride < st.nfft := by rw [Nat.mul_comm u]; omega
  refine ⟨_, (bind_ok (rdF_ok (by omega))).trans ((bind_ok (rdF_ok (by omega))).trans ((bind_ok (h.rd ht a)).trans
    ((bind_ok (wrF_ok _ (by omega))).trans (wrF_ok _ (by rw [put_len]; omega))))), rfl, ?_, ?_⟩
  · intro q hq
    have hz := h.half _ hN
    rw [mix_eq, hz]
    have e : W ^ (u * fstride) = W ^ (fstride * u) := by rw [Nat.mul_comm]
    interval_cases q
    · simp [Finset.sum_range_succ, e, Nat.add_right_comm]
    · rw [put_at, put_at, if_neg (by omega), if_pos (by omega)]
      simp [Finset.sum_range_succ, e, Nat.add_right_comm, sub_eq_add_neg]
  · intro i hi
    rw [put_at, put_at, if_neg (by have := hi 0 (by omega); omega), if_neg (by have := hi 1 (by omega); omega)]

/-- z is a primitive third root of 1. -/
theorem mix3 {s0 s1 s2 z : ℂ} (hr : z.re = -(1 / 2)) (hc : z ^ 2 = (starRingEnd ℂ) z) :
    (⟨s0.re - (s1 + s2).re * (1 / 2) - (s1 - s2).im * z.im, s0.im - (s1 + s2).im * (1 / 2) + (s1 - s2).re * z.im⟩ : ℂ)
      = s0 + s1 * z + s2 * z ^ 2 ∧
    (⟨s0.re - (s1 + s2).re * (1 / 2) + (s1 - s2).im * z.im, s0.im - (s1 + s2).im * (1 / 2) - (s1 - s2).re * z.im⟩ : ℂ)
      = s0 + s1 * z ^ 2 + s2 * z := by
  rw [hc]
  constructor <;> apply Complex.ext <;>
    simp only [Complex.add_re, Complex.add_im, Complex.sub_re, Complex.sub_im, Complex.mul_re, Complex.mul_im, Complex.conj_re, Complex.conj_im, hr] <;> ring

theorem bfly3_ok {st : Cfg} {W : ℂ} (h : Roots st W) {o fstride m : Nat} (hN : fstride * m * 3 = st.nfft) {a : Arr ℂ}
    (ha : o + 3 * m ≤ a.len) : ∃ a', bfly3 o fstride st m a = .ok () a' ∧ Mixed W o fstride m 3 a a' := by
  have hpos := h.pos
  obtain ⟨hf, hm⟩ := pos_of_mul hN hpos
  have hz3 : (W ^ (fstride * m)) ^ 3 = 1 := by rw [← pow_mul, hN, h.one]
  have hz2 : (W ^ (fstride * m)) ^ 2 = (starRingEnd ℂ) (W ^ (fstride * m)) := by
    rw [← pow_mul]
    exact conj_pow h.unit (by rw [show fstride * m + fstride * m * 2 = st.nfft by omega, h.one])
  obtain ⟨hz4, hre⟩ : (W ^ (fstride * m)) ^ 4 = W ^ (fstride * m) ∧ (W ^ (fstride * m)).re = -(1 / 2) :=
    ⟨by rw [pow_succ, hz3, one_mul], h.third _ hN⟩
  rw [bfly3, bind_ok (h.rd (by omega) a), doN_eq _ hm]
  refine forN_classes (G := mix W fstride m 3) (fun u a hu ha => ?_) ha
  have hx := stride_lt hu hf
  have e1 : u * fstride = fstride * u := Nat.mul_comm _ _
  have e2 : u * (fstride * 2) = fstride * u * 2 := by ring
  refine ⟨_, (bind_ok (rdF_ok (by omega))).trans ((bind_ok (rdF_ok (by omega))).trans ((bind_ok (rdF_ok (by omega))).trans
    ((bind_ok (h.rd (by omega) a)).trans ((bind_ok (h.rd (by omega) a)).trans
    ((bind_ok (wrF_ok _ (by omega))).trans ((bind_ok (wrF_ok _ (by rw [put_len]; omega))).trans
      (wrF_ok _ (by rw [put_len, put_len]; omega)))))))), rfl, ?_, ?_⟩
  · intro q hq
    rw [mix_eq, e1, e2, pow_mul W (fstride * u) 2]
    generalize W ^ (fstride * u) = w
    generalize W ^ (fstride * m) = z at hz3 hz2 hz4 hre
    obtain ⟨k1, k2⟩ := mix3 (s0 := a.at' (o + u)) (s1 := a.at' (o + u + m) * w) (s2 := a.at' (o + u + 2 * m) * w ^ 2) hre hz2
    simp only [Finset.sum_range_succ, Finset.sum_range_zero, put_at]
    interval_cases q
    · rw [if_neg (by omega), if_neg (by omega), if_pos (by omega)]
      simp
      ring
    · rw [if_pos (by omega), k1]
      simp
      ring
    · rw [if_neg (by omega), if_pos (by omega), k2]
      simp [hz4]
      ring
  · intro i hi
    have h0 := hi 0 (by omega)
    have h1 := hi 1 (by omega)
    have h2 := hi 2 (by omega)
    rw [put_at, put_at, put_at, if_neg (by omega), if_neg (by omega), if_neg (by omega)]

theorem mix4 (b : Bool) (x y : ℂ) :
    (if b = true then (⟨x.re - y.im, x.im + y.re⟩ : ℂ) else ⟨x.re + y.im, x.im - y.re⟩) = x + (if b = true then Complex.I else -Complex.I) * y ∧
    (if b = true then (⟨x.re + y.im, x.im - y.re⟩ : ℂ) else ⟨x.re - y.im, x.im + y.re⟩) = x - (if b = true then Complex.I else -Complex.I) * y := by
  cases b <;> constructor <;> apply Complex.ext <;> simp <;> ring

theorem bfly4_ok {st : Cfg} {W : ℂ} (h : Roots st W) {o fstride m : Nat} (hN : fstride * m * 4 = st.nfft) {a : Arr ℂ}
    (ha : o + 4 * m ≤ a.len) : ∃ a', bfly4 o fstride st m a = .ok () a' ∧ Mixed W o fstride m 4 a a' := by
  have hpos := h.pos
  obtain ⟨hf, hm⟩ := pos_of_mul hN hpos
  have hz := h.quarter _ hN
  rw [bfly4, doN_eq _ hm]
  refine forN_classes (G := mix W fstride m 4) (fun u a hu ha => ?_) ha
  have hx := stride_lt hu hf
  have e1 : u * fstride = fstride * u := Nat.mul_comm _ _
  have e2 : u * (fstride * 2) = fstride * u * 2 := by ring
  have e3 : u * (fstride * 3) = fstride * u * 3 := by ring
  refine ⟨_, (bind_ok (rdF_ok (by omega))).trans ((bind_ok (rdF_ok (by omega))).trans ((bind_ok (rdF_ok (by omega))).trans
    ((bind_ok (rdF_ok (by omega))).trans
    ((bind_ok (h.rd (by omega) a)).trans ((bind_ok (h.rd (by omega) a)).trans ((bind_ok (h.rd (by omega) a)).trans
    ((bind_ok (wrF_ok _ (by omega))).trans ((bind_ok (wrF_ok _ (by rw [put_len]; omega))).trans
      ((bind_ok (wrF_ok _ (by rw [put_len, put_len]; omega))).trans
      (wrF_ok _ (by rw [put_len, put_len, put_len]; omega))))))))))), rfl, ?_, ?_⟩
  · intro q hq
    rw [mix_eq, e1, e2, e3, pow_mul W (fstride * u) 2, pow_mul W (fstride * u) 3, hz]
    generalize W ^ (fstride * u) = w
    simp only [mix4]
    have hz2 : (if st.inverse = true then Complex.I else -Complex.I) ^ 2 = -1 := by
      split
      · exact Complex.I_sq
      · rw [neg_sq, Complex.I_sq]
    generalize (if st.inverse = true then Complex.I else -Complex.I) = z at hz2
    have hz3 : z ^ 3 = -z := by rw [pow_succ, hz2, neg_one_mul]
    have hz4 : z ^ 4 = 1 := by rw [show z ^ 4 = z ^ 2 * z ^ 2 by ring, hz2]; ring
    have hz6 : z ^ 6 = -1 := by rw [show z ^ 6 = z ^ 4 * z ^ 2 by ring, hz4, hz2, one_mul]
    have hz9 : z ^ 9 = z := by rw [show z ^ 9 = z ^ 4 * z ^ 4 * z by ring, hz4, one_mul, one_mul]
    simp only [Finset.sum_range_succ, Finset.sum_range_zero, put_at]
    interval_cases q
    · rw [if_neg (by omega), if_neg (by omega), if_pos (by omega)]
      simp
      ring
    · rw [if_neg (by omega), if_pos (by omega)]
      simp [hz2, hz3]
      ring
    · rw [if_neg (by omega), if_neg (by omega), if_neg (by omega), if_pos (by omega)]
      simp [hz2, hz4, hz6]
      ring
    · rw [if_pos (by omega)]
      simp [hz3, hz6, hz9]
      ring
  · intro i hi
    have h0 := hi 0 (by omega)
    have h1 := hi 1 (by omega)
    have h2 := hi 2 (by omega)
    have h3 := hi 3 (by omega)
    rw [put_at, put_at, put_at, put_at, if_neg (by omega), if_neg (by omega), if_neg (by omega), if_neg (by omega)]

theorem mix5 {s0 s1 s2 s3 s4 z y : ℂ} :
    (⟨s0.re + (s1 + s4).re * z.re + (s2 + s3).re * y.re, s0.im + (s1 + s4).im * z.re + (s2 + s3).im * y.re⟩ : ℂ) -
        ⟨(s1 - s4).im * z.im + (s2 - s3).im * y.im, -((s1 - s4).re * z.im) - (s2 - s3).re * y.im⟩
      = s0 + s1 * z + s2 * y + s3 * (starRingEnd ℂ) y + s4 * (starRingEnd ℂ) z ∧
    (⟨s0.re + (s1 + s4).re * z.re + (s2 + s3).re * y.re, s0.im + (s1 + s4).im * z.re + (s2 + s3).im * y.re⟩ : ℂ) +
        ⟨(s1 - s4).im * z.im + (s2 - s3).im * y.im, -((s1 - s4).re * z.im) - (s2 - s3).re * y.im⟩
      = s0 + s1 * (starRingEnd ℂ) z + s2 * (starRingEnd ℂ) y + s3 * y + s4 * z ∧
    (⟨s0.re + (s1 + s4).re * y.re + (s2 + s3).re * z.re, s0.im + (s1 + s4).im * y.re + (s2 + s3).im * z.re⟩ : ℂ) +
        ⟨-((s1 - s4).im * y.im) + (s2 - s3).im * z.im, (s1 - s4).re * y.im - (s2 - s3).re * z.im⟩
      = s0 + s1 * y + s2 * (starRingEnd ℂ) z + s3 * z + s4 * (starRingEnd ℂ) y ∧
    (⟨s0.re + (s1 + s4).re * y.re + (s2 + s3).re * z.re, s0.im + (s1 + s4).im * y.re + (s2 + s3).im * z.re⟩ : ℂ) -
        ⟨-((s1 - s4).im * y.im) + (s2 - s3).im * z.im, (s1 - s4).re * y.im - (s2 - s3).re * z.im⟩
      = s0 + s1 * (starRingEnd ℂ) y + s2 * z + s3 * (starRingEnd ℂ) z + s4 * y := by
  refine ⟨?_, ?_, ?_, ?_⟩ <;> apply Complex.ext <;>
    simp only [Complex.add_re, Complex.add_im, Complex.sub_re, Complex.sub_im, Complex.mul_re, Complex.mul_im, Complex.conj_re, Complex.conj_im] <;> ring

theorem bfly5_ok {st : Cfg} {W : ℂ} (h : Roots st W) {o fstride m : Nat} (hN : fstride * m * 5 = st.nfft) {a : Arr ℂ}
    (ha : o + 5 * m ≤ a.len) : ∃ a', bfly5 o fstride st m a = .ok () a' ∧ Mixed W o fstride m 5 a a' := by
  have hpos := h.pos
  obtain ⟨hf, hm⟩ := pos_of_mul hN hpos
  have e0 : fstride * 2 * m = fstride * m * 2 := by ring
  have hz5 : (W ^ (fstride * m)) ^ 5 = 1 := by rw [← pow_mul, hN, h.one]
  have hz4 : (W ^ (fstride * m)) ^ 4 = (starRingEnd ℂ) (W ^ (fstride * m)) := by
    rw [← pow_mul]
    exact conj_pow h.unit (by rw [show fstride * m + fstride * m * 4 = st.nfft by omega, h.one])
  have hz3 : (W ^ (fstride * m)) ^ 3 = (starRingEnd ℂ) ((W ^ (fstride * m)) ^ 2) := by
    rw [← pow_mul, ← pow_mul]
    exact conj_pow h.unit (by rw [show fstride * m * 2 + fstride * m * 3 = st.nfft by omega, h.one])
  rw [bfly5, bind_ok (h.rd (by omega) a), bind_ok (h.rd (by omega) a)]
  refine forN_classes (G := mix W fstride m 5) (fun u a hu ha => ?_) ha
  have hx := stride_lt hu hf
  have e1 : u * fstride = fstride * u := Nat.mul_comm _ _
  have e2 : 2 * u * fstride = fstride * u * 2 := by ring
  have e3 : 3 * u * fstride = fstride * u * 3 := by ring
  have e4 : 4 * u * fstride = fstride * u * 4 := by ring
  refine ⟨_, (bind_ok (rdF_ok (by omega))).trans ((bind_ok (rdF_ok (by omega))).trans ((bind_ok (rdF_ok (by omega))).trans
    ((bind_ok (rdF_ok (by omega))).trans ((bind_ok (rdF_ok (by omega))).trans
    ((bind_ok (h.rd (by omega) a)).trans ((bind_ok (h.rd (by omega) a)).trans ((bind_ok (h.rd (by omega) a)).trans ((bind_ok (h.rd (by omega) a)).trans
    ((bind_ok (wrF_ok _ (by omega))).trans ((bind_ok (wrF_ok _ (by rw [put_len]; omega))).trans
      ((bind_ok (wrF_ok _ (by rw [put_len, put_len]; omega))).trans ((bind_ok (wrF_ok _ (by rw [put_len, put_len, put_len]; omega))).trans
      (wrF_ok _ (by rw [put_len, put_len, put_len, put_len]; omega)))))))))))))), rfl, ?_, ?_⟩
  · intro q hq
    rw [mix_eq, e0, e1, e2, e3, e4, pow_mul W (fstride * u) 2, pow_mul W (fstride * u) 3, pow_mul W (fstride * u) 4, pow_mul W (fstride * m) 2]
    generalize W ^ (fstride * u) = w
    generalize W ^ (fstride * m) = z at hz3 hz4 hz5
    have hz6 : z ^ 6 = z := by rw [pow_succ, hz5, one_mul]
    have hz8 : z ^ 8 = z ^ 3 := by rw [show z ^ 8 = z ^ 5 * z ^ 3 by ring, hz5, one_mul]
    have hz9 : z ^ 9 = z ^ 4 := by rw [show z ^ 9 = z ^ 5 * z ^ 4 by ring, hz5, one_mul]
    have hz12 : z ^ 12 = z ^ 2 := by rw [show z ^ 12 = z ^ 5 * z ^ 5 * z ^ 2 by ring, hz5, one_mul, one_mul]
    have hz16 : z ^ 16 = z := by rw [show z ^ 16 = z ^ 5 * z ^ 5 * z ^ 5 * z by ring, hz5]; ring
    obtain ⟨k1, k4, k2, k3⟩ := mix5 (s0 := a.at' (o + u)) (s1 := a.at' (o + u + m) * w) (s2 := a.at' (o + u + 2 * m) * w ^ 2)
      (s3 := a.at' (o + u + 3 * m) * w ^ 3) (s4 := a.at' (o + u + 4 * m) * w ^ 4) (z := z) (y := z ^ 2)
    rw [← hz3, ← hz4] at k1 k2 k3 k4
    simp only [Finset.sum_range_succ, Finset.sum_range_zero, put_at]
    interval_cases q
    · rw [if_neg (by omega), if_neg (by omega), if_neg (by omega), if_neg (by omega), if_pos (by omega)]
      apply Complex.ext <;> simp <;> ring
    · rw [if_neg (by omega), if_neg (by omega), if_neg (by omega), if_pos (by omega), k1]
      simp
      ring
    · rw [if_neg (by omega), if_pos (by omega), k2]
      simp [hz6, hz8]
      ring
    · rw [if_pos (by omega), k3]
      simp [hz6, hz9, hz12]
      ring
    · rw [if_neg (by omega), if_neg (by omega), if_pos (by omega), k4]
      simp [hz8, hz12, hz16]
      ring
  · intro i hi
    have h0 := hi 0 (by omega)
    have h1 := hi 1 (by omega)
    have h2 := hi 2 (by omega)
    have h3 := hi 3 (by omega)
    have h4 := hi 4 (by omega)
    rw [put_at, put_at, put_at, put_at, put_at, if_neg (by omega), if_neg (by omega), if_neg (by omega), if_neg (by omega), if_neg (by omega)]

/-! ### The generic butterfly -/

theorem put_put (a : Arr ℂ) (i : Nat) (v w : ℂ) : put (put a i v) i w = put a i w := by
  simp only [put]
  congr 1
  funext k
  split <;> rfl

theorem gather_ok {k m n : Nat} {a : Arr ℂ} (h : ∀ q, q < n → k + q * m < a.len) :
    gather k m n a = .ok ((List.range n).map fun q => a.at' (k + q * m)) a := by
  induction n with
  | zero => rfl
  | succ n ih =>
    rw [gather, bind_ok (ih fun q hq => h q (by omega)), bind_ok (rdF_ok (h n (by omega))), List.range_succ, List.map_append]
    rfl

theorem mod_step {s r N : Nat} (hs : s < N) :
    (if s * r % N + s ≥ N then s * r % N + s - N else s * r % N + s) = s * (r + 1) % N := by
  rw [Nat.mul_add, Nat.mul_one, Nat.add_mod, Nat.mod_eq_of_lt hs]
  have := Nat.mod_lt (s * r) (show 0 < N by omega)
  generalize s * r % N = t at this
  split
  · rw [Nat.mod_eq_sub_mod (by omega), Nat.mod_eq_of_lt (by omega)]
  · rw [Nat.mod_eq_of_lt (by omega)]

theorem pow_mod' {st : Cfg} {W : ℂ} (h : Roots st W) (k : Nat) : W ^ (k % st.nfft) = W ^ k := by
  conv_rhs => rw [← Nat.mod_add_div k st.nfft, pow_add, pow_mul, h.one, one_pow, mul_one]

theorem genericSum_ok {st : Cfg} {W : ℂ} (h : Roots st W) {o fstride k : Nat} {s : Nat → ℂ} {p : Nat} {a : Arr ℂ} (hk : o + k < a.len)
    (hf : fstride * k < st.nfft) (r : Nat) (hr : r + 1 ≤ p) :
    genericSum o fstride st k ((List.range p).map s) r a =
      .ok (fstride * k * r % st.nfft) (put a (o + k) (a.at' (o + k) + ∑ q ∈ range r, s (q + 1) * W ^ (fstride * k * (q + 1)))) := by
  induction r with
  | zero =>
    rw [genericSum]
    simp only [Nat.mul_zero, Nat.zero_mod, Finset.sum_range_zero, add_zero]
    show Res.ok 0 a = Res.ok 0 _
    congr 1
    obtain ⟨l, f⟩ := a
    simp only [put]
    congr 1
    funext i
    split
    · rename_i hi
      rw [hi]
    · rfl
  | succ r ih =>
    have hN := h.pos
    have hsm := h.small
    have hlt := Nat.mod_lt (fstride * k * r) hN
    have hnx : nextTw fstride k st.nfft (fstride * k * r % st.nfft) = pure (fstride * k * (r + 1) % st.nfft) := by
      rw [nextTw, if_pos (by omega), mod_step hf]
    have hsc : ((List.range p).map s)[r + 1]? = some (s (r + 1)) := by
      rw [List.getElem?_map, List.getElem?_range (by omega)]
      rfl
    rw [genericSum, bind_ok (ih (by omega)), hnx, pure_bind', hsc, orUb_some, pure_bind', bind_ok (h.rd (Nat.mod_lt _ hN) _),
      bind_ok (rdF_ok (by exact hk)), bind_ok (wrF_ok _ (by exact hk)), put_put, put_at, if_pos rfl, pow_mod' h, Finset.sum_range_succ, ← add_assoc]
    rfl

theorem genericOut_ok {st : Cfg} {W : ℂ} (h : Roots st W) {o fstride k : Nat} {s : Nat → ℂ} {p : Nat} {a : Arr ℂ} (hk : o + k < a.len)
    (hf : fstride * k < st.nfft) (hp : 0 < p) :
    genericOut o fstride st k p ((List.range p).map s) a = .ok () (put a (o + k) (∑ q ∈ range p, s q * W ^ (fstride * k * q))) := by
  obtain ⟨p, rfl⟩ : ∃ r, p = r + 1 := ⟨p - 1, by omega⟩
  have hsc : ((List.range (p + 1)).map s)[0]? = some (s 0) := by
    rw [List.getElem?_map, List.getElem?_range (by omega)]
    rfl
  rw [genericOut, hsc, orUb_some, pure_bind', bind_ok (wrF_ok _ hk), bind_ok (genericSum_ok h (by exact hk) hf _ (by omega)), put_put, put_at, if_pos rfl,
    Finset.sum_range_succ', add_comm (s 0)]
  simp only [Nat.add_sub_cancel, Nat.mul_zero, pow_zero, mul_one]
  rfl

theorem bflyGeneric_ok {st : Cfg} {W : ℂ} (h : Roots st W) {o fstride m p : Nat} (hN : fstride * m * p = st.nfft) {a : Arr ℂ}
    (ha : o + p * m ≤ a.len) : ∃ a', bflyGeneric o fstride st m p a = .ok () a' ∧ Mixed W o fstride m p a a' := by
  have hpos := h.pos
  obtain ⟨hf, hm⟩ := pos_of_mul hN hpos
  have hp : 0 < p := by
    rcases Nat.eq_zero_or_pos p with rfl | g
    · rw [Nat.mul_zero] at hN
      omega
    · exact g
  rw [bflyGeneric]
  refine forN_classes (G := mix W fstride m p) (fun u a hu ha => ?_) ha
  obtain ⟨a', e, h1, h2, h3⟩ := forN_inv (n := p) (m := a)
    (body := fun q1 => genericOut o fstride st (u + q1 * m) p ((List.range p).map fun q => a.at' (o + u + q * m)))
    (P := fun j b => b.len = a.len ∧ (∀ q, q < j → b.at' (o + u + q * m) = mix W fstride m p u (fun q => a.at' (o + u + q * m)) q) ∧
      ∀ i, (∀ q, q < j → i ≠ o + u + q * m) → b.at' i = a.at' i)
    ⟨rfl, fun q hq => absurd hq (by omega), fun _ _ => rfl⟩ (by
      rintro j b hj ⟨g1, g2, g3⟩
      have hlt := class_lt (o := o) hu hj
      have hk : fstride * (u + j * m) < st.nfft := by
        rw [← hN, Nat.mul_assoc, Nat.mul_comm m]
        have := class_lt (o := 0) hu hj
        exact Nat.mul_lt_mul_of_pos_left (by omega) hf
      refine ⟨_, genericOut_ok h (by omega) hk hp, g1, ?_, ?_⟩
      · intro q hq
        rw [put_at]
        by_cases hqj : q = j
        · subst hqj
          rw [if_pos (by omega)]
          rfl
        · rw [if_neg (fun hc => hqj (class_inj hu hu (by omega : o + u + q * m = o + u + j * m)).2), g2 q (by omega)]
      · intro i hi
        rw [put_at, if_neg (by have := hi j (by omega); omega), g3 i fun q hq => hi q (by omega)])
  exact ⟨a', (bind_ok (gather_ok fun q hq => by have := class_lt (o := o) hu hq; omega)).trans e, h1, h2, h3⟩

theorem bfly_ok {st : Cfg} {W : ℂ} (h : Roots st W) {o fstride m p : Nat} (hN : fstride * m * p = st.nfft) {a : Arr ℂ}
    (ha : o + p * m ≤ a.len) : ∃ a', bfly o fstride st m p a = .ok () a' ∧ Mixed W o fstride m p a a' := by
  unfold bfly
  split
  · exact bfly2_ok h hN ha
  · exact bfly3_ok h hN ha
  · exact bfly4_ok h hN ha
  · exact bfly5_ok h hN ha
  · exact bflyGeneric_ok h hN ha

/-! ### kf_work -/

/-- The pairs written by kf_factor for n: p1 m1 = n, p2 m2 = m1, …, the last m is 1. -/
def Chain : Nat → List (Nat × Nat) → Prop
  | _, [] => False
  | n, (p, m) :: rest => 0 < p ∧ n = p * m ∧ (m = 1 ∨ Chain m rest)

theorem sum_classes (g : Nat → ℂ) (p m : Nat) : ∑ n ∈ range (p * m), g n = ∑ q ∈ range p, ∑ t ∈ range m, g (q + p * t) := by
  induction m with
  | zero => simp
  | succ m ih =>
    rw [Nat.mul_succ, Finset.sum_range_add, ih, ← Finset.sum_add_distrib]
    refine Finset.sum_congr rfl fun q _ => ?_
    rw [Finset.sum_range_succ, Nat.add_comm (p * m)]

theorem work_ok {st : Cfg} {W : ℂ} (h : Roots st W) {f : Arr ℂ} {is : Nat} (L : List (Nat × Nat)) :
    ∀ {n o i fs : Nat} {a : Arr ℂ}, Chain n L → fs * n = st.nfft → o + n ≤ a.len → (∀ j, j < n → i + j * (fs * is) < f.len) →
    ∃ a', work st f is L o i fs a = .ok () a' ∧ a'.len = a.len ∧
      (∀ k, k < n → a'.at' (o + k) = ∑ j ∈ range n, f.at' (i + j * (fs * is)) * W ^ (fs * j * k)) ∧
      ∀ x, (x < o ∨ o + n ≤ x) → a'.at' x = a.at' x := by
  induction L with
  | nil => exact fun hc => hc.elim
  | cons pm L ih =>
    obtain ⟨p, m⟩ := pm
    rintro n o i fs a ⟨hp, hn, hm⟩ hN ha hf
    subst hn
    have hNpos := h.pos
    have hN' : fs * m * p = st.nfft := by rw [← hN]; ring
    obtain ⟨hfs, hmpos⟩ := pos_of_mul hN' hNpos
    -- one round
    have hround : ∀ q b, q < p → b.len = a.len → ∃ b', (if m = 1 then do
          let v ← f.rd (i + q * (fs * is))
          wrF (o + q) v
        else work st f is L (o + q * m) (i + q * (fs * is)) (fs * p)) b = .ok () b' ∧ b'.len = b.len ∧
        (∀ t, t < m → b'.at' (o + q * m + t) = ∑ j ∈ range m, f.at' (i + (q + p * j) * (fs * is)) * W ^ (fs * p * j * t)) ∧
        ∀ x, (x < o + q * m ∨ o + q * m + m ≤ x) → b'.at' x = b.at' x := by
      intro q b hq hb
      have hqm : q * m + m ≤ p * m := by
        have : (q + 1) * m ≤ p * m := Nat.mul_le_mul_right _ hq
        rwa [Nat.add_mul, Nat.one_mul] at this
      by_cases h1 : m = 1
      · subst h1
        rw [if_pos rfl]
        have hq1 := hf q (by omega)
        refine ⟨_, (bind_ok (Arr.rd_ok hq1 b)).trans (wrF_ok _ (by omega)), rfl, ?_, ?_⟩
        · intro t ht
          obtain rfl : t = 0 := by omega
          rw [put_at, if_pos (by omega)]
          simp
        · intro x hx
          rw [put_at, if_neg (by omega)]
      · rw [if_neg h1]
        have hidx : ∀ j, i + q * (fs * is) + j * (fs * p * is) = i + (q + p * j) * (fs * is) := fun j => by ring
        obtain ⟨b', e, g1, g2, g3⟩ := ih (n := m) (o := o + q * m) (i := i + q * (fs * is)) (fs := fs * p) (a := b)
          (hm.resolve_left h1) (by rw [← hN]; ring) (by omega) (by
            intro j hj
            rw [hidx]
            refine hf _ ?_
            have : p * (j + 1) ≤ p * m := Nat.mul_le_mul_left _ hj
            rw [Nat.mul_add, Nat.mul_one] at this
            omega)
        refine ⟨b', e, g1, fun t ht => ?_, g3⟩
        rw [g2 t ht]
        exact Finset.sum_congr rfl fun j _ => by rw [hidx]
    obtain ⟨b, e, g1, g2, g3⟩ := forN_inv (n := p) (m := a)
      (body := fun q => if m = 1 then do
          let v ← f.rd (i + q * (fs * is))
          wrF (o + q) v
        else work st f is L (o + q * m) (i + q * (fs * is)) (fs * p))
      (P := fun q b => b.len = a.len ∧
        (∀ q' t, q' < q → t < m → b.at' (o + q' * m + t) = ∑ j ∈ range m, f.at' (i + (q' + p * j) * (fs * is)) * W ^ (fs * p * j * t)) ∧
        ∀ x, (x < o ∨ o + p * m ≤ x) → b.at' x = a.at' x)
      ⟨rfl, fun _ _ hq => absurd hq (by omega), fun _ _ => rfl⟩ (by
        rintro q b hq ⟨g1, g2, g3⟩
        obtain ⟨b', e, k1, k2, k3⟩ := hround q b hq g1
        have hqm : q * m + m ≤ p * m := by
          have : (q + 1) * m ≤ p * m := Nat.mul_le_mul_right _ hq
          rwa [Nat.add_mul, Nat.one_mul] at this
        refine ⟨b', e, k1.trans g1, ?_, ?_⟩
        · intro q' t hq' ht
          by_cases hc : q' = q
          · subst hc
            exact k2 t ht
          · have : q' * m + m ≤ q * m := by
              have : (q' + 1) * m ≤ q * m := Nat.mul_le_mul_right _ (by omega)
              rwa [Nat.add_mul, Nat.one_mul] at this
            rw [k3 _ (by omega), g2 q' t (by omega) ht]
        · intro x hx
          rw [k3 x (by omega), g3 x hx])
    obtain ⟨a', e', k1, k2, k3⟩ := bfly_ok h (o := o) (a := b) hN' (by omega)
    refine ⟨a', ?_, k1.trans g1, ?_, fun x hx => (k3 x hx).trans (g3 x hx)⟩
    · rw [work, doN_eq _ hp]
      exact (bind_ok e).trans e'
    · intro k hk
      have hkm := Nat.mod_add_div k m
      have hu := Nat.mod_lt k hmpos
      have hv : k / m < p := Nat.div_lt_of_lt_mul (by rwa [Nat.mul_comm])
      have hidx : o + k = o + k % m + k / m * m := by rw [Nat.mul_comm (k / m)]; omega
      rw [hidx, k2 _ _ hu hv, mix, sum_classes]
      refine Finset.sum_congr rfl fun q hq => ?_
      have hq := Finset.mem_range.1 hq
      have hk' : k % m + k / m * m = k := by rw [Nat.mul_comm (k / m)]; omega
      rw [show o + k % m + q * m = o + q * m + k % m by omega, g2 q _ hq hu, Finset.sum_mul, hk']
      refine Finset.sum_congr rfl fun t _ => ?_
      rw [mul_assoc]
      congr 1
      have : fs * (q + p * t) * k = fs * p * t * (k % m) + fs * k * q + st.nfft * (t * (k / m)) := by
        conv_lhs => rw [← hk']
        conv_rhs => rw [← hk', ← hN', Nat.add_mul_mod_self_right, Nat.mod_mod, Nat.add_mul_div_right _ _ hmpos, Nat.div_eq_of_lt hu, Nat.zero_add]
        ring
      rw [this, pow_add, pow_add, pow_mul W st.nfft, h.one, one_pow, mul_one]

/-! ### kf_factor -/

/-- The candidates the search goes through. -/
def Cand (n s p : Nat) : Prop := p = 4 ∨ (2 ≤ p ∧ p ≤ s) ∨ p = n

theorem nextP_cases (n s p : Nat) : nextP n s p = n ∨ (p = 4 ∧ nextP n s p = 2 ∧ 2 ≤ s) ∨ (p ≠ 4 ∧ nextP n s p ≠ 4 ∧ p < nextP n s p ∧ 2 ≤ nextP n s p ∧ nextP n s p ≤ s) := by
  unfold nextP
  by_cases h4 : p = 4
  · subst h4
    by_cases h : 2 > s
    · left; simp [h]
    · right; left; simp [h]; omega
  · by_cases h2 : p = 2
    · subst h2
      by_cases h : 3 > s
      · left; simp [h]
      · right; right; simp [h]; omega
    · by_cases h : p + 2 > s
      · left; simp [h, h4, h2]
      · right; right; simp [h, h4, h2]; omega

theorem findP_ok {n s : Nat} (fuel : Nat) : ∀ p,
    (p = n ∧ 1 ≤ fuel) ∨ (p = 4 ∧ s + 2 ≤ fuel) ∨ (p ≠ 4 ∧ 2 ≤ p ∧ p ≤ s ∧ s + 3 ≤ fuel + p) →
    ∃ r, findP n s fuel p = some r ∧ n % r = 0 ∧ Cand n s r := by
  induction fuel with
  | zero => intro p h; omega
  | succ fuel ih =>
    intro p h
    rw [findP]
    by_cases hd : n % p = 0
    · refine ⟨p, if_neg (by simpa using hd), hd, ?_⟩
      rcases h with h | h | h
      · exact .inr (.inr h.1)
      · exact .inl h.1
      · exact .inr (.inl ⟨h.2.1, h.2.2.1⟩)
    rw [if_pos hd]
    have hpn : p ≠ n := fun hc => hd (by rw [hc, Nat.mod_self])
    refine ih _ ?_
    rcases nextP_cases n s p with e | e | e
    · left; omega
    · right; right; omega
    · right; right; omega

theorem factorLoop_ok {s : Nat} (k : Nat) : ∀ fuel n p, k ≤ fuel → 1 ≤ k → 0 < n → n < 2 ^ k → Cand n s p →
    ∃ L, factorLoop s fuel n p = some L ∧ Chain n L ∧ L.length ≤ k := by
  induction k with
  | zero => intro _ _ _ _ h; omega
  | succ k ih =>
    intro fuel n p hf _ hn hlt hp
    obtain ⟨fuel, rfl⟩ : ∃ g, fuel = g + 1 := ⟨fuel - 1, by omega⟩
    obtain ⟨r, hr, hd, hc⟩ := findP_ok (n := n) (s := s) (s + 5) p (by
      rcases hp with h | h | h
      · right; left; omega
      · by_cases h4 : p = 4
        · right; left; omega
        · right; right; omega
      · left; omega)
    have hmul : r * (n / r) = n := Nat.mul_div_cancel' (Nat.dvd_of_mod_eq_zero hd)
    have hrpos : 0 < r := by
      rcases Nat.eq_zero_or_pos r with rfl | h
      · omega
      · exact h
    rw [factorLoop, hr]
    show ∃ L, (if n / r > 1 then (factorLoop s fuel (n / r) r).map ((r, n / r) :: ·) else some [(r, n / r)]) = some L ∧ Chain n L ∧ L.length ≤ k + 1
    by_cases h1 : n / r > 1
    · rw [if_pos h1]
      have hr2 : 2 ≤ r := by
        rcases hc with h | h | h
        · omega
        · exact h.1
        · rw [h, Nat.div_self hn] at h1
          omega
      have hrn : r ≠ n := fun h => by
        rw [h, Nat.div_self hn] at h1
        omega
      have hlt' : n / r < 2 ^ k := by
        rw [Nat.pow_succ] at hlt
        have : 2 * (n / r) ≤ r * (n / r) := Nat.mul_le_mul_right _ hr2
        omega
      have hk : 1 ≤ k := by
        rcases Nat.eq_zero_or_pos k with rfl | h
        · rw [Nat.pow_zero] at hlt'
          generalize n / r = t at *
          omega
        · exact h
      obtain ⟨L, e, c1, c2⟩ := ih fuel (n / r) r (by omega) hk (by omega) hlt' (by
        rcases hc with h | h | h
        · exact .inl h
        · exact .inr (.inl h)
        · exact absurd h hrn)
      refine ⟨(r, n / r) :: L, by rw [e]; rfl, ⟨hrpos, hmul.symm, .inr c1⟩, ?_⟩
      simp only [List.length_cons]
      omega
    · rw [if_neg h1]
      refine ⟨_, rfl, ⟨hrpos, hmul.symm, .inl ?_⟩, by simp⟩
      have : n / r ≠ 0 := fun h => by
        rw [h, Nat.mul_zero] at hmul
        omega
      generalize n / r = t at *
      omega

theorem factor_ok {n : Nat} (h : 0 < n) (hlt : n < 2147483648) : ∃ L, factor n = some L ∧ Chain n L ∧ L.length ≤ 31 :=
  factorLoop_ok (s := Nat.sqrt n) 31 33 n 4 (by omega) (by omega) h (by omega) (.inl rfl)

/-! ### The plan -/

/-- The root of 1 of a transform of size n -/
noncomputable def root (inverse : Bool) (n : Nat) : ℂ := Complex.exp ((if inverse then 1 else -1) * (2 * Real.pi * Complex.I) / n)

theorem twiddle_eq (n : Nat) (inverse : Bool) (k : Nat) : twiddle n inverse k = root inverse n ^ k := by
  rw [root, ← Complex.exp_nat_mul]
  unfold twiddle
  cases inverse
  · rw [show ((k : ℂ) * ((if false = true then 1 else -1) * (2 * Real.pi * Complex.I) / n)) = ((-2 * Real.pi * k / n : ℝ) : ℂ) * Complex.I by push_cast; simp; ring]
    apply Complex.ext
    · rw [Complex.exp_ofReal_mul_I_re]
      rfl
    · rw [Complex.exp_ofReal_mul_I_im]
      rfl
  · rw [show ((k : ℂ) * ((if true = true then 1 else -1) * (2 * Real.pi * Complex.I) / n)) = ((-2 * Real.pi * k / n * -1 : ℝ) : ℂ) * Complex.I by push_cast; simp; ring]
    apply Complex.ext
    · rw [Complex.exp_ofReal_mul_I_re]
      rfl
    · rw [Complex.exp_ofReal_mul_I_im]
      rfl

theorem twiddle_div (q d : Nat) (inverse : Bool) (hq : 0 < q) (hd : 0 < d) :
    twiddle (q * d) inverse q = ⟨Real.cos (2 * Real.pi / d), if inverse then Real.sin (2 * Real.pi / d) else -Real.sin (2 * Real.pi / d)⟩ := by
  have hq' : (q : ℝ) ≠ 0 := by exact_mod_cast hq.ne'
  have hd' : (d : ℝ) ≠ 0 := by exact_mod_cast hd.ne'
  have e : (-2 * Real.pi * (q : ℝ) / ((q * d : Nat) : ℝ)) = -(2 * Real.pi / d) := by
    push_cast
    field_simp
  unfold twiddle
  dsimp only
  rw [e]
  cases inverse <;> simp

theorem root_one (inverse : Bool) {n : Nat} (hn : 0 < n) : root inverse n ^ n = 1 := by
  have hn' : (n : ℂ) ≠ 0 := by exact_mod_cast hn.ne'
  rw [root, ← Complex.exp_nat_mul, mul_div_cancel₀ _ hn']
  cases inverse
  · simp only [Bool.false_eq_true, if_false, neg_one_mul]
    rw [Complex.exp_neg, Complex.exp_two_pi_mul_I, inv_one]
  · simp only [if_true, one_mul]
    exact Complex.exp_two_pi_mul_I

theorem root_roots {n : Nat} {inverse : Bool} {L : List (Nat × Nat)} (hn : 0 < n) (hs : n ≤ 1073741824) :
    Roots ⟨n, inverse, L, ⟨n, twiddle n inverse⟩⟩ (root inverse n) := by
  refine ⟨hn, hs, rfl, fun k _ => twiddle_eq n inverse k, root_one inverse hn, ?_, ?_, ?_, ?_⟩
  · have h := twiddle_eq n inverse 1
    rw [pow_one] at h
    rw [← h, Complex.mul_conj]
    unfold twiddle
    rw [Complex.normSq_mk, ← sq, ← sq, Real.cos_sq_add_sin_sq]
    rfl
  · intro q hq
    dsimp only at hq
    subst hq
    rw [← twiddle_eq, twiddle_div q 2 inverse (by omega) (by omega)]
    have : (2 * Real.pi / (2 : Nat) : ℝ) = Real.pi := by push_cast; ring
    rw [this, Real.cos_pi, Real.sin_pi]
    apply Complex.ext <;> simp
  · intro q hq
    dsimp only at hq
    subst hq
    rw [← twiddle_eq, twiddle_div q 3 inverse (by omega) (by omega)]
    have : (2 * Real.pi / (3 : Nat) : ℝ) = Real.pi - Real.pi / 3 := by push_cast; ring
    rw [this, Real.cos_pi_sub, Real.cos_pi_div_three]
  · intro q hq
    dsimp only at hq
    subst hq
    rw [← twiddle_eq, twiddle_div q 4 inverse (by omega) (by omega)]
    have : (2 * Real.pi / (4 : Nat) : ℝ) = Real.pi / 2 := by push_cast; ring
    rw [this, Real.cos_pi_div_two, Real.sin_pi_div_two]
    cases inverse <;> apply Complex.ext <;> simp

theorem alloc_ok {n : Nat} (inverse : Bool) (hn : 0 < n) (hs : n ≤ 1073741824) (m : μ) :
    ∃ st, alloc n inverse m = .ok st m ∧ st.nfft = n ∧ Roots st (root inverse n) ∧ Chain n st.factors := by
  obtain ⟨L, e, c, l⟩ := factor_ok hn (by omega)
  refine ⟨⟨n, inverse, L, ⟨n, twiddle n inverse⟩⟩, ?_, rfl, root_roots hn hs, c⟩
  rw [alloc, e, orUb_some, pure_bind', if_pos (by omega)]
  rfl

/-- One transform: n values with distance `is` from index i of f to n consecutive values from index o. -/
theorem fftStride_ok {st : Cfg} {W : ℂ} (h : Roots st W) {f : Arr ℂ} {is o i : Nat} (hc : Chain st.nfft st.factors) {a : Arr ℂ}
    (ha : o + st.nfft ≤ a.len) (hf : ∀ j, j < st.nfft → i + j * is < f.len) :
    ∃ a', fftStride st f i o is a = .ok () a' ∧ a'.len = a.len ∧
      (∀ k, k < st.nfft → a'.at' (o + k) = ∑ j ∈ range st.nfft, f.at' (i + j * is) * W ^ (j * k)) ∧
      ∀ x, (x < o ∨ o + st.nfft ≤ x) → a'.at' x = a.at' x := by
  obtain ⟨a', e, h1, h2, h3⟩ := work_ok h (is := is) st.factors hc (Nat.one_mul _) ha (fun j hj => by rw [Nat.one_mul]; exact hf j hj)
  refine ⟨a', e, h1, fun k hk => ?_, h3⟩
  rw [h2 k hk]
  simp only [Nat.one_mul]

/-- One stage: out[i n + k] is the k-th coefficient of the values i, i + s, i + 2 s, … -/
theorem stage_ok {st : Cfg} {W : ℂ} (h : Roots st W) (hc : Chain st.nfft st.factors) {s : Nat} {f a : Arr ℂ} (hf : f.len = st.nfft * s) (ha : a.len = st.nfft * s) :
    ∃ a', stage (st.nfft * s) st f a = .ok () a' ∧ a'.len = a.len ∧
      ∀ i k, i < s → k < st.nfft → a'.at' (i * st.nfft + k) = ∑ j ∈ range st.nfft, f.at' (i + j * s) * W ^ (j * k) := by
  unfold stage
  rw [Nat.mul_div_cancel_left _ h.pos]
  obtain ⟨a', e, h1, h2⟩ := forN_inv (n := s) (m := a) (body := fun i => fftStride st f i (i * st.nfft) s)
    (P := fun c b => b.len = a.len ∧ ∀ i k, i < c → k < st.nfft → b.at' (i * st.nfft + k) = ∑ j ∈ range st.nfft, f.at' (i + j * s) * W ^ (j * k))
    ⟨rfl, fun _ _ h => absurd h (by omega)⟩ (by
      rintro c b hcs ⟨g1, g2⟩
      have hcl : c * st.nfft + st.nfft ≤ st.nfft * s := by
        have : (c + 1) * st.nfft ≤ s * st.nfft := Nat.mul_le_mul_right _ hcs
        rw [Nat.add_mul, Nat.one_mul, Nat.mul_comm s] at this
        exact this
      obtain ⟨b', e, k1, k2, k3⟩ := fftStride_ok h (f := f) (is := s) (o := c * st.nfft) (i := c) hc (a := b) (by omega) (by
        intro j hj
        have : (j + 1) * s ≤ st.nfft * s := Nat.mul_le_mul_right _ hj
        rw [Nat.add_mul, Nat.one_mul] at this
        omega)
      refine ⟨b', e, k1.trans g1, fun i k hi hk => ?_⟩
      by_cases hic : i = c
      · subst hic
        exact k2 k hk
      · have : (i + 1) * st.nfft ≤ c * st.nfft := Nat.mul_le_mul_right _ (by omega)
        rw [Nat.add_mul, Nat.one_mul] at this
        rw [k3 _ (by omega), g2 i k (by omega) hk])
  exact ⟨a', e, h1, h2⟩

end PV.Kiss
