import Mathlib.Algebra.Order.Ring.Pow
import Mathlib.Tactic.Linarith
import Mathlib.Tactic.Positivity
import Verif.PropsGauss
import Verif.Rounding24
/-
  C79 with the arithmetic of `float`: every operation is rounded, and `expf` may be any function that
  is not negative and positive at zero (small numbers may become zero).
-/
namespace PV.Props
open PV

/-- What the weight at distance (dx, dy) of the centre is when the argument of `expf` is computed with rounding. -/
def floatWeight (fl ex : ℚ → ℚ) (sigma : ℚ) (dx dy : Int) : ℚ :=
  ex (fl (-fl ((dx * dx + dy * dy : Int) : ℚ) / fl (sigma * 2)))

/-- The sum of these weights, exact. -/
def floatWeightSum (fl ex : ℚ → ℚ) (sigma : ℚ) (k : Nat) : ℚ :=
  ((grid (2 * k + 1) (2 * k + 1)).map fun q => floatWeight fl ex sigma ((q.2 : Int) - k) ((q.1 : Int) - k)).sum

/-- The relative error of a kernel of n values. -/
def kernelError (k : Nat) : ℚ := (((2 * k + 1) * (2 * k + 1) : Nat) + 5) / 2 ^ 22

/-- What the vector holds afterwards: `w * h` numbers, number `i` belonging to column `i % w` of row
    `i / w`; outside the square zero, inside the weight over the sum of the weights up to a relative
    error; numbers at equal distances of the centre are equal. -/
structure FloatKernel (fl ex : ℚ → ℚ) (w h k : Nat) (sigma : ℚ) (m : Mem ℚ) : Prop where
  length : m.size 1 = w * h
  outside : ∀ x y, x < w → y < h → ¬ (w / 2 ≤ x + k ∧ x ≤ w / 2 + k ∧ h / 2 ≤ y + k ∧ y ≤ h / 2 + k) →
    m.byte 1 (y * w + x) = 0
  inside : ∀ x y, x < w → y < h → (w / 2 ≤ x + k ∧ x ≤ w / 2 + k ∧ h / 2 ≤ y + k ∧ y ≤ h / 2 + k) →
    |m.byte 1 (y * w + x)
        - floatWeight fl ex sigma ((x : Int) - (w / 2 : Nat)) ((y : Int) - (h / 2 : Nat)) / floatWeightSum fl ex sigma k|
      ≤ kernelError k
        * (floatWeight fl ex sigma ((x : Int) - (w / 2 : Nat)) ((y : Int) - (h / 2 : Nat)) / floatWeightSum fl ex sigma k)
  nonneg : ∀ i, i < w * h → 0 ≤ m.byte 1 i
  symm : ∀ x y x' y' : Nat, x ≤ 2 * k → y ≤ 2 * k → x' ≤ 2 * k → y' ≤ 2 * k →
    ((x : Int) - k) ^ 2 + ((y : Int) - k) ^ 2 = ((x' : Int) - k) ^ 2 + ((y' : Int) - k) ^ 2 →
    m.byte 1 ((h / 2 - k + y) * w + (w / 2 - k + x)) = m.byte 1 ((h / 2 - k + y') * w + (w / 2 - k + x'))

/-! ### Lemmas -/

theorem fl_lower {fl : ℚ → ℚ} (r : Rounding24 fl) {a : ℚ} (h : 0 ≤ a) : (1 - 1 / 2 ^ 23) * a ≤ fl a := by
  have := (abs_le.1 (r.err a)).1
  rw [abs_of_nonneg h] at this
  linarith

theorem fl_upper {fl : ℚ → ℚ} (r : Rounding24 fl) {a : ℚ} (h : 0 ≤ a) : fl a ≤ (1 + 1 / 2 ^ 23) * a := by
  have := (abs_le.1 (r.err a)).2
  rw [abs_of_nonneg h] at this
  linarith

theorem fl_nonneg {fl : ℚ → ℚ} (r : Rounding24 fl) {a : ℚ} (h : 0 ≤ a) : 0 ≤ fl a :=
  le_trans (mul_nonneg (by norm_num) h) (fl_lower r h)

theorem fl_pos {fl : ℚ → ℚ} (r : Rounding24 fl) {a : ℚ} (h : 0 < a) : 0 < fl a :=
  lt_of_lt_of_le (mul_pos (by norm_num) h) (fl_lower r h.le)

/-- A running sum of numbers that are not negative. -/
theorem foldl_rounded {fl : ℚ → ℚ} (r : Rounding24 fl) {ι : Type} {f : ι → ℚ} (L : List ι) (hf : ∀ q ∈ L, 0 ≤ f q) :
    ∀ a, 0 ≤ a → (1 - 1 / 2 ^ 23) ^ L.length * (a + (L.map f).sum) ≤ L.foldl (fun a q => fl (a + f q)) a ∧
      L.foldl (fun a q => fl (a + f q)) a ≤ (1 + 1 / 2 ^ 23) ^ L.length * (a + (L.map f).sum) := by
  induction L with
  | nil =>
    intro a _
    simp
  | cons q L ih =>
    intro a ha
    have hq := hf q (List.mem_cons_self ..)
    have hL : 0 ≤ (L.map f).sum := by
      refine List.sum_nonneg fun v hv => ?_
      obtain ⟨p, hp, rfl⟩ := List.mem_map.1 hv
      exact hf p (List.mem_cons_of_mem _ hp)
    have h0 : 0 ≤ a + f q := add_nonneg ha hq
    obtain ⟨i1, i2⟩ := ih (fun p hp => hf p (List.mem_cons_of_mem _ hp)) (fl (a + f q)) (fl_nonneg r h0)
    have e1 := fl_lower r h0
    have e2 := fl_upper r h0
    rw [List.foldl_cons, List.map_cons, List.sum_cons, List.length_cons, pow_succ (1 - 1 / 2 ^ 23 : ℚ), pow_succ (1 + 1 / 2 ^ 23 : ℚ)]
    have p1 : (0 : ℚ) ≤ (1 - 1 / 2 ^ 23) ^ L.length := pow_nonneg (by norm_num) _
    have p2 : (0 : ℚ) ≤ (1 + 1 / 2 ^ 23) ^ L.length := pow_nonneg (by norm_num) _
    constructor
    · refine le_trans ?_ i1
      rw [mul_assoc]
      refine mul_le_mul_of_nonneg_left ?_ p1
      linarith
    · refine le_trans i2 ?_
      rw [mul_assoc]
      refine mul_le_mul_of_nonneg_left ?_ p2
      linarith

theorem grid_length (h w : Nat) : (grid h w).length = h * w := by
  simp [grid]

/-- From the steps to the quotient. -/
theorem ratio_bounds {u v e E scale S sum norm c : ℚ} {n : Nat} (hu0 : 0 ≤ u) (hu : u ≤ 1 / 2 ^ 23) (hn : (n + 1 : ℚ) * u ≤ 1 / 2)
    (he : 0 ≤ e) (hE : 0 < E) (hsc : 0 < scale)
    (v1 : (1 - u) * (scale * e) ≤ v) (v2 : v ≤ (1 + u) * (scale * e))
    (S1 : (1 - u) * (scale * E) ≤ S) (S2 : S ≤ (1 + u) * (scale * E))
    (s1 : (1 - u) ^ n * S ≤ sum) (s2 : sum ≤ (1 + u) ^ n * S)
    (n1 : (1 - u) * (1 / sum) ≤ norm) (n2 : norm ≤ (1 + u) * (1 / sum))
    (c1 : (1 - u) * (v * norm) ≤ c) (c2 : c ≤ (1 + u) * (v * norm)) :
    |c - e / E| ≤ (2 * (n + 5) * u) * (e / E) := by
  have hu1 : u ≤ 1 / 8 := le_trans hu (by norm_num)
  have a1 : 0 < 1 - u := by linarith
  have a2 : 0 < 1 + u := by linarith
  have b1 : 0 < (1 - u) ^ (n + 1) := pow_pos a1 _
  have b2 : 0 < (1 + u) ^ (n + 1) := pow_pos a2 _
  have hse : 0 < scale * E := mul_pos hsc hE
  have hS : 0 < S := lt_of_lt_of_le (mul_pos a1 hse) S1
  have t1 : (1 - u) ^ (n + 1) * (scale * E) ≤ sum := by
    refine le_trans ?_ s1
    rw [pow_succ, mul_assoc]
    exact mul_le_mul_of_nonneg_left S1 (pow_pos a1 _).le
  have t2 : sum ≤ (1 + u) ^ (n + 1) * (scale * E) := by
    refine le_trans s2 ?_
    rw [pow_succ, mul_assoc]
    exact mul_le_mul_of_nonneg_left S2 (pow_pos a2 _).le
  have hsum : 0 < sum := lt_of_lt_of_le (mul_pos b1 hse) t1
  have hinv : 0 < 1 / sum := one_div_pos.2 hsum
  have hnorm : 0 < norm := lt_of_lt_of_le (mul_pos a1 hinv) n1
  have hv : 0 ≤ v := le_trans (mul_nonneg a1.le (mul_nonneg hsc.le he)) v1
  have q0 : 0 ≤ e / E := div_nonneg he hE.le
  -- Bernoulli
  have ber1 : 1 - (n + 1 : ℚ) * u ≤ (1 - u) ^ (n + 1) := by
    have := one_add_mul_le_pow (a := -u) (by linarith) (n + 1)
    push_cast at this
    rw [← sub_eq_add_neg] at this
    linarith
  have ber2 : (1 - u) ^ (n + 1) * (1 + u) ^ (n + 1) ≤ 1 := by
    rw [← mul_pow]
    refine pow_le_one₀ ?_ ?_ <;> nlinarith
  have inv1 : 1 / sum ≤ 1 / ((1 - u) ^ (n + 1) * (scale * E)) := one_div_le_one_div_of_le (mul_pos b1 hse) t1
  have inv2 : 1 / ((1 + u) ^ (n + 1) * (scale * E)) ≤ 1 / sum := one_div_le_one_div_of_le hsum t2
  have up : c ≤ (1 + u) ^ 3 / (1 - u) ^ (n + 1) * (e / E) := by
    have k1 : v * norm ≤ ((1 + u) * (scale * e)) * ((1 + u) * (1 / ((1 - u) ^ (n + 1) * (scale * E)))) := by
      refine mul_le_mul v2 (le_trans n2 (mul_le_mul_of_nonneg_left inv1 a2.le)) hnorm.le ?_
      exact mul_nonneg a2.le (mul_nonneg hsc.le he)
    refine le_trans c2 (le_trans (mul_le_mul_of_nonneg_left k1 a2.le) (le_of_eq ?_))
    have := hE.ne'
    have := hsc.ne'
    have := b1.ne'
    field_simp
  have lo : (1 - u) ^ 3 / (1 + u) ^ (n + 1) * (e / E) ≤ c := by
    have k1 : ((1 - u) * (scale * e)) * ((1 - u) * (1 / ((1 + u) ^ (n + 1) * (scale * E)))) ≤ v * norm := by
      refine mul_le_mul v1 (le_trans (mul_le_mul_of_nonneg_left inv2 a1.le) n1) ?_ hv
      exact mul_nonneg a1.le (one_div_pos.2 (mul_pos b2 hse)).le
    refine le_trans (le_of_eq ?_) (le_trans (mul_le_mul_of_nonneg_left k1 a1.le) c1)
    have := hE.ne'
    have := hsc.ne'
    have := b2.ne'
    field_simp
  have r1 : (1 + u) ^ 3 / (1 - u) ^ (n + 1) ≤ 1 + 2 * (n + 5) * u := by
    rw [div_le_iff₀ b1]
    have nn : (0 : ℚ) ≤ n := Nat.cast_nonneg n
    have k0 : (0 : ℚ) ≤ 1 + 2 * (n + 5) * u := by positivity
    refine le_trans ?_ (mul_le_mul_of_nonneg_left ber1 k0)
    have k2 : (1 + u) ^ 3 ≤ 1 + 4 * u := by
      have q1 : u * u ≤ u * (1 / 8) := mul_le_mul_of_nonneg_left hu1 hu0
      have q2 : u * u * u ≤ u * (1 / 8) * 1 := mul_le_mul q1 (by linarith) hu0 (by linarith)
      have e : (1 + u) ^ 3 = 1 + 3 * u + 3 * (u * u) + u * u * u := by ring
      linarith
    have k3 : (2 * (n + 5) * u) * ((n + 1 : ℚ) * u) ≤ (2 * (n + 5) * u) * (1 / 2) :=
      mul_le_mul_of_nonneg_left hn (by positivity)
    nlinarith
  have r2 : 1 - 2 * (n + 5) * u ≤ (1 - u) ^ 3 / (1 + u) ^ (n + 1) := by
    rw [le_div_iff₀ b2]
    have nn : (0 : ℚ) ≤ n := Nat.cast_nonneg n
    by_cases hneg : 1 - 2 * (n + 5) * u ≤ 0
    · exact le_trans (mul_nonpos_of_nonpos_of_nonneg hneg b2.le) (pow_pos a1 _).le
    · have k1 : (1 - u) ^ (n + 1) * (1 + u) ^ (n + 1) * (1 - u) ^ 3 ≤ (1 - u) ^ 3 :=
        mul_le_of_le_one_left (pow_pos a1 _).le ber2
      refine le_trans ?_ k1
      rw [mul_right_comm ((1 - u) ^ (n + 1))]
      refine mul_le_mul_of_nonneg_right ?_ b2.le
      have k2 : 1 - 3 * u ≤ (1 - u) ^ 3 := by nlinarith [mul_nonneg hu0 hu0, mul_nonneg (mul_nonneg hu0 hu0) a1.le]
      have k3 : (1 - (n + 1 : ℚ) * u) * (1 - 3 * u) ≤ (1 - u) ^ (n + 1) * (1 - u) ^ 3 :=
        mul_le_mul ber1 k2 (by linarith) b1.le
      refine le_trans ?_ k3
      nlinarith [mul_nonneg nn hu0, mul_nonneg (mul_nonneg nn hu0) hu0, mul_nonneg hu0 hu0]
  rw [abs_le]
  constructor
  · have := mul_le_mul_of_nonneg_right r2 q0
    linarith
  · have := mul_le_mul_of_nonneg_right r1 q0
    linarith

theorem sum_bounds {ι : Type} {f g : ι → ℚ} {c : ℚ} (L : List ι) (h : ∀ q ∈ L, f q ≤ c * g q) :
    (L.map f).sum ≤ c * (L.map g).sum := by
  rw [← List.sum_map_mul_left]
  exact List.sum_le_sum h

/-- C79 with rounding (partial: kernels of at most 1023 that fit, products that fit 32 bits, sigma above 0;
    exponents are unbounded). -/
theorem C79_rounded_partial {fl ex : ℚ → ℚ} (r : Rounding24 fl) (hex : ∀ q, 0 ≤ ex q) (hex0 : 0 < ex 0) {w h k : Nat}
    (s : GaussSize w h k) (hk : k ≤ 1023) {sigma : ℚ} (hs : 0 < sigma) (m : Mem ℚ) :
    ∃ m', GetGaussianKernel fl ex w h k sigma m = .ok () m' ∧ FloatKernel fl ex w h k sigma m' ∧
      |((List.range (h * w)).map (m'.byte 1)).sum - 1| ≤ kernelError k := by
  have hsw := s.hw
  have hsh := s.hh
  have hfl0 : fl 0 = 0 := by exact_mod_cast r.int 0 (by norm_num)
  have hds : 0 < fl (sigma * 2) := fl_pos r (by linarith)
  have hpi : 0 < fl piConst := fl_pos r (by norm_num [piConst])
  have hprod : 0 < fl (fl (sigma * 2) * fl piConst) := fl_pos r (mul_pos hds hpi)
  have hsc : 0 < fl (1 / fl (fl (sigma * 2) * fl piConst)) := fl_pos r (one_div_pos.2 hprod)
  generalize hS : fl (1 / fl (fl (sigma * 2) * fl piConst)) = scale at hsc
  have hat : ∀ x y : Nat, gaussAt fl ex scale (fl (sigma * 2)) k x y
      = fl (scale * floatWeight fl ex sigma ((x : Int) - k) ((y : Int) - k)) := fun _ _ => rfl
  have hw0 : ∀ a b, 0 ≤ floatWeight fl ex sigma a b := fun a b => hex _
  have hE : 0 < floatWeightSum fl ex sigma k := by
    have hin : (k, k) ∈ grid (2 * k + 1) (2 * k + 1) := mem_grid.2 ⟨by omega, by omega⟩
    have h1 : floatWeight fl ex sigma ((k : Int) - k) ((k : Int) - k) = ex 0 := by
      simp only [floatWeight, sub_self, mul_zero, add_zero, Int.cast_zero, hfl0, neg_zero, zero_div]
    refine lt_of_lt_of_le (h1 ▸ hex0) ?_
    refine List.single_le_sum (fun v hv => ?_) _ (List.mem_map.2 ⟨(k, k), hin, rfl⟩)
    obtain ⟨q, _, rfl⟩ := List.mem_map.1 hv
    exact hw0 _ _
  have hsum := foldl_rounded r (f := fun q : Nat × Nat => gaussAt fl ex scale (fl (sigma * 2)) k q.2 q.1)
    (grid (2 * k + 1) (2 * k + 1)) (fun q _ => by rw [hat]; exact fl_nonneg r (mul_nonneg hsc.le (hw0 _ _))) 0 le_rfl
  rw [zero_add, grid_length] at hsum
  change _ ≤ gaussSum fl ex scale (fl (sigma * 2)) k ∧ gaussSum fl ex scale (fl (sigma * 2)) k ≤ _ at hsum
  generalize hT : ((grid (2 * k + 1) (2 * k + 1)).map fun q : Nat × Nat => gaussAt fl ex scale (fl (sigma * 2)) k q.2 q.1).sum = T at hsum
  have T1 : (1 - 1 / 2 ^ 23) * (scale * floatWeightSum fl ex sigma k) ≤ T := by
    rw [← hT, floatWeightSum, ← mul_assoc, ← List.sum_map_mul_left]
    refine List.sum_le_sum fun q _ => ?_
    rw [hat, mul_assoc]
    exact fl_lower r (mul_nonneg hsc.le (hw0 _ _))
  have T2 : T ≤ (1 + 1 / 2 ^ 23) * (scale * floatWeightSum fl ex sigma k) := by
    rw [← hT, floatWeightSum, ← mul_assoc]
    refine sum_bounds _ fun q _ => ?_
    rw [hat, mul_assoc]
    exact fl_upper r (mul_nonneg hsc.le (hw0 _ _))
  have hsum0 : 0 < gaussSum fl ex scale (fl (sigma * 2)) k := by
    refine lt_of_lt_of_le (mul_pos (pow_pos (by norm_num) _) (lt_of_lt_of_le ?_ T1)) hsum.1
    exact mul_pos (by norm_num) (mul_pos hsc hE)
  obtain ⟨m', h1, h2⟩ := GetGaussianKernel_ok (fl := fl) (ex := ex) s hs rfl hS.symm hprod.ne' hsum0.ne' m
  obtain ⟨v1, v2, v3⟩ := square_vector s h2
  have hnn : ((2 * k + 1) * (2 * k + 1) : Nat) ≤ 2047 * 2047 := Nat.mul_le_mul (by omega) (by omega)
  have hcell : ∀ x y : Nat, |fl (gaussAt fl ex scale (fl (sigma * 2)) k x y * fl (1 / gaussSum fl ex scale (fl (sigma * 2)) k))
        - floatWeight fl ex sigma ((x : Int) - k) ((y : Int) - k) / floatWeightSum fl ex sigma k|
      ≤ kernelError k * (floatWeight fl ex sigma ((x : Int) - k) ((y : Int) - k) / floatWeightSum fl ex sigma k) := by
    intro x y
    have hg : 0 ≤ gaussAt fl ex scale (fl (sigma * 2)) k x y := by rw [hat]; exact fl_nonneg r (mul_nonneg hsc.le (hw0 _ _))
    have hi : 0 ≤ 1 / gaussSum fl ex scale (fl (sigma * 2)) k := (one_div_pos.2 hsum0).le
    have hb := ratio_bounds (u := 1 / 2 ^ 23) (n := (2 * k + 1) * (2 * k + 1)) (by norm_num) le_rfl (by
        have : (((2 * k + 1) * (2 * k + 1) : Nat) : ℚ) ≤ (2047 * 2047 : Nat) := by exact_mod_cast hnn
        norm_num at this ⊢
        linarith) (hw0 ((x : Int) - k) ((y : Int) - k)) hE hsc
      (hat x y ▸ fl_lower r (mul_nonneg hsc.le (hw0 _ _))) (hat x y ▸ fl_upper r (mul_nonneg hsc.le (hw0 _ _)))
      T1 T2 hsum.1 hsum.2 (fl_lower r hi) (fl_upper r hi)
      (fl_lower r (mul_nonneg hg (fl_nonneg r hi))) (fl_upper r (mul_nonneg hg (fl_nonneg r hi)))
    refine le_trans hb (le_of_eq ?_)
    rw [kernelError]
    ring
  refine ⟨m', h1, ⟨v1, ?_, ?_, ?_, ?_⟩, ?_⟩
  · intro x y hx hy hn
    rw [v2 x y hx hy, if_neg hn]
  · intro x y hx hy hin
    rw [v2 x y hx hy, if_pos hin]
    have := hcell (x + k - w / 2) (y + k - h / 2)
    rwa [show ((x + k - w / 2 : Nat) : Int) - k = (x : Int) - (w / 2 : Nat) by omega,
      show ((y + k - h / 2 : Nat) : Int) - k = (y : Int) - (h / 2 : Nat) by omega] at this
  · intro i hi
    have hwp : 0 < w := by omega
    have hx := Nat.mod_lt i hwp
    have hy : i / w < h := Nat.div_lt_of_lt_mul hi
    have e := v2 (i % w) (i / w) hx hy
    rw [show i / w * w + i % w = i by rw [Nat.mul_comm]; exact Nat.div_add_mod i w] at e
    rw [e]
    split
    · refine fl_nonneg r (mul_nonneg ?_ (fl_nonneg r (one_div_pos.2 hsum0).le))
      rw [hat]
      exact fl_nonneg r (mul_nonneg hsc.le (hw0 _ _))
    · exact le_rfl
  · intro x y x' y' hx hy hx' hy' hd
    rw [v2 _ _ (by omega) (by omega), v2 _ _ (by omega) (by omega), if_pos (by omega), if_pos (by omega), hat, hat,
      floatWeight, floatWeight]
    rw [show ((w / 2 - k + x + k - w / 2 : Nat) : Int) - k = (x : Int) - k by omega,
      show ((h / 2 - k + y + k - h / 2 : Nat) : Int) - k = (y : Int) - k by omega,
      show ((w / 2 - k + x' + k - w / 2 : Nat) : Int) - k = (x' : Int) - k by omega,
      show ((h / 2 - k + y' + k - h / 2 : Nat) : Int) - k = (y' : Int) - k by omega]
    rw [sq, sq, sq, sq] at hd
    rw [hd]
  · rw [v3]
    have e1 : ((grid (2 * k + 1) (2 * k + 1)).map fun q : Nat × Nat =>
        floatWeight fl ex sigma ((q.2 : Int) - k) ((q.1 : Int) - k) / floatWeightSum fl ex sigma k).sum = 1 := by
      simp only [div_eq_mul_inv]
      rw [List.sum_map_mul_right]
      exact mul_inv_cancel₀ hE.ne'
    rw [abs_le]
    constructor
    · have : (1 - kernelError k) * ((grid (2 * k + 1) (2 * k + 1)).map fun q : Nat × Nat =>
        floatWeight fl ex sigma ((q.2 : Int) - k) ((q.1 : Int) - k) / floatWeightSum fl ex sigma k).sum ≤
          ((grid (2 * k + 1) (2 * k + 1)).map fun q : Nat × Nat => fl (gaussAt fl ex scale (fl (sigma * 2)) k q.2 q.1
            * fl (1 / gaussSum fl ex scale (fl (sigma * 2)) k))).sum := by
        rw [← List.sum_map_mul_left]
        refine List.sum_le_sum fun q _ => ?_
        have := (abs_le.1 (hcell q.2 q.1)).1
        linarith
      rw [e1] at this
      linarith
    · have := sum_bounds (c := 1 + kernelError k) (grid (2 * k + 1) (2 * k + 1)) (f := fun q : Nat × Nat =>
          fl (gaussAt fl ex scale (fl (sigma * 2)) k q.2 q.1 * fl (1 / gaussSum fl ex scale (fl (sigma * 2)) k)))
        (g := fun q : Nat × Nat => floatWeight fl ex sigma ((q.2 : Int) - k) ((q.1 : Int) - k) / floatWeightSum fl ex sigma k)
        (fun q _ => by
          have := (abs_le.1 (hcell q.2 q.1)).2
          linarith)
      rw [e1] at this
      linarith

example : ∃ m', GetGaussianKernel single (fun q => single (1 / (1 + q * q))) 5 4 1 (3 / 4) (zeroVec 0) = .ok () m' ∧
    FloatKernel single (fun q => single (1 / (1 + q * q))) 5 4 1 (3 / 4) m' ∧
    |((List.range (4 * 5)).map (m'.byte 1)).sum - 1| ≤ 14 / 2 ^ 22 :=
  have r := Rounding24.single
  have pos : ∀ q : ℚ, 0 < single (1 / (1 + q * q)) := fun q => fl_pos r (one_div_pos.2 (by nlinarith [mul_self_nonneg q]))
  have ⟨m', h1, h2, h3⟩ := C79_rounded_partial r (fun q => (pos q).le) (pos 0) (w := 5) (h := 4) (k := 1)
    ⟨by decide, by decide, by decide, by decide⟩ (by decide) (show (0 : ℚ) < 3 / 4 by norm_num) (zeroVec 0)
  ⟨m', h1, h2, le_trans h3 (by norm_num [kernelError])⟩

end PV.Props
