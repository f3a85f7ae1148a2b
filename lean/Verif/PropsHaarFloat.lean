import Verif.HaarFloat
import Verif.PropsReduce
/-
  C174: the Haar transform of `float` and `double` numbers, with rounding.
-/
namespace PV.Props
open PV

variable {fl : ℚ → ℚ}

/-- The values of a vector. -/
def valuesOf (m : Mem (Fl fl)) (b i : Nat) : ℚ := (m.byte b i).val

/-- The values of the 2 x 2 block `(x, y)` of a vector with rows of `w` elements are at most `M`. -/
def BlockAtMost (f : Nat → ℚ) (w x y : Nat) (M : ℚ) : Prop :=
  ∀ dx dy, dx < 2 → dy < 2 → |f ((2 * y + dy) * w + (2 * x + dx))| ≤ M

/-- What both transforms together do, for every relative error `u` of an operation. -/
theorem haar_trip {u : ℚ} (hu : 0 ≤ u) (he : ∀ a, |fl a - a| ≤ u * |a|) {w h n t t' inp out back : Nat} {m : Mem (Fl fl)}
    (g : HaarCall w h n t inp out m) (g' : HaarCall w h n t' out back m) :
    ∃ m1 m2, haarDirectFl fl t inp out w h m = .ok () m1 ∧ haarInverseFl fl t' out back w h m1 = .ok () m2 ∧
      m2.size = m.size ∧ (∀ b, b ≠ out → b ≠ back → m2.byte b = m.byte b) ∧
      (∀ x y M, x < w / 2 → y < h / 2 → BlockAtMost (valuesOf m inp) w x y M →
        NearF u 2 (2 * haarCoefficient * (2 * haarCoefficient * M)) (valuesOf m1 out (y * w + x))
          (haarCoefficient ^ 2 * (valuesOf m inp (2 * y * w + 2 * x) + valuesOf m inp (2 * y * w + (2 * x + 1)) +
            valuesOf m inp ((2 * y + 1) * w + 2 * x) + valuesOf m inp ((2 * y + 1) * w + (2 * x + 1)))) ∧
        NearF u 2 (2 * haarCoefficient * (2 * haarCoefficient * M)) (valuesOf m1 out (y * w + (x + w / 2)))
          (haarCoefficient ^ 2 * (valuesOf m inp (2 * y * w + (2 * x + 1)) + valuesOf m inp ((2 * y + 1) * w + (2 * x + 1)) -
            valuesOf m inp (2 * y * w + 2 * x) - valuesOf m inp ((2 * y + 1) * w + 2 * x))) ∧
        NearF u 2 (2 * haarCoefficient * (2 * haarCoefficient * M)) (valuesOf m1 out ((y + h / 2) * w + x))
          (haarCoefficient ^ 2 * (valuesOf m inp ((2 * y + 1) * w + 2 * x) + valuesOf m inp ((2 * y + 1) * w + (2 * x + 1)) -
            valuesOf m inp (2 * y * w + 2 * x) - valuesOf m inp (2 * y * w + (2 * x + 1)))) ∧
        NearF u 2 (2 * haarCoefficient * (2 * haarCoefficient * M)) (valuesOf m1 out ((y + h / 2) * w + (x + w / 2)))
          (haarCoefficient ^ 2 * (valuesOf m inp (2 * y * w + 2 * x) + valuesOf m inp ((2 * y + 1) * w + (2 * x + 1)) -
            valuesOf m inp (2 * y * w + (2 * x + 1)) - valuesOf m inp ((2 * y + 1) * w + 2 * x)))) ∧
      ∀ x y M, x < w / 2 → y < h / 2 → BlockAtMost (valuesOf m inp) w x y M → ∀ dx dy, dx < 2 → dy < 2 →
        NearF u 4 (2 * haarCoefficient * (2 * haarCoefficient * (2 * haarCoefficient * (2 * haarCoefficient * M))))
          (valuesOf m2 back ((2 * y + dy) * w + (2 * x + dx)))
          ((2 * haarCoefficient ^ 2) ^ 2 * valuesOf m inp ((2 * y + dy) * w + (2 * x + dx))) := by
  have hc : 0 ≤ haarCoefficient := by
    rw [haarCoefficient_eq]
    norm_num
  have hhe := g.size.he
  have hwe := g.size.we
  obtain ⟨m1, t1, h1, z1, o1, v1, v2⟩ := HaarDirect_ok (c := ⟨haarCoefficient⟩) g
  obtain ⟨m2, t2, h2, z2, o2, v3, v4⟩ := HaarInverse_ok (c := ⟨haarCoefficient⟩) (m := m1)
    ⟨g'.size, g'.tz, g'.iz, g'.oz, g'.ti, g'.ot, by rw [z1]; exact g'.mi, by rw [z1]; exact g'.mo⟩
  have add_val : ∀ a b : Fl fl, ((a + b) * ⟨haarCoefficient⟩ : Fl fl).val = fl (fl (a.val + b.val) * haarCoefficient) := fun _ _ => rfl
  have sub_val : ∀ a b : Fl fl, ((a - b) * ⟨haarCoefficient⟩ : Fl fl).val = fl (fl (a.val - b.val) * haarCoefficient) := fun _ _ => rfl
  have quad : ∀ x y M, x < w / 2 → y < h / 2 → BlockAtMost (valuesOf m inp) w x y M →
        NearF u 2 (2 * haarCoefficient * (2 * haarCoefficient * M)) (valuesOf m1 out (y * w + x))
          (haarCoefficient ^ 2 * (valuesOf m inp (2 * y * w + 2 * x) + valuesOf m inp (2 * y * w + (2 * x + 1)) +
            valuesOf m inp ((2 * y + 1) * w + 2 * x) + valuesOf m inp ((2 * y + 1) * w + (2 * x + 1)))) ∧
        NearF u 2 (2 * haarCoefficient * (2 * haarCoefficient * M)) (valuesOf m1 out (y * w + (x + w / 2)))
          (haarCoefficient ^ 2 * (valuesOf m inp (2 * y * w + (2 * x + 1)) + valuesOf m inp ((2 * y + 1) * w + (2 * x + 1)) -
            valuesOf m inp (2 * y * w + 2 * x) - valuesOf m inp ((2 * y + 1) * w + 2 * x))) ∧
        NearF u 2 (2 * haarCoefficient * (2 * haarCoefficient * M)) (valuesOf m1 out ((y + h / 2) * w + x))
          (haarCoefficient ^ 2 * (valuesOf m inp ((2 * y + 1) * w + 2 * x) + valuesOf m inp ((2 * y + 1) * w + (2 * x + 1)) -
            valuesOf m inp (2 * y * w + 2 * x) - valuesOf m inp (2 * y * w + (2 * x + 1)))) ∧
        NearF u 2 (2 * haarCoefficient * (2 * haarCoefficient * M)) (valuesOf m1 out ((y + h / 2) * w + (x + w / 2)))
          (haarCoefficient ^ 2 * (valuesOf m inp (2 * y * w + 2 * x) + valuesOf m inp ((2 * y + 1) * w + (2 * x + 1)) -
            valuesOf m inp (2 * y * w + (2 * x + 1)) - valuesOf m inp ((2 * y + 1) * w + 2 * x))) := by
    intro x y M hx hy hM
    have n00 := near_self (u := u) (hM 0 0 (by decide) (by decide))
    have n10 := near_self (u := u) (hM 1 0 (by decide) (by decide))
    have n01 := near_self (u := u) (hM 0 1 (by decide) (by decide))
    have n11 := near_self (u := u) (hM 1 1 (by decide) (by decide))
    simp only [Nat.add_zero] at n00 n10 n01
    have a1 := near_add hu hc he n10 n00
    have a2 := near_sub hu hc he n10 n00
    have a3 := near_add hu hc he n11 n01
    have a4 := near_sub hu hc he n11 n01
    obtain ⟨w1, w2⟩ := v1 x (2 * y) hx (by omega)
    obtain ⟨w3, w4⟩ := v1 x (2 * y + 1) hx (by omega)
    rw [Nat.add_assoc _ (2 * x) 1] at w1 w2 w3 w4
    have y1 := congrArg Fl.val w1
    have y2 := congrArg Fl.val w2
    have y3 := congrArg Fl.val w3
    have y4 := congrArg Fl.val w4
    rw [add_val] at y1 y3
    rw [sub_val] at y2 y4
    simp only [valuesOf] at a1 a2 a3 a4 ⊢
    rw [← y1] at a1
    rw [← y2] at a2
    rw [← y3] at a3
    rw [← y4] at a4
    obtain ⟨w5, w6⟩ := v2 x y (by omega) hy
    obtain ⟨w7, w8⟩ := v2 (x + w / 2) y (by omega) hy
    rw [← Nat.add_assoc (2 * y * w), ← Nat.add_assoc ((2 * y + 1) * w)] at w7 w8
    rw [congrArg Fl.val w5, congrArg Fl.val w6, congrArg Fl.val w7, congrArg Fl.val w8, add_val, add_val, sub_val, sub_val]
    have b1 := near_add hu hc he a3 a1
    have b2 := near_add hu hc he a4 a2
    have b3 := near_sub hu hc he a3 a1
    have b4 := near_sub hu hc he a4 a2
    refine ⟨?_, ?_, ?_, ?_⟩
    · convert b1 using 1; ring
    · convert b2 using 1; ring
    · convert b3 using 1; ring
    · convert b4 using 1; ring
  refine ⟨m1, m2, h1, h2, z2.trans z1, fun b hb hb' => (o2 b hb').trans (o1 b hb), quad, ?_⟩
  intro x y M hx hy hM
  obtain ⟨q1, q2, q3, q4⟩ := quad x y M hx hy hM
  obtain ⟨w1, w2⟩ := v3 x y hx (by omega)
  obtain ⟨w3, w4⟩ := v3 x (y + h / 2) hx (by omega)
  rw [Nat.add_assoc _ x (w / 2)] at w1 w2 w3 w4
  have y1 := congrArg Fl.val w1
  have y2 := congrArg Fl.val w2
  have y3 := congrArg Fl.val w3
  have y4 := congrArg Fl.val w4
  rw [sub_val] at y1 y3
  rw [add_val] at y2 y4
  have a1 := near_sub hu hc he q1 q2
  have a2 := near_add hu hc he q1 q2
  have a3 := near_sub hu hc he q3 q4
  have a4 := near_add hu hc he q3 q4
  rw [show fl (fl (valuesOf m1 out (y * w + x) - valuesOf m1 out (y * w + (x + w / 2))) * haarCoefficient) = _ from y1.symm] at a1
  rw [show fl (fl (valuesOf m1 out (y * w + x) + valuesOf m1 out (y * w + (x + w / 2))) * haarCoefficient) = _ from y2.symm] at a2
  rw [show fl (fl (valuesOf m1 out ((y + h / 2) * w + x) - valuesOf m1 out ((y + h / 2) * w + (x + w / 2))) * haarCoefficient) = _
    from y3.symm] at a3
  rw [show fl (fl (valuesOf m1 out ((y + h / 2) * w + x) + valuesOf m1 out ((y + h / 2) * w + (x + w / 2))) * haarCoefficient) = _
    from y4.symm] at a4
  obtain ⟨w5, w6⟩ := v4 (2 * x) y (by omega) hy
  obtain ⟨w7, w8⟩ := v4 (2 * x + 1) y (by omega) hy
  rw [← Nat.add_assoc (y * w), ← Nat.add_assoc ((y + h / 2) * w)] at w7 w8
  have y5 := congrArg Fl.val w5
  have y6 := congrArg Fl.val w6
  have y7 := congrArg Fl.val w7
  have y8 := congrArg Fl.val w8
  rw [sub_val] at y5 y7
  rw [add_val] at y6 y8
  have b1 := near_sub hu hc he a1 a3
  have b2 := near_add hu hc he a1 a3
  have b3 := near_sub hu hc he a2 a4
  have b4 := near_add hu hc he a2 a4
  rw [← y5] at b1
  rw [← y6] at b2
  rw [← y7] at b3
  rw [← y8] at b4
  intro dx dy hdx hdy
  have hd : (dx = 0 ∨ dx = 1) ∧ (dy = 0 ∨ dy = 1) := by omega
  rcases hd with ⟨rfl | rfl, rfl | rfl⟩
  · convert b1 using 1
    · rfl
    · simp only [Nat.add_zero]; ring
  · convert b2 using 1
    · rfl
    · simp only [Nat.add_zero]; ring
  · convert b3 using 1
    · rfl
    · simp only [Nat.add_zero]; ring
  · convert b4 using 1
    · rfl
    · ring

/-- Every value of `g` is the one of `f` up to `e` times the greatest value of its 2 x 2 block. -/
def Restored (f g : Nat → ℚ) (w h : Nat) (e : ℚ) : Prop :=
  ∀ x y M, x < w → y < h → BlockAtMost f w (x / 2) (y / 2) M → |g (y * w + x) - f (y * w + x)| ≤ M * e

/-- The quadrants of `g` are half the sums and differences of the values of the 2 x 2 blocks of `f`, up to `e` times
    the greatest value of the block. -/
structure HalfSums (f g : Nat → ℚ) (w h : Nat) (e : ℚ) : Prop where
  low : ∀ x y M, x < w / 2 → y < h / 2 → BlockAtMost f w x y M → |g (y * w + x) -
    (f (2 * y * w + 2 * x) + f (2 * y * w + (2 * x + 1)) + f ((2 * y + 1) * w + 2 * x) + f ((2 * y + 1) * w + (2 * x + 1))) / 2| ≤ M * e
  right : ∀ x y M, x < w / 2 → y < h / 2 → BlockAtMost f w x y M → |g (y * w + (x + w / 2)) -
    (f (2 * y * w + (2 * x + 1)) + f ((2 * y + 1) * w + (2 * x + 1)) - f (2 * y * w + 2 * x) - f ((2 * y + 1) * w + 2 * x)) / 2| ≤ M * e
  bottom : ∀ x y M, x < w / 2 → y < h / 2 → BlockAtMost f w x y M → |g ((y + h / 2) * w + x) -
    (f ((2 * y + 1) * w + 2 * x) + f ((2 * y + 1) * w + (2 * x + 1)) - f (2 * y * w + 2 * x) - f (2 * y * w + (2 * x + 1))) / 2| ≤ M * e
  corner : ∀ x y M, x < w / 2 → y < h / 2 → BlockAtMost f w x y M → |g ((y + h / 2) * w + (x + w / 2)) -
    (f (2 * y * w + 2 * x) + f ((2 * y + 1) * w + (2 * x + 1)) - f (2 * y * w + (2 * x + 1)) - f ((2 * y + 1) * w + 2 * x)) / 2| ≤ M * e

/-- The errors of the direct transform. -/
theorem half_err {u e M v S : ℚ} (hS : |S| ≤ 4 * M) (hM : 0 ≤ M)
    (hn : NearF u 2 (2 * haarCoefficient * (2 * haarCoefficient * M)) v (haarCoefficient ^ 2 * S))
    (hu : (2 * haarCoefficient) ^ 2 * ((1 + eta u) ^ 2 - 1) + 4 * (1 / 2 - haarCoefficient ^ 2) ≤ e) : |v - S / 2| ≤ M * e := by
  have h1 := hn.2
  have h2 : |haarCoefficient ^ 2 * S - S / 2| ≤ (1 / 2 - haarCoefficient ^ 2) * (4 * M) := by
    rw [show haarCoefficient ^ 2 * S - S / 2 = -((1 / 2 - haarCoefficient ^ 2) * S) by ring, abs_neg, abs_mul,
      abs_of_nonneg (by rw [haarCoefficient_eq]; norm_num)]
    exact mul_le_mul_of_nonneg_left hS (by rw [haarCoefficient_eq]; norm_num)
  have h3 := abs_sub_le v (haarCoefficient ^ 2 * S) (S / 2)
  have h4 := mul_le_mul_of_nonneg_left hu hM
  calc _ ≤ _ := h3
    _ ≤ _ := add_le_add h1 h2
    _ = M * ((2 * haarCoefficient) ^ 2 * ((1 + eta u) ^ 2 - 1) + 4 * (1 / 2 - haarCoefficient ^ 2)) := by ring
    _ ≤ _ := h4

/-- The errors of both transforms together. -/
theorem trip_err {u e M v s : ℚ} (hs : |s| ≤ M) (hM : 0 ≤ M)
    (hn : NearF u 4 (2 * haarCoefficient * (2 * haarCoefficient * (2 * haarCoefficient * (2 * haarCoefficient * M)))) v
      ((2 * haarCoefficient ^ 2) ^ 2 * s))
    (hu : (2 * haarCoefficient) ^ 4 * ((1 + eta u) ^ 4 - 1) + (1 - (2 * haarCoefficient ^ 2) ^ 2) ≤ e) : |v - s| ≤ M * e := by
  have h1 := hn.2
  have h2 : |(2 * haarCoefficient ^ 2) ^ 2 * s - s| ≤ (1 - (2 * haarCoefficient ^ 2) ^ 2) * M := by
    rw [show (2 * haarCoefficient ^ 2) ^ 2 * s - s = -((1 - (2 * haarCoefficient ^ 2) ^ 2) * s) by ring, abs_neg, abs_mul,
      abs_of_nonneg (by rw [haarCoefficient_eq]; norm_num)]
    exact mul_le_mul_of_nonneg_left hs (by rw [haarCoefficient_eq]; norm_num)
  have h3 := abs_sub_le v ((2 * haarCoefficient ^ 2) ^ 2 * s) s
  have h4 := mul_le_mul_of_nonneg_left hu hM
  calc _ ≤ _ := h3
    _ ≤ _ := add_le_add h1 h2
    _ = M * ((2 * haarCoefficient) ^ 4 * ((1 + eta u) ^ 4 - 1) + (1 - (2 * haarCoefficient ^ 2) ^ 2)) := by ring
    _ ≤ _ := h4

theorem haar_both {u d e : ℚ} (hu : 0 ≤ u) (he : ∀ a, |fl a - a| ≤ u * |a|)
    (hd : (2 * haarCoefficient) ^ 2 * ((1 + eta u) ^ 2 - 1) + 4 * (1 / 2 - haarCoefficient ^ 2) ≤ d)
    (hb : (2 * haarCoefficient) ^ 4 * ((1 + eta u) ^ 4 - 1) + (1 - (2 * haarCoefficient ^ 2) ^ 2) ≤ e)
    {w h n t t' inp out back : Nat} {m : Mem (Fl fl)}
    (g : HaarCall w h n t inp out m) (g' : HaarCall w h n t' out back m) :
    ∃ m1 m2, haarDirectFl fl t inp out w h m = .ok () m1 ∧ haarInverseFl fl t' out back w h m1 = .ok () m2 ∧
      m2.size = m.size ∧ (∀ b, b ≠ out → b ≠ back → m2.byte b = m.byte b) ∧
      HalfSums (valuesOf m inp) (valuesOf m1 out) w h d ∧ Restored (valuesOf m inp) (valuesOf m2 back) w h e := by
  have hwe := g.size.we
  have hhe := g.size.he
  obtain ⟨m1, m2, h1, h2, h3, h4, h5, h6⟩ := haar_trip hu he g g'
  have four : ∀ a b c d M : ℚ, |a| ≤ M → |b| ≤ M → |c| ≤ M → |d| ≤ M → |a + b + c + d| ≤ 4 * M ∧ |a + b - c - d| ≤ 4 * M := by
    intro a b c d M ha hb hc hd
    rw [abs_le] at ha hb hc hd
    constructor <;> rw [abs_le] <;> constructor <;> linarith
  refine ⟨m1, m2, h1, h2, h3, h4, ?_, ?_⟩
  · have key : ∀ x y M, BlockAtMost (valuesOf m inp) w x y M → 0 ≤ M ∧ |valuesOf m inp (2 * y * w + 2 * x)| ≤ M ∧
        |valuesOf m inp (2 * y * w + (2 * x + 1))| ≤ M ∧ |valuesOf m inp ((2 * y + 1) * w + 2 * x)| ≤ M ∧
        |valuesOf m inp ((2 * y + 1) * w + (2 * x + 1))| ≤ M := fun x y M hM =>
      ⟨le_trans (abs_nonneg _) (hM 0 0 (by decide) (by decide)), hM 0 0 (by decide) (by decide), hM 1 0 (by decide) (by decide),
        hM 0 1 (by decide) (by decide), hM 1 1 (by decide) (by decide)⟩
    refine ⟨fun x y M hx hy hM => ?_, fun x y M hx hy hM => ?_, fun x y M hx hy hM => ?_, fun x y M hx hy hM => ?_⟩ <;>
      obtain ⟨q1, q2, q3, q4⟩ := h5 x y M hx hy hM <;> obtain ⟨k0, k1, k2, k3, k4⟩ := key x y M hM
    · exact half_err (four _ _ _ _ M k1 k2 k3 k4).1 k0 q1 hd
    · exact half_err (four _ _ _ _ M k2 k4 k1 k3).2 k0 q2 hd
    · exact half_err (four _ _ _ _ M k3 k4 k1 k2).2 k0 q3 hd
    · exact half_err (four _ _ _ _ M k1 k4 k2 k3).2 k0 q4 hd
  · intro x y M hx hy hM
    have q := h6 (x / 2) (y / 2) M (by omega) (by omega) hM (x % 2) (y % 2) (Nat.mod_lt _ (by decide)) (Nat.mod_lt _ (by decide))
    have k := hM (x % 2) (y % 2) (Nat.mod_lt _ (by decide)) (Nat.mod_lt _ (by decide))
    rw [Nat.div_add_mod, Nat.div_add_mod] at q k
    exact trip_err k (le_trans (abs_nonneg _) k) q hb

/-- C174 for `float` numbers: the direct transform gives half the sums and differences of every 2 x 2 block up to
    1 / 900000 of the greatest value of the block, and the inverse transform restores every value up to 1 / 250000 of it. -/
theorem C174_float (r : Rounding24 fl) {w h n t t' inp out back : Nat} {m : Mem (Fl fl)}
    (g : HaarCall w h n t inp out m) (g' : HaarCall w h n t' out back m) :
    ∃ m1 m2, haarDirectFl fl t inp out w h m = .ok () m1 ∧ haarInverseFl fl t' out back w h m1 = .ok () m2 ∧
      m2.size = m.size ∧ (∀ b, b ≠ out → b ≠ back → m2.byte b = m.byte b) ∧
      HalfSums (valuesOf m inp) (valuesOf m1 out) w h (1 / 900000) ∧
      Restored (valuesOf m inp) (valuesOf m2 back) w h (1 / 250000) :=
  haar_both (u := 1 / 2 ^ 23) (by norm_num) (fun a => by rw [one_div_mul_eq_div]; exact r.err a)
    (by rw [haarCoefficient_eq]; unfold eta; norm_num) (by rw [haarCoefficient_eq]; unfold eta; norm_num) g g'

/-- C174 for `double` numbers (partial: the errors are those of the coefficient, which has the precision of `float`):
    1 / 10000000 of the greatest value of the block. -/
theorem C174_double_partial (r : Rounding fl) {w h n t t' inp out back : Nat} {m : Mem (Fl fl)}
    (g : HaarCall w h n t inp out m) (g' : HaarCall w h n t' out back m) :
    ∃ m1 m2, haarDirectFl fl t inp out w h m = .ok () m1 ∧ haarInverseFl fl t' out back w h m1 = .ok () m2 ∧
      m2.size = m.size ∧ (∀ b, b ≠ out → b ≠ back → m2.byte b = m.byte b) ∧
      HalfSums (valuesOf m inp) (valuesOf m1 out) w h (1 / 10000000) ∧
      Restored (valuesOf m inp) (valuesOf m2 back) w h (1 / 10000000) :=
  haar_both (u := 1 / 2 ^ 52) (by norm_num) (fun a => by rw [one_div_mul_eq_div]; exact r.err a)
    (by rw [haarCoefficient_eq]; unfold eta; norm_num) (by rw [haarCoefficient_eq]; unfold eta; norm_num) g g'

/-- The precision of `double` is never reached: with `double` numbers the greatest value of every block is
    changed by more than 1 / 2^24 of it (the rounding of `double` is 1 / 2^53). -/
theorem C174_double_wrong (r : Rounding fl) {w h n t t' inp out back : Nat} {m : Mem (Fl fl)}
    (g : HaarCall w h n t inp out m) (g' : HaarCall w h n t' out back m) :
    ∃ m1 m2, haarDirectFl fl t inp out w h m = .ok () m1 ∧ haarInverseFl fl t' out back w h m1 = .ok () m2 ∧
      ∀ x y, x < w → y < h → valuesOf m inp (y * w + x) ≠ 0 →
        BlockAtMost (valuesOf m inp) w (x / 2) (y / 2) |valuesOf m inp (y * w + x)| →
        |valuesOf m inp (y * w + x)| / 2 ^ 24 < |valuesOf m2 back (y * w + x) - valuesOf m inp (y * w + x)| := by
  have hwe := g.size.we
  have hhe := g.size.he
  obtain ⟨m1, m2, h1, h2, h3, h4, h5, h6⟩ := haar_trip (u := 1 / 2 ^ 52) (by norm_num)
    (fun a => by rw [one_div_mul_eq_div]; exact r.err a) g g'
  refine ⟨m1, m2, h1, h2, fun x y hx hy h0 hM => ?_⟩
  have q := (h6 (x / 2) (y / 2) _ (by omega) (by omega) hM (x % 2) (y % 2) (Nat.mod_lt _ (by decide)) (Nat.mod_lt _ (by decide))).2
  rw [Nat.div_add_mod, Nat.div_add_mod] at q
  generalize valuesOf m inp (y * w + x) = s at *
  generalize valuesOf m2 back (y * w + x) = v at *
  have hp : 0 < |s| := abs_pos.2 h0
  have k : |(2 * haarCoefficient ^ 2) ^ 2 * s - s| = (1 - (2 * haarCoefficient ^ 2) ^ 2) * |s| := by
    rw [show (2 * haarCoefficient ^ 2) ^ 2 * s - s = -((1 - (2 * haarCoefficient ^ 2) ^ 2) * s) by ring, abs_neg, abs_mul,
      abs_of_nonneg (by rw [haarCoefficient_eq]; norm_num)]
  have tri := abs_sub_le ((2 * haarCoefficient ^ 2) ^ 2 * s) v s
  rw [k, abs_sub_comm _ v] at tri
  have hk : 1 / 2 ^ 24 + (2 * haarCoefficient) ^ 4 * ((1 + eta (1 / 2 ^ 52)) ^ 4 - 1) < 1 - (2 * haarCoefficient ^ 2) ^ 2 := by
    rw [haarCoefficient_eq]
    unfold eta
    norm_num
  have := mul_lt_mul_of_pos_right hk hp
  have e : 2 * haarCoefficient * (2 * haarCoefficient * (2 * haarCoefficient * (2 * haarCoefficient * |s|)))
      * ((1 + eta (1 / 2 ^ 52)) ^ 4 - 1) = (2 * haarCoefficient) ^ 4 * ((1 + eta (1 / 2 ^ 52)) ^ 4 - 1) * |s| := by ring
  rw [e] at q
  rw [add_mul] at this
  rw [show |s| / 2 ^ 24 = 1 / 2 ^ 24 * |s| by ring]
  linarith

/-- Wrong parameters throw and change nothing. -/
theorem C174_rejects {w h t inp out : Nat} {m : Mem (Fl fl)}
    (hb : m.size inp = 0 ∨ m.size inp ≠ m.size out ∨ (w * h < 18446744073709551616 ∧ m.size inp ≠ w * h) ∨ w % 2 ≠ 0 ∨ h % 2 ≠ 0) :
    haarDirectFl fl t inp out w h m = .throw m ∧ haarInverseFl fl t inp out w h m = .throw m := by
  have e : haarCheck inp out w h m = .throw m := by
    have e : (m.size inp == 0 || m.size inp != m.size out || m.size inp != u64 (w * h) || w % 2 != 0 || h % 2 != 0) = true := by
      simp only [Bool.or_eq_true, bne_iff_ne, ne_eq, beq_iff_eq]
      rcases hb with hb | hb | ⟨hs, hb⟩ | hb | hb
      · tauto
      · tauto
      · rw [u64_of_lt hs]
        tauto
      · tauto
      · tauto
    rw [haarCheck, e]
    rfl
  exact ⟨bind_throw e, bind_throw e⟩

/-- Two vectors of 8 numbers: squares. -/
def flMem (fl : ℚ → ℚ) : Mem (Fl fl) := ⟨fun b => if b = 1 ∨ b = 2 then 8 else 0, fun b i => ⟨if b = 1 then 10 * i * i - 7 else 0⟩⟩

/-- Two rows of four numbers, transformed in place. -/
theorem flMem_call (fl : ℚ → ℚ) (out : Nat) (h : out = 1 ∨ out = 2) : HaarCall 4 2 8 3 1 out (flMem fl) := by
  rcases h with rfl | rfl <;>
    exact ⟨⟨by decide, by decide, by decide, by decide, by decide, by decide⟩, by decide, by decide, by decide, by decide, by decide, rfl, rfl⟩

/-- `float` rounded to the nearest number: out of place and back in place. -/
example := C174_float Rounding24.single (flMem_call single 2 (.inr rfl))
  (show HaarCall 4 2 8 3 2 2 (flMem single) from
    ⟨⟨by decide, by decide, by decide, by decide, by decide, by decide⟩, by decide, by decide, by decide, by decide, by decide, rfl, rfl⟩)

/-- `double`. -/
example := C174_double_partial Rounding.double (flMem_call double 1 (.inl rfl)) (flMem_call double 1 (.inl rfl))

/-- The block at the right end of the rows has the greatest value 483, the last one. -/
example : BlockAtMost (valuesOf (flMem double) 1) 4 1 0 483 ∧ valuesOf (flMem double) 1 (1 * 4 + 3) = 483 := by
  constructor
  · intro dx dy hx hy
    have : (dx = 0 ∨ dx = 1) ∧ (dy = 0 ∨ dy = 1) := by omega
    rcases this with ⟨rfl | rfl, rfl | rfl⟩ <;> norm_num [valuesOf, flMem, abs_le]
  · norm_num [valuesOf, flMem]

example : haarDirectFl single 3 1 2 3 2 (flMem single) = .throw (flMem single) := (C174_rejects (by decide)).1

end PV.Props
