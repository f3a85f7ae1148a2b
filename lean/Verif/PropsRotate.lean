import Verif.RotateLemmas
import Verif.PropsFilter
import Verif.PropsChannel
/-
  Properties C95 - C97: `Rotate`.
-/
namespace PV.Props

open Move

/-! ### What is said about the result -/

/-- The point of the input that the rotation puts at the pixel (k, l) of the output: column. -/
def turnedX (cosA sinA cxIn cxOut cyOut : ℚ) (k l : Nat) : ℚ := cxIn + cosA * (k - cxOut) + sinA * (l - cyOut)

/-- The point of the input that the rotation puts at the pixel (k, l) of the output: row. -/
def turnedY (cosA sinA cyIn cxOut cyOut : ℚ) (k l : Nat) : ℚ := cyIn - sinA * (k - cxOut) + cosA * (l - cyOut)

/-- The bilinear interpolation between the pixels of a region at the pixel (X, Y) and the offsets (u, v). -/
def bilinear (m : BMem) (inp : View) (X Y : Nat) (u v : ℚ) : ℚ :=
  (inp.get m X Y 0).toNat * ((1 - u) * (1 - v)) + (inp.get m (X + 1) Y 0).toNat * (u * (1 - v))
    + (inp.get m X (Y + 1) 0).toNat * ((1 - u) * v) + (inp.get m (X + 1) (Y + 1) 0).toNat * (u * v)

/-- `v` is a value between the four pixels at (X, Y), (X + 1, Y), (X, Y + 1) and (X + 1, Y + 1). -/
def Between (m : BMem) (inp : View) (X Y : Nat) (v : UInt8) : Prop :=
  (∃ i j, i ≤ 1 ∧ j ≤ 1 ∧ inp.get m (X + i) (Y + j) 0 ≤ v) ∧ ∃ i j, i ≤ 1 ∧ j ≤ 1 ∧ v ≤ inp.get m (X + i) (Y + j) 0

/-- `v` is the pixel for the point (p, q) of the image: zero outside of the region, the interpolated value
    (to the nearest integer, up to `eps`) inside. -/
def Sampled (m : BMem) (inp : View) (w h : Nat) (eps : ℚ) (p q : ℚ) (v : UInt8) : Prop :=
  ((p < inp.x ∨ q < inp.y ∨ (inp.x : ℚ) + w - 1 ≤ p ∨ (inp.y : ℚ) + h - 1 ≤ q) ∧ v = 0) ∨
  ∃ X Y : Nat, X + 1 < w ∧ Y + 1 < h ∧ (inp.x : ℚ) + X ≤ p ∧ p < inp.x + X + 1 ∧ (inp.y : ℚ) + Y ≤ q ∧ q < inp.y + Y + 1 ∧
    Between m inp X Y v ∧ |(v.toNat : ℚ) - bilinear m inp X Y (p - (inp.x + X)) (q - (inp.y + Y))| ≤ 1 / 2 + eps

/-- What `Rotate` needs: gray-scale images with regions inside, not overlapping; `cosA` and `sinA` at most one;
    the centres at most `C` from the origin, and everything within the range of the conversions. -/
structure RotateAt (m : BMem) (inp out : View) (w h : Nat) (cosA sinA cxIn cyIn cxOut cyOut : ℚ) (C : Nat) : Prop where
  pair : GrayPair m inp out w h
  apart : Apart inp w h out w h
  hc : |cosA| ≤ 1
  hs : |sinA| ≤ 1
  xi : |cxIn| ≤ C
  yi : |cyIn| ≤ C
  xo : |cxOut| ≤ C
  yo : |cyOut| ≤ C
  small : 3 * C + w + h ≤ 4294967296

/-! ### The values -/

theorem start_near {rnd : ℚ → ℚ} (R : Rounding rnd) {c s a b d : ℚ} {C : Nat} (hc : |c| ≤ 1) (hs : |s| ≤ 1) (ha : |a| ≤ C)
    (hb : |b| ≤ C) (hd : |d| ≤ C) (hC : 3 * C < 9007199254740992) :
    |rnd (-(rnd (rnd (c * a) + rnd (s * b))) + d)| ≤ (3 * C : Nat) ∧
    |rnd (-(rnd (rnd (c * a) + rnd (s * b))) + d) - (d - c * a - s * b)| ≤ 7 * (C / 2 ^ 52) := by
  have p1 : |c * a| ≤ C := by
    rw [abs_mul]
    calc |c| * |a| ≤ 1 * C := mul_le_mul hc ha (abs_nonneg _) (by norm_num)
      _ = C := one_mul _
  have p2 : |s * b| ≤ C := by
    rw [abs_mul]
    calc |s| * |b| ≤ 1 * C := mul_le_mul hs hb (abs_nonneg _) (by norm_num)
      _ = C := one_mul _
  have a1 := rnd_abs R p1 (by omega)
  have a2 := rnd_abs R p2 (by omega)
  have e1 := rnd_near R p1
  have e2 := rnd_near R p2
  have q : |rnd (c * a) + rnd (s * b)| ≤ (2 * C : Nat) := by
    refine le_trans (abs_add_le _ _) ?_
    push_cast
    linarith
  have a3 := rnd_abs R q (by omega)
  have e3 := rnd_near R q
  have r : |-(rnd (rnd (c * a) + rnd (s * b))) + d| ≤ (3 * C : Nat) := by
    refine le_trans (abs_add_le _ _) ?_
    rw [abs_neg]
    push_cast at a3 ⊢
    linarith
  have a4 := rnd_abs R r (by omega)
  have e4 := rnd_near R r
  refine ⟨a4, ?_⟩
  push_cast at e3 e4
  rw [abs_le] at *
  constructor <;> linarith [e1.1, e1.2, e2.1, e2.2, e3.1, e3.2, e4.1, e4.2]

theorem pix_get {m : BMem} {v : View} (gi : v.img.cc = 1) (X Y : Nat) : v.img.pix m (v.x + X) (v.y + Y) = v.get m X Y 0 := by
  rw [Image.pix, View.get, View.cell, gi, Nat.mul_one, Nat.add_zero]

theorem exists_min (f : Nat → Nat → UInt8) : ∃ i j, i ≤ 1 ∧ j ≤ 1 ∧ f i j ≤ f 0 0 ∧ f i j ≤ f 1 0 ∧ f i j ≤ f 0 1 ∧ f i j ≤ f 1 1 := by
  have h : ∀ a b c d : UInt8, (a ≤ b ∧ a ≤ c ∧ a ≤ d) ∨ (b ≤ a ∧ b ≤ c ∧ b ≤ d) ∨ (c ≤ a ∧ c ≤ b ∧ c ≤ d) ∨ (d ≤ a ∧ d ≤ b ∧ d ≤ c) := by
    intro a b c d
    simp only [UInt8.le_iff_toNat_le]
    omega
  rcases h (f 0 0) (f 1 0) (f 0 1) (f 1 1) with h | h | h | h
  · exact ⟨0, 0, by omega, by omega, UInt8.le_refl _, h.1, h.2.1, h.2.2⟩
  · exact ⟨1, 0, by omega, by omega, h.1, UInt8.le_refl _, h.2.1, h.2.2⟩
  · exact ⟨0, 1, by omega, by omega, h.1, h.2.1, UInt8.le_refl _, h.2.2⟩
  · exact ⟨1, 1, by omega, by omega, h.1, h.2.1, h.2.2, UInt8.le_refl _⟩

theorem exists_max (f : Nat → Nat → UInt8) : ∃ i j, i ≤ 1 ∧ j ≤ 1 ∧ f 0 0 ≤ f i j ∧ f 1 0 ≤ f i j ∧ f 0 1 ≤ f i j ∧ f 1 1 ≤ f i j := by
  have h : ∀ a b c d : UInt8, (b ≤ a ∧ c ≤ a ∧ d ≤ a) ∨ (a ≤ b ∧ c ≤ b ∧ d ≤ b) ∨ (a ≤ c ∧ b ≤ c ∧ d ≤ c) ∨ (a ≤ d ∧ b ≤ d ∧ c ≤ d) := by
    intro a b c d
    simp only [UInt8.le_iff_toNat_le]
    omega
  rcases h (f 0 0) (f 1 0) (f 0 1) (f 1 1) with h | h | h | h
  · exact ⟨0, 0, by omega, by omega, UInt8.le_refl _, h.1, h.2.1, h.2.2⟩
  · exact ⟨1, 0, by omega, by omega, h.1, UInt8.le_refl _, h.2.1, h.2.2⟩
  · exact ⟨0, 1, by omega, by omega, h.1, h.2.1, UInt8.le_refl _, h.2.2⟩
  · exact ⟨1, 1, by omega, by omega, h.1, h.2.1, h.2.2, UInt8.le_refl _⟩

theorem rotateValue_sampled {rnd : ℚ → ℚ} (R : Rounding rnd) {m : BMem} {inp : View} {w h : Nat} (gi : inp.img.cc = 1)
    (hw : 0 < w) (hh : 0 < h) (p q : ℚ) :
    Sampled m inp w h (1 / 2 ^ 36) p q (rotateValue rnd (inp.img.pix m) inp.x inp.y w h p q) := by
  rw [rotateValue]
  by_cases h1 : p < inp.x ∨ q < inp.y
  · rw [if_pos (by tauto)]
    exact Or.inl ⟨by tauto, rfl⟩
  · have h1' := h1
    push Not at h1
    have p0 : 0 ≤ p := le_trans (by positivity) h1.1
    have q0 : 0 ≤ q := le_trans (by positivity) h1.2
    obtain ⟨fp1, fp2⟩ := floor_nat p0
    obtain ⟨fq1, fq2⟩ := floor_nat q0
    have hx0 : inp.x ≤ ⌊p⌋.toNat := by
      have : (inp.x : ℤ) ≤ ⌊p⌋ := Int.le_floor.2 (by exact_mod_cast h1.1)
      omega
    have hy0 : inp.y ≤ ⌊q⌋.toNat := by
      have : (inp.y : ℤ) ≤ ⌊q⌋ := Int.le_floor.2 (by exact_mod_cast h1.2)
      omega
    generalize ⌊p⌋.toNat = X at *
    generalize ⌊q⌋.toNat = Y at *
    obtain ⟨X, rfl⟩ : ∃ X', X = inp.x + X' := ⟨X - inp.x, by omega⟩
    obtain ⟨Y, rfl⟩ : ∃ Y', Y = inp.y + Y' := ⟨Y - inp.y, by omega⟩
    by_cases h2 : inp.x + w - 1 ≤ inp.x + X ∨ inp.y + h - 1 ≤ inp.y + Y
    · rw [if_pos (by tauto)]
      refine Or.inl ⟨?_, rfl⟩
      rcases h2 with h2 | h2
      · refine Or.inr (Or.inr (Or.inl ?_))
        have : ((inp.x + w : Nat) : ℚ) ≤ (inp.x + X + 1 : Nat) := by
          have : inp.x + w ≤ inp.x + X + 1 := by omega
          exact_mod_cast this
        push_cast at this fp1
        linarith
      · refine Or.inr (Or.inr (Or.inr ?_))
        have : ((inp.y + h : Nat) : ℚ) ≤ (inp.y + Y + 1 : Nat) := by
          have : inp.y + h ≤ inp.y + Y + 1 := by omega
          exact_mod_cast this
        push_cast at this fq1
        linarith
    · rw [if_neg (by tauto)]
      push Not at h2
      have near := rotateSum_near R (inp.img.pix m (inp.x + X) (inp.y + Y)) (inp.img.pix m (inp.x + X + 1) (inp.y + Y))
        (inp.img.pix m (inp.x + X) (inp.y + Y + 1)) (inp.img.pix m (inp.x + X + 1) (inp.y + Y + 1)) fp1 fp2 fq1 fq2
      obtain ⟨s1, s2⟩ := sum_facts R (inp.img.pix m (inp.x + X) (inp.y + Y)) (inp.img.pix m (inp.x + X + 1) (inp.y + Y))
        (inp.img.pix m (inp.x + X) (inp.y + Y + 1)) (inp.img.pix m (inp.x + X + 1) (inp.y + Y + 1)) fp1 fp2 fq1 fq2
      generalize hS : rotateSum rnd _ _ _ _ _ _ = S at *
      obtain ⟨f1, f2⟩ := floor_nat s1
      have lt : ⌊S⌋.toNat < 256 := by
        have : (⌊S⌋.toNat : ℚ) < 256 := lt_of_le_of_lt f1 s2
        exact_mod_cast this
      have ev : (UInt8.ofNat ⌊S⌋.toNat).toNat = ⌊S⌋.toNat := ofNat_toNat' lt
      refine Or.inr ⟨X, Y, by omega, by omega, by push_cast at fp1; exact fp1, by push_cast at fp2; exact fp2,
        by push_cast at fq1; exact fq1, by push_cast at fq2; exact fq2, ?_, ?_⟩
      · simp only [Nat.add_assoc inp.x, Nat.add_assoc inp.y, pix_get gi] at near
        have near := abs_le.1 near
        norm_num at near
        have g := fun z : UInt8 => z.toNat_lt
        constructor
        · obtain ⟨i, j, hi, hj, b1, b2, b3, b4⟩ := exists_min fun i j => inp.get m (X + i) (Y + j) 0
          refine ⟨i, j, hi, hj, ?_⟩
          simp only [UInt8.le_iff_toNat_le] at *
          have k := blend_ge (u := p - (inp.x + X : Nat)) (v := q - (inp.y + Y : Nat)) (by linarith) (by linarith)
            (by linarith) (by linarith) b1 b2 b3 b4
          simp only [Nat.add_zero] at k
          rw [ev]
          have k2 : ((inp.get m (X + i) (Y + j) 0).toNat : ℚ) < ⌊S⌋.toNat + 1 := by
            push_cast at k near
            linarith [near.1]
          have : (inp.get m (X + i) (Y + j) 0).toNat < ⌊S⌋.toNat + 1 := by exact_mod_cast k2
          omega
        · obtain ⟨i, j, hi, hj, b1, b2, b3, b4⟩ := exists_max fun i j => inp.get m (X + i) (Y + j) 0
          refine ⟨i, j, hi, hj, ?_⟩
          simp only [UInt8.le_iff_toNat_le] at *
          have k := blend_le (u := p - (inp.x + X : Nat)) (v := q - (inp.y + Y : Nat)) (by linarith) (by linarith)
            (by linarith) (by linarith) b1 b2 b3 b4
          simp only [Nat.add_zero] at k
          rw [ev]
          have k2 : (⌊S⌋.toNat : ℚ) < (inp.get m (X + i) (Y + j) 0).toNat + 1 := by
            push_cast at k near
            linarith [near.2]
          have : ⌊S⌋.toNat < (inp.get m (X + i) (Y + j) 0).toNat + 1 := by exact_mod_cast k2
          omega
      · rw [ev]
        have e : blend (inp.img.pix m (inp.x + X) (inp.y + Y)) (inp.img.pix m (inp.x + X + 1) (inp.y + Y))
            (inp.img.pix m (inp.x + X) (inp.y + Y + 1)) (inp.img.pix m (inp.x + X + 1) (inp.y + Y + 1))
            (p - (inp.x + X : Nat)) (q - (inp.y + Y : Nat)) = bilinear m inp X Y (p - (inp.x + X)) (q - (inp.y + Y)) := by
          rw [Nat.add_assoc inp.x, Nat.add_assoc inp.y]
          simp only [pix_get gi, blend, bilinear, mul_assoc]
          push_cast
          rfl
        rw [e] at near
        have near := abs_le.1 near
        rw [abs_le]
        constructor <;> linarith [near.1, near.2]

/-! ### C97 : the value of every pixel -/

theorem rotate_sampled {rnd : ℚ → ℚ} (R : Rounding rnd) {m : BMem} {inp out : View} {w h C : Nat}
    {cosA sinA cxi cyi cxo cyo : ℚ} (r : RotateAt m inp out w h cosA sinA cxi cyi cxo cyo C) :
    ∃ m' F px py, Rotate rnd cosA sinA inp cxi cyi out cxo cyo w h m = .ok () m' ∧
      WritesRoi m m' out w h (fun k l _ => rotateValue rnd (inp.img.pix m) inp.x inp.y w h (px k l) (py k l)) ∧
      (F = fun k l => rotateValue rnd (inp.img.pix m) inp.x inp.y w h (px k l) (py k l)) ∧
      (px = rotateX rnd cosA sinA (rnd (-(rnd (rnd (cosA * cxo) + rnd (sinA * cyo))) + cxi))) ∧
      (py = rotateY rnd cosA sinA (rnd (-(rnd (rnd (-sinA * cxo) + rnd (cosA * cyo))) + cyi))) ∧
      ∀ k l, k < w → l < h →
        |px k l - turnedX cosA sinA cxi cxo cyo k l| ≤ (k + l + 3) * ((3 * C + w + h) / 2 ^ 52) ∧
        |py k l - turnedY cosA sinA cyi cxo cyo k l| ≤ (k + l + 3) * ((3 * C + w + h) / 2 ^ 52) ∧
        Sampled m inp w h (1 / 2 ^ 36) (px k l) (py k l) (F k l) := by
  have hsm := r.small
  have hwp := r.pair.fiti.wpos
  have hhp := r.pair.fiti.hpos
  obtain ⟨x1, x2⟩ := start_near R r.hc r.hs r.xo r.yo r.xi (by omega)
  obtain ⟨y1, y2⟩ := start_near R (c := -sinA) (by rw [abs_neg]; exact r.hs) r.hc r.xo r.yo r.yi (by omega)
  obtain ⟨m', e1, e2⟩ := rotate_ok R r.hc r.hs r.pair.wfi r.pair.wfo r.pair.fiti r.pair.fito r.pair.gi r.pair.go r.apart
    rfl rfl x1 y1 (by omega)
  refine ⟨m', _, _, _, e1, e2, rfl, rfl, rfl, fun k l hk hl => ⟨?_, ?_, rotateValue_sampled R r.pair.gi hwp hhp _ _⟩⟩
  · rw [rotateX, turnedX]
    generalize rnd (-(rnd (rnd (cosA * cxo) + rnd (sinA * cyo))) + cxi) = x0 at *
    have n1 := walk_abs R r.hs x1 l (by omega)
    have n2 := walk_near R r.hs x1 (N := 3 * C + w + h) l (by omega) (by omega)
    have n3 := walk_near R r.hc n1 (N := 3 * C + w + h) k (by omega) (by omega)
    push_cast at n2 n3
    have z : 7 * ((C : ℚ) / 2 ^ 52) ≤ 3 * ((3 * C + w + h) / 2 ^ 52) := by
      have a1 : (0 : ℚ) ≤ C := by positivity
      have a2 : (0 : ℚ) ≤ w := by positivity
      have a3 : (0 : ℚ) ≤ h := by positivity
      linarith
    rw [abs_le] at *
    constructor <;> nlinarith [x2.1, x2.2, n2.1, n2.2, n3.1, n3.2]
  · rw [rotateY, turnedY]
    generalize rnd (-(rnd (rnd (-sinA * cxo) + rnd (cosA * cyo))) + cyi) = y0 at *
    have n1 := walk_abs R r.hc y1 l (by omega)
    have n2 := walk_near R r.hc y1 (N := 3 * C + w + h) l (by omega) (by omega)
    have n3 := walk_near R (d := -sinA) (by rw [abs_neg]; exact r.hs) n1 (N := 3 * C + w + h) k (by omega) (by omega)
    push_cast at n2 n3
    have z : 7 * ((C : ℚ) / 2 ^ 52) ≤ 3 * ((3 * C + w + h) / 2 ^ 52) := by
      have a1 : (0 : ℚ) ≤ C := by positivity
      have a2 : (0 : ℚ) ≤ w := by positivity
      have a3 : (0 : ℚ) ≤ h := by positivity
      linarith
    rw [abs_le] at *
    constructor <;> nlinarith [y2.1, y2.2, n2.1, n2.2, n3.1, n3.2]

/-- Every output pixel is interpolated at a point which is at most (k + l + 3)(3C + w + h) / 2^52 away from the point
    that the rotation puts there, and no pixel but those of the output region changes. -/
theorem C97_turned {rnd : ℚ → ℚ} (R : Rounding rnd) {m : BMem} {inp out : View} {w h C : Nat}
    {cosA sinA cxi cyi cxo cyo : ℚ} (r : RotateAt m inp out w h cosA sinA cxi cyi cxo cyo C) :
    ∃ (m' : BMem) (F : Nat → Nat → UInt8), Rotate rnd cosA sinA inp cxi cyi out cxo cyo w h m = .ok () m' ∧
      WritesRoi m m' out w h (fun k l _ => F k l) ∧
      ∀ k l, k < w → l < h → ∃ p q,
        |p - turnedX cosA sinA cxi cxo cyo k l| ≤ (k + l + 3) * ((3 * C + w + h) / 2 ^ 52) ∧
        |q - turnedY cosA sinA cyi cxo cyo k l| ≤ (k + l + 3) * ((3 * C + w + h) / 2 ^ 52) ∧
        Sampled m inp w h (1 / 2 ^ 36) p q (F k l) := by
  obtain ⟨m', F, px, py, e1, e2, rfl, _, _, e3⟩ := rotate_sampled R r
  exact ⟨m', _, e1, e2, fun k l hk hl => ⟨_, _, e3 k l hk hl⟩⟩

/-- In exact arithmetic it is this point. -/
theorem C97_exact {m : BMem} {inp out : View} {w h C : Nat} {cosA sinA cxi cyi cxo cyo : ℚ}
    (r : RotateAt m inp out w h cosA sinA cxi cyi cxo cyo C) :
    ∃ (m' : BMem) (F : Nat → Nat → UInt8), Rotate id cosA sinA inp cxi cyi out cxo cyo w h m = .ok () m' ∧
      WritesRoi m m' out w h (fun k l _ => F k l) ∧
      ∀ k l, k < w → l < h →
        Sampled m inp w h (1 / 2 ^ 36) (turnedX cosA sinA cxi cxo cyo k l) (turnedY cosA sinA cyi cxo cyo k l) (F k l) := by
  obtain ⟨m', F, px, py, e1, e2, rfl, rfl, rfl, e3⟩ := rotate_sampled Rounding.exact r
  have hw : ∀ d a k, walk id d a k = a + k * d := by
    intro d a k
    induction k with
    | zero => simp [walk]
    | succ k ih =>
      rw [walk, ih]
      push_cast
      simp only [id]
      ring
  refine ⟨m', _, e1, e2, fun k l hk hl => ?_⟩
  have := (e3 k l hk hl).2.2
  have ex : rotateX id cosA sinA (id (-(id (id (cosA * cxo) + id (sinA * cyo))) + cxi)) k l
      = turnedX cosA sinA cxi cxo cyo k l := by
    simp only [rotateX, hw, turnedX, id]
    ring
  have ey : rotateY id cosA sinA (id (-(id (id (-sinA * cxo) + id (cosA * cyo))) + cyi)) k l
      = turnedY cosA sinA cyi cxo cyo k l := by
    simp only [rotateY, hw, turnedY, id]
    ring
  simp only [ex, ey] at this ⊢
  exact this

/-! ### C95 : only the pixels of the region -/

/-- Every output pixel is zero or lies between four neighbouring pixels of the region. -/
theorem C95_range {rnd : ℚ → ℚ} (R : Rounding rnd) {m : BMem} {inp out : View} {w h C : Nat}
    {cosA sinA cxi cyi cxo cyo : ℚ} (r : RotateAt m inp out w h cosA sinA cxi cyi cxo cyo C) :
    ∃ (m' : BMem) (F : Nat → Nat → UInt8), Rotate rnd cosA sinA inp cxi cyi out cxo cyo w h m = .ok () m' ∧
      WritesRoi m m' out w h (fun k l _ => F k l) ∧
      ∀ k l, k < w → l < h → F k l = 0 ∨ ∃ X Y, X + 1 < w ∧ Y + 1 < h ∧ Between m inp X Y (F k l) := by
  obtain ⟨m', F, e1, e2, e3⟩ := C97_turned R r
  refine ⟨m', F, e1, e2, fun k l hk hl => ?_⟩
  obtain ⟨p, q, _, _, h1 | ⟨X, Y, h2⟩⟩ := e3 k l hk hl
  · exact Or.inl h1.2
  · exact Or.inr ⟨X, Y, h2.1, h2.2.1, h2.2.2.2.2.2.2.1⟩

/-- Two images with the same pixels in the region give the same output, whatever else they hold. -/
theorem C95_only_region {rnd : ℚ → ℚ} (R : Rounding rnd) {m₁ m₂ : BMem} {inp out : View} {w h C : Nat}
    {cosA sinA cxi cyi cxo cyo : ℚ} (r₁ : RotateAt m₁ inp out w h cosA sinA cxi cyi cxo cyo C)
    (r₂ : RotateAt m₂ inp out w h cosA sinA cxi cyi cxo cyo C)
    (he : ∀ x y, x < w → y < h → inp.get m₁ x y 0 = inp.get m₂ x y 0) :
    ∃ m₁' m₂', Rotate rnd cosA sinA inp cxi cyi out cxo cyo w h m₁ = .ok () m₁' ∧
      Rotate rnd cosA sinA inp cxi cyi out cxo cyo w h m₂ = .ok () m₂' ∧
      ∀ x y, x < w → y < h → out.get m₁' x y 0 = out.get m₂' x y 0 := by
  obtain ⟨m₁', F₁, px, py, e1, e2, rfl, hx, hy, e3⟩ := rotate_sampled R r₁
  obtain ⟨m₂', F₂, px', py', f1, f2, rfl, hx', hy', f3⟩ := rotate_sampled R r₂
  have hxx : px = px' := hx.trans hx'.symm
  have hyy : py = py' := hy.trans hy'.symm
  subst hxx
  subst hyy
  refine ⟨m₁', m₂', e1, f1, fun k l hk hl => ?_⟩
  rw [e2.inside k l 0 hk hl (by rw [r₁.pair.go]; omega), f2.inside k l 0 hk hl (by rw [r₁.pair.go]; omega)]
  generalize px k l = p
  generalize py k l = q
  rw [rotateValue, rotateValue]
  by_cases hz : p < inp.x ∨ q < inp.y ∨ inp.x + w - 1 ≤ ⌊p⌋.toNat ∨ inp.y + h - 1 ≤ ⌊q⌋.toNat
  · rw [if_pos hz, if_pos hz]
  · rw [if_neg hz, if_neg hz]
    push Not at hz
    obtain ⟨z1, z2, z3, z4⟩ := hz
    have hx0 : inp.x ≤ ⌊p⌋.toNat := by
      have : (inp.x : ℤ) ≤ ⌊p⌋ := Int.le_floor.2 (by exact_mod_cast z1)
      omega
    have hy0 : inp.y ≤ ⌊q⌋.toNat := by
      have : (inp.y : ℤ) ≤ ⌊q⌋ := Int.le_floor.2 (by exact_mod_cast z2)
      omega
    have he' : ∀ X Y, inp.x ≤ X → X < inp.x + w → inp.y ≤ Y → Y < inp.y + h → inp.img.pix m₁ X Y = inp.img.pix m₂ X Y := by
      intro X Y a b c d
      have := he (X - inp.x) (Y - inp.y) (by omega) (by omega)
      rw [← pix_get r₁.pair.gi, ← pix_get r₁.pair.gi, show inp.x + (X - inp.x) = X by omega,
        show inp.y + (Y - inp.y) = Y by omega] at this
      exact this
    rw [he' _ _ (by omega) (by omega) (by omega) (by omega), he' _ _ (by omega) (by omega) (by omega) (by omega),
      he' _ _ (by omega) (by omega) (by omega) (by omega), he' _ _ (by omega) (by omega) (by omega) (by omega)]

/-- Regions that do not fit and images which are not gray-scale are rejected, nothing is written. -/
theorem C95_rejects {rnd : ℚ → ℚ} {cosA sinA cxi cyi cxo cyo : ℚ} {m : BMem} {inp out : View} {w h : Nat}
    (hb : Bad [inp, out] w h (Gray1 inp out)) :
    Rotate rnd cosA sinA inp cxi cyi out cxo cyo w h m = .throw m := by
  rw [Rotate]
  refine rois_bad_then hb fun hc => ?_
  refine bind_throw (gray_throw ?_)
  by_cases h1 : inp.img.cc = 1
  · exact ⟨out.img, by simp, fun h2 => hc ⟨h1, h2⟩⟩
  · exact ⟨inp.img, by simp, h1⟩

/-! ### C96 : rotation by zero -/

theorem walk_int {rnd : ℚ → ℚ} (R : Rounding rnd) (d a : Nat) :
    ∀ k, a + k * d < 9007199254740992 → walk rnd d a k = (a + k * d : Nat)
  | 0, _ => by simp [walk]
  | k + 1, hk => by
    rw [Nat.succ_mul] at hk
    rw [walk, walk_int R d a k (by omega), ← rnd_nat R (n := a + (k + 1) * d) (by rw [Nat.succ_mul]; omega)]
    congr 1
    push_cast
    ring

theorem zero_value {rnd : ℚ → ℚ} (R : Rounding rnd) {m : BMem} {inp : View} {w h k l : Nat} {v : UInt8}
    (hs : Sampled m inp w h (1 / 2 ^ 36) ((inp.x + k : Nat) : ℚ) ((inp.y + l : Nat) : ℚ) v) :
    v = if k + 1 < w ∧ l + 1 < h then inp.get m k l 0 else 0 := by
  push_cast at hs
  rcases hs with ⟨hz, rfl⟩ | ⟨X, Y, hX, hY, h1, h2, h3, h4, -, h5⟩
  · rw [if_neg]
    rintro ⟨a, b⟩
    have a' : (k : ℚ) + 1 < w := by exact_mod_cast a
    have b' : (l : ℚ) + 1 < h := by exact_mod_cast b
    have k0 : (0 : ℚ) ≤ k := by positivity
    have l0 : (0 : ℚ) ≤ l := by positivity
    rcases hz with hz | hz | hz | hz <;> linarith
  · have e1 : X = k := by
      have a1 : (X : ℚ) < k + 1 := by linarith
      have a2 : (k : ℚ) < X + 1 := by linarith
      have b1 : X < k + 1 := by exact_mod_cast a1
      have b2 : k < X + 1 := by exact_mod_cast a2
      omega
    have e2 : Y = l := by
      have a1 : (Y : ℚ) < l + 1 := by linarith
      have a2 : (l : ℚ) < Y + 1 := by linarith
      have b1 : Y < l + 1 := by exact_mod_cast a1
      have b2 : l < Y + 1 := by exact_mod_cast a2
      omega
    subst e1
    subst e2
    rw [if_pos ⟨hX, hY⟩]
    rw [sub_self, sub_self, bilinear] at h5
    simp only [sub_zero, mul_one, mul_zero, add_zero, zero_mul] at h5
    have := abs_le.1 h5
    norm_num at this
    have a1 : (v.toNat : ℚ) < (inp.get m X Y 0).toNat + 1 := by linarith [this.2]
    have a2 : ((inp.get m X Y 0).toNat : ℚ) < v.toNat + 1 := by linarith [this.1]
    have b1 : v.toNat < (inp.get m X Y 0).toNat + 1 := by exact_mod_cast a1
    have b2 : (inp.get m X Y 0).toNat < v.toNat + 1 := by exact_mod_cast a2
    exact UInt8.toNat_inj.1 (by omega)

theorem zero_start {rnd : ℚ → ℚ} (R : Rounding rnd) {cx cy : ℚ} {n : Nat} (dx : rnd cx = cx) (hn : n < 9007199254740992) :
    rnd (-(rnd (rnd (1 * cx) + rnd (0 * cy))) + (n + cx)) = n := by
  rw [one_mul, zero_mul, R.zero, add_zero, dx, dx, show -cx + (n + cx) = n by ring, rnd_nat R hn]

theorem zero_start' {rnd : ℚ → ℚ} (R : Rounding rnd) {cx cy : ℚ} {n : Nat} (dy : rnd cy = cy) (hn : n < 9007199254740992) :
    rnd (-(rnd (rnd (-0 * cx) + rnd (1 * cy))) + (n + cy)) = n := by
  rw [one_mul, neg_zero, zero_mul, R.zero, zero_add, dy, dy, show -cy + (n + cy) = n by ring, rnd_nat R hn]

theorem zero_walk {rnd : ℚ → ℚ} (R : Rounding rnd) (a k l : Nat) (h : a + k + l < 9007199254740992) :
    rotateX rnd 1 0 a k l = (a + k : Nat) ∧ rotateY rnd 1 0 a k l = (a + l : Nat) := by
  have e0 := walk_int R 0 a l (by omega)
  have e1 := walk_int R 1 a l (by omega)
  have f1 := walk_int R 1 a k (by omega)
  have f0 := walk_int R 0 (a + l) k (by omega)
  rw [Nat.mul_zero, Nat.add_zero] at e0 f0
  rw [Nat.mul_one] at e1 f1
  rw [rotateX, rotateY, neg_zero]
  norm_num at e0 e1 f0 f1
  constructor
  · rw [e0]
    push_cast
    exact f1
  · rw [e1]
    push_cast
    exact f0

/-- Rotation by zero (`cosA` = 1, `sinA` = 0) about a point that is at the same place of both regions keeps every pixel
    of the region but those of its last column and of its last row, which become zero.  Missing: these. -/
theorem C96_partial {rnd : ℚ → ℚ} (R : Rounding rnd) {m : BMem} {inp out : View} {w h C : Nat} {cx cy : ℚ}
    (r : RotateAt m inp out w h 1 0 (inp.x + cx) (inp.y + cy) cx cy C) (dx : rnd cx = cx) (dy : rnd cy = cy) :
    ∃ m', Rotate rnd 1 0 inp (inp.x + cx) (inp.y + cy) out cx cy w h m = .ok () m' ∧
      WritesRoi m m' out w h (fun k l _ => if k + 1 < w ∧ l + 1 < h then inp.get m k l 0 else 0) := by
  obtain ⟨hxi, hyi⟩ := Fits.sub_eq r.pair.wfi r.pair.fiti
  have hsm := r.small
  obtain ⟨m', F, px, py, e1, e2, rfl, rfl, rfl, e3⟩ := rotate_sampled R r
  refine ⟨m', e1, e2.size_eq, fun k l c hk hl hc => ?_, e2.outside⟩
  rw [e2.inside k l c hk hl hc]
  have h3 := (e3 k l hk hl).2.2
  beta_reduce at h3
  rw [zero_start R dx (by omega), zero_start' R dy (by omega)] at h3 ⊢
  rw [(zero_walk R inp.x k l (by omega)).1, (zero_walk R inp.y k l (by omega)).2] at h3 ⊢
  exact zero_value R h3

/-- So a rotation by zero changes every region whose last row or column is not all zero. -/
theorem C96_wrong {rnd : ℚ → ℚ} (R : Rounding rnd) {m : BMem} {inp out : View} {w h C : Nat} {cx cy : ℚ}
    (r : RotateAt m inp out w h 1 0 (inp.x + cx) (inp.y + cy) cx cy C) (dx : rnd cx = cx) (dy : rnd cy = cy)
    {k l : Nat} (hk : k < w) (hl : l < h) (hkl : k + 1 = w ∨ l + 1 = h) (hne : inp.get m k l 0 ≠ 0) :
    ∃ m', Rotate rnd 1 0 inp (inp.x + cx) (inp.y + cy) out cx cy w h m = .ok () m' ∧ out.get m' k l 0 ≠ inp.get m k l 0 := by
  obtain ⟨m', e1, e2⟩ := C96_partial R r dx dy
  refine ⟨m', e1, ?_⟩
  rw [e2.inside k l 0 hk hl (by rw [r.pair.go]; omega), if_neg (by omega)]
  exact hne.symm

/-- The form that returns a new image of a region calls `Rotate` with the same centre for both images
    (src/image_function_helper.cpp 862), although the input position counts from the corner of the image: by zero it
    returns an image of zeros for every region further from the left side than it is wide. -/
theorem C96_region_wrong {rnd : ℚ → ℚ} (R : Rounding rnd) {m : BMem} {inp out : View} {w h C : Nat} {cx cy : ℚ}
    (r : RotateAt m inp out w h 1 0 cx cy cx cy C) (dx : rnd cx = cx) (hx : w ≤ inp.x) :
    ∃ m', Rotate rnd 1 0 inp cx cy out cx cy w h m = .ok () m' ∧ WritesRoi m m' out w h fun _ _ _ => 0 := by
  have hsm := r.small
  obtain ⟨m', F, px, py, e1, e2, rfl, rfl, rfl, e3⟩ := rotate_sampled R r
  refine ⟨m', e1, e2.size_eq, fun k l c hk hl hc => ?_, e2.outside⟩
  rw [e2.inside k l c hk hl hc, rotateValue, if_pos]
  have e := zero_start (n := 0) (cy := cy) R dx (by omega)
  rw [Nat.cast_zero, zero_add] at e
  have f := (zero_walk R 0 k l (by omega)).1
  rw [Nat.cast_zero] at f
  rw [e, f, Nat.zero_add]
  left
  have : k < inp.x := by omega
  exact_mod_cast this

/-! ### Examples -/

/-- A turn by the angle with cosine 3/5 and sine 4/5 about the point (2, 2). -/
theorem rotate_pre : RotateAt filterMem filterIn filterOut 4 4 (3 / 5) (4 / 5) 2 2 2 2 2 where
  pair := filter_pair
  apart := apart_of_ne _ _ _ _ (by decide)
  hc := by norm_num [abs_le]
  hs := by norm_num [abs_le]
  xi := by norm_num
  yi := by norm_num
  xo := by norm_num
  yo := by norm_num
  small := by norm_num

/-- The pixel (2, 2) stays, the pixel (3, 2) is taken from (2 + 3/5, 2 - 4/5), the pixel (0, 0) from outside. -/
example : after (Rotate id (3 / 5) (4 / 5) filterIn 2 2 filterOut 2 2 4 4 filterMem) 2 14 = some (filterIn.get filterMem 2 2 0) := by
  decide +kernel
example : turnedX (3 / 5) (4 / 5) 2 2 2 3 2 = 13 / 5 ∧ turnedY (3 / 5) (4 / 5) 2 2 2 3 2 = 6 / 5 := by
  decide +kernel
example : bilinear filterMem filterIn 2 1 (3 / 5) (1 / 5) = 2949 / 25 := by decide +kernel
example : after (Rotate id (3 / 5) (4 / 5) filterIn 2 2 filterOut 2 2 4 4 filterMem) 2 15 = some 118 := by
  decide +kernel
example : after (Rotate id (3 / 5) (4 / 5) filterIn 2 2 filterOut 2 2 4 4 filterMem) 2 4 = some 0 := by
  decide +kernel

/-- A rotation by zero about (1, 1): the hypotheses of C96. -/
theorem zero_pre : RotateAt filterMem filterIn filterOut 4 4 1 0 ((filterIn.x : ℚ) + 1) ((filterIn.y : ℚ) + 1) 1 1 1 where
  pair := filter_pair
  apart := apart_of_ne _ _ _ _ (by decide)
  hc := by norm_num
  hs := by norm_num
  xi := by norm_num [filterIn]
  yi := by norm_num [filterIn]
  xo := by norm_num
  yo := by norm_num
  small := by norm_num

/-- The pixel (3, 0) of the image is lost. -/
example : ∃ m', Rotate double 1 0 filterIn ((filterIn.x : ℚ) + 1) ((filterIn.y : ℚ) + 1) filterOut 1 1 4 4 filterMem = .ok () m' ∧
    filterOut.get m' 3 0 0 ≠ filterIn.get filterMem 3 0 0 :=
  C96_wrong Rounding.double zero_pre Rounding.double.one Rounding.double.one (by decide) (by decide) (Or.inl rfl) (by decide)

/-- A region of two columns which starts at column two. -/
theorem zero_region_pre : RotateAt filterMem ⟨filterIn.img, 2, 0⟩ filterOut 2 4 1 0 1 1 1 1 1 where
  pair := ⟨filter_pair.wfi, filter_pair.wfo, ⟨by decide, by decide, by decide, by decide, by decide, by decide⟩,
    ⟨by decide, by decide, by decide, by decide, by decide, by decide⟩, rfl, rfl⟩
  apart := apart_of_ne _ _ _ _ (by decide)
  hc := by norm_num
  hs := by norm_num
  xi := by norm_num
  yi := by norm_num
  xo := by norm_num
  yo := by norm_num
  small := by norm_num

end PV.Props
