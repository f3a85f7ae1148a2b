import Verif.CudaRotate
import Verif.PropsRotate
import Verif.PropsForms
import Verif.PropsCuda
/-
  Property C167: `Rotate` on a CUDA device.
-/
namespace PV.Props

open Move (rotateValue rotateSum blend blend_ge blend_le floor_nat)
open Cuda (rnd_abs24 rnd_nat24 rnd_near24 rotateSum_near24 sum_facts24 floatToInt floatToByte sourceX sourceY startX startY)

/-! ### What is asked of the call -/

/-- What `Rotate` needs: gray-scale images of the same size that do not overlap; `cosA` and `sinA` at most one; the centres at most
    `C` from the origin, and all coordinates less than 2^24. -/
structure TurnAt (m : BMem) (inp out : Image) (cosA sinA cxIn cyIn cxOut cyOut : ℚ) (C : Nat) : Prop where
  pair : GrayPair m (whole inp) (whole out) inp.width inp.height
  apart : Apart (whole inp) inp.width inp.height (whole out) inp.width inp.height
  width : out.width = inp.width
  height : out.height = inp.height
  hc : |cosA| ≤ 1
  hs : |sinA| ≤ 1
  xi : |cxIn| ≤ C
  yi : |cyIn| ≤ C
  xo : |cxOut| ≤ C
  yo : |cyOut| ≤ C
  small : 3 * C + inp.width + inp.height < 16777216

/-- The point (p, q) is less than one pixel to the left of or above an image of `w` by `h` pixels, which has more than one row and column. -/
def Beside (w h : Nat) (p q : ℚ) : Prop := 1 < w ∧ 1 < h ∧ -1 < p ∧ p < w - 1 ∧ -1 < q ∧ q < h - 1 ∧ (p < 0 ∨ q < 0)

/-- The point of the input for the pixel (k, l) of the output, as computed with the rounding `fl`. -/
def pointX (fl : ℚ → ℚ) (cosA sinA cxIn cxOut cyOut : ℚ) (k l : Nat) : ℚ :=
  sourceX fl cosA sinA (startX fl cosA sinA cxIn cxOut cyOut) k l

/-- See `pointX`. -/
def pointY (fl : ℚ → ℚ) (cosA sinA cyIn cxOut cyOut : ℚ) (k l : Nat) : ℚ :=
  sourceY fl cosA sinA (startY fl cosA sinA cyIn cxOut cyOut) k l

/-! ### Values -/

theorem near_start24 {fl : ℚ → ℚ} (R : Rounding24 fl) {c s a b d : ℚ} {C : Nat} (hc : |c| ≤ 1) (hs : |s| ≤ 1) (ha : |a| ≤ C)
    (hb : |b| ≤ C) (hd : |d| ≤ C) (hC : 3 * C < 16777216) :
    |fl (-(fl (fl (c * a) + fl (s * b))) + d)| ≤ (3 * C : Nat) ∧
    |fl (-(fl (fl (c * a) + fl (s * b))) + d) - (d - c * a - s * b)| ≤ 7 * (C / 2 ^ 23) := by
  have p1 : |c * a| ≤ C := by
    rw [abs_mul]
    calc |c| * |a| ≤ 1 * C := mul_le_mul hc ha (abs_nonneg _) (by norm_num)
      _ = C := one_mul _
  have p2 : |s * b| ≤ C := by
    rw [abs_mul]
    calc |s| * |b| ≤ 1 * C := mul_le_mul hs hb (abs_nonneg _) (by norm_num)
      _ = C := one_mul _
  have a1 := rnd_abs24 R p1 (by omega)
  have a2 := rnd_abs24 R p2 (by omega)
  have e1 := rnd_near24 R p1
  have e2 := rnd_near24 R p2
  have q : |fl (c * a) + fl (s * b)| ≤ (2 * C : Nat) := by
    refine le_trans (abs_add_le _ _) ?_
    push_cast
    linarith
  have a3 := rnd_abs24 R q (by omega)
  have e3 := rnd_near24 R q
  have r : |-(fl (fl (c * a) + fl (s * b))) + d| ≤ (3 * C : Nat) := by
    refine le_trans (abs_add_le _ _) ?_
    rw [abs_neg]
    push_cast at a3 ⊢
    linarith
  have a4 := rnd_abs24 R r (by omega)
  have e4 := rnd_near24 R r
  refine ⟨a4, ?_⟩
  push_cast at e3 e4
  rw [abs_le] at *
  constructor <;> linarith [e1.1, e1.2, e2.1, e2.2, e3.1, e3.2, e4.1, e4.2]

theorem rotateValue_sampled24 {fl : ℚ → ℚ} (R : Rounding24 fl) {m : BMem} {inp : View} {w h : Nat} (gi : inp.img.cc = 1)
    (hw : 0 < w) (hh : 0 < h) (p q : ℚ) :
    Sampled m inp w h (1 / 2 ^ 7) p q (rotateValue fl (inp.img.pix m) inp.x inp.y w h p q) := by
  rw [rotateValue]
  by_cases h1 : p < inp.x ∨ q < inp.y
  · rw [if_pos (by tauto)]
    exact Or.inl ⟨by tauto, rfl⟩
  · have h1' := h1
    push Not at h1
    have p0 : 0 ≤ p := le_trans (by positivity) h1.1
    have q0 : 0 ≤ q := le_trans (by positivity) h1.2
    obtain ⟨fp1, fp2⟩ := floor_nat p0
    obtain ⟨fq1, fq2⟩ := floor_nat q0
    have hx0 : inp.x ≤ ⌊p⌋.toNat := by
      have : (inp.x : ℤ) ≤ ⌊p⌋ := Int.le_floor.2 (by exact_mod_cast h1.1)
      omega
    have hy0 : inp.y ≤ ⌊q⌋.toNat := by
      have : (inp.y : ℤ) ≤ ⌊q⌋ := Int.le_floor.2 (by exact_mod_cast h1.2)
      omega
    generalize ⌊p⌋.toNat = X at *
    generalize ⌊q⌋.toNat = Y at *
    obtain ⟨X, rfl⟩ : ∃ X', X = inp.x + X' := ⟨X - inp.x, by omega⟩
    obtain ⟨Y, rfl⟩ : ∃ Y', Y = inp.y + Y' := ⟨Y - inp.y, by omega⟩
    by_cases h2 : inp.x + w - 1 ≤ inp.x + X ∨ inp.y + h - 1 ≤ inp.y + Y
    · rw [if_pos (by tauto)]
      refine Or.inl ⟨?_, rfl⟩
      rcases h2 with h2 | h2
      · refine Or.inr (Or.inr (Or.inl ?_))
        have : ((inp.x + w : Nat) : ℚ) ≤ (inp.x + X + 1 : Nat) := by
          have : inp.x + w ≤ inp.x + X + 1 := by omega
          exact_mod_cast this
        push_cast at this fp1
        linarith
      · refine Or.inr (Or.inr (Or.inr ?_))
        have : ((inp.y + h : Nat) : ℚ) ≤ (inp.y + Y + 1 : Nat) := by
          have : inp.y + h ≤ inp.y + Y + 1 := by omega
          exact_mod_cast this
        push_cast at this fq1
        linarith
    · rw [if_neg (by tauto)]
      push Not at h2
      have near := rotateSum_near24 R (inp.img.pix m (inp.x + X) (inp.y + Y)) (inp.img.pix m (inp.x + X + 1) (inp.y + Y))
        (inp.img.pix m (inp.x + X) (inp.y + Y + 1)) (inp.img.pix m (inp.x + X + 1) (inp.y + Y + 1)) fp1 fp2 fq1 fq2
      obtain ⟨s1, s2⟩ := sum_facts24 R (inp.img.pix m (inp.x + X) (inp.y + Y)) (inp.img.pix m (inp.x + X + 1) (inp.y + Y))
        (inp.img.pix m (inp.x + X) (inp.y + Y + 1)) (inp.img.pix m (inp.x + X + 1) (inp.y + Y + 1)) fp1 fp2 fq1 fq2
      generalize hS : rotateSum fl _ _ _ _ _ _ = S at *
      obtain ⟨f1, f2⟩ := floor_nat s1
      have lt : ⌊S⌋.toNat < 256 := by
        have : (⌊S⌋.toNat : ℚ) < 256 := lt_of_le_of_lt f1 s2
        exact_mod_cast this
      have ev : (UInt8.ofNat ⌊S⌋.toNat).toNat = ⌊S⌋.toNat := ofNat_toNat' lt
      refine Or.inr ⟨X, Y, by omega, by omega, by push_cast at fp1; exact fp1, by push_cast at fp2; exact fp2,
        by push_cast at fq1; exact fq1, by push_cast at fq2; exact fq2, ?_, ?_⟩
      · simp only [Nat.add_assoc inp.x, Nat.add_assoc inp.y, pix_get gi] at near
        have near := abs_le.1 near
        norm_num at near
        have g := fun z : UInt8 => z.toNat_lt
        constructor
        · obtain ⟨i, j, hi, hj, b1, b2, b3, b4⟩ := exists_min fun i j => inp.get m (X + i) (Y + j) 0
          refine ⟨i, j, hi, hj, ?_⟩
          simp only [UInt8.le_iff_toNat_le] at *
          have k := blend_ge (u := p - (inp.x + X : Nat)) (v := q - (inp.y + Y : Nat)) (by linarith) (by linarith)
            (by linarith) (by linarith) b1 b2 b3 b4
          simp only [Nat.add_zero] at k
          rw [ev]
          have k2 : ((inp.get m (X + i) (Y + j) 0).toNat : ℚ) < ⌊S⌋.toNat + 1 := by
            push_cast at k near
            linarith [near.1]
          have : (inp.get m (X + i) (Y + j) 0).toNat < ⌊S⌋.toNat + 1 := by exact_mod_cast k2
          omega
        · obtain ⟨i, j, hi, hj, b1, b2, b3, b4⟩ := exists_max fun i j => inp.get m (X + i) (Y + j) 0
          refine ⟨i, j, hi, hj, ?_⟩
          simp only [UInt8.le_iff_toNat_le] at *
          have k := blend_le (u := p - (inp.x + X : Nat)) (v := q - (inp.y + Y : Nat)) (by linarith) (by linarith)
            (by linarith) (by linarith) b1 b2 b3 b4
          simp only [Nat.add_zero] at k
          rw [ev]
          have k2 : (⌊S⌋.toNat : ℚ) < (inp.get m (X + i) (Y + j) 0).toNat + 1 := by
            push_cast at k near
            linarith [near.2]
          have : ⌊S⌋.toNat < (inp.get m (X + i) (Y + j) 0).toNat + 1 := by exact_mod_cast k2
          omega
      · rw [ev]
        have e : blend (inp.img.pix m (inp.x + X) (inp.y + Y)) (inp.img.pix m (inp.x + X + 1) (inp.y + Y))
            (inp.img.pix m (inp.x + X) (inp.y + Y + 1)) (inp.img.pix m (inp.x + X + 1) (inp.y + Y + 1))
            (p - (inp.x + X : Nat)) (q - (inp.y + Y : Nat)) = bilinear m inp X Y (p - (inp.x + X)) (q - (inp.y + Y)) := by
          rw [Nat.add_assoc inp.x, Nat.add_assoc inp.y]
          simp only [pix_get gi, blend, bilinear, mul_assoc]
          push_cast
          rfl
        rw [e] at near
        have near := abs_le.1 near
        rw [abs_le]
        constructor <;> linarith [near.1, near.2]


/-- One rounded product of a coordinate. -/
theorem product_near {fl : ℚ → ℚ} (R : Rounding24 fl) {c : ℚ} {k w : Nat} (hc : |c| ≤ 1) (hk : k < w) (hw : w < 16777216) :
    |fl (c * fl k)| ≤ (w : Nat) ∧ |fl (c * fl k) - c * k| ≤ w / 2 ^ 23 := by
  rw [rnd_nat24 R (n := k) (by omega)]
  have p1 : |c * k| ≤ (w : Nat) := by
    rw [abs_mul, abs_of_nonneg (show (0 : ℚ) ≤ k by positivity)]
    have : (k : ℚ) ≤ w := by exact_mod_cast hk.le
    calc |c| * k ≤ 1 * w := mul_le_mul hc this (by positivity) (by norm_num)
      _ = w := one_mul _
  exact ⟨rnd_abs24 R p1 hw, rnd_near24 R p1⟩

/-- The computed point is near the point that the rotation puts there. -/
theorem point_near {fl : ℚ → ℚ} (R : Rounding24 fl) {A B a b x0 t : ℚ} {C w h : Nat} (hx : |x0| ≤ (3 * C : Nat))
    (ht : |x0 - t| ≤ 7 * (C / 2 ^ 23)) (hA : |A| ≤ w) (eA : |A - a| ≤ w / 2 ^ 23) (hB : |B| ≤ h) (eB : |B - b| ≤ h / 2 ^ 23)
    (hsm : 3 * C + w + h < 16777216) :
    |fl (fl (x0 + A) + B)| ≤ (3 * C + w + h : Nat) ∧
    |fl (fl (x0 + A) + B) - (t + a + b)| ≤ 7 * ((3 * C + w + h) / 2 ^ 23) := by
  have q : |x0 + A| ≤ (3 * C + w : Nat) := by
    refine le_trans (abs_add_le _ _) ?_
    push_cast at hx ⊢
    linarith
  have a3 := rnd_abs24 R q (by omega)
  have e3 := rnd_near24 R q
  have r : |fl (x0 + A) + B| ≤ (3 * C + w + h : Nat) := by
    refine le_trans (abs_add_le _ _) ?_
    push_cast at a3 ⊢
    linarith
  have a4 := rnd_abs24 R r (by omega)
  have e4 := rnd_near24 R r
  refine ⟨a4, ?_⟩
  have n1 : (0 : ℚ) ≤ C := by positivity
  have n2 : (0 : ℚ) ≤ w := by positivity
  have n3 : (0 : ℚ) ≤ h := by positivity
  push_cast at e3 e4
  rw [abs_le] at *
  constructor <;> linarith [eA.1, eA.2, eB.1, eB.2, e3.1, e3.2, e4.1, e4.2, ht.1, ht.2]

theorem floatToInt_some {q : ℚ} {n : Nat} (h : |q| ≤ n) (hn : n < 16777216) :
    floatToInt q = some (if 0 ≤ q then ⌊q⌋ else ⌈q⌉) := by
  have h := abs_le.1 h
  have hn' : (n : ℤ) < 16777216 := by exact_mod_cast hn
  have k1 : (-(n : ℤ)) ≤ ⌊q⌋ := Int.le_floor.2 (by push_cast; exact h.1)
  have k2 : ⌈q⌉ ≤ (n : ℤ) := Int.ceil_le.2 (by push_cast; exact h.2)
  have k3 : ⌊q⌋ ≤ ⌈q⌉ := Int.floor_le_ceil q
  unfold floatToInt
  split <;> rw [if_pos (by omega)]


theorem trunc_out {p : ℚ} {w : Nat} (hw : 0 < w) :
    ((if 0 ≤ p then ⌊p⌋ else ⌈p⌉) < 0 ∨ w - 1 ≤ (if 0 ≤ p then ⌊p⌋ else ⌈p⌉).toNat) ↔ (p ≤ -1 ∨ (w : ℚ) - 1 ≤ p ∨ w = 1) := by
  have ew : ((w - 1 : Nat) : ℚ) = w - 1 := by push_cast [Nat.cast_sub hw]; ring
  have w1 : (1 : ℚ) ≤ w := by exact_mod_cast hw
  by_cases h0 : 0 ≤ p
  · rw [if_pos h0]
    have k0 : 0 ≤ ⌊p⌋ := Int.floor_nonneg.2 h0
    have k1 : w - 1 ≤ ⌊p⌋.toNat ↔ (w : ℚ) - 1 ≤ p := by
      rw [← ew, Int.le_toNat k0, Int.le_floor]
      push_cast
      rfl
    constructor
    · rintro (h | h)
      · omega
      · exact Or.inr (Or.inl (k1.1 h))
    · rintro (h | h | h)
      · linarith
      · exact Or.inr (k1.2 h)
      · right; omega
  · rw [if_neg h0]
    have h0 := not_le.1 h0
    have k0 : ⌈p⌉ ≤ 0 := Int.ceil_le.2 (by push_cast; exact h0.le)
    have k1 : ⌈p⌉ < 0 ↔ p ≤ -1 := by
      rw [show ⌈p⌉ < 0 ↔ ⌈p⌉ ≤ -1 by omega, Int.ceil_le]
      push_cast
      rfl
    have k2 : w - 1 ≤ ⌈p⌉.toNat ↔ w = 1 := by
      rw [show ⌈p⌉.toNat = 0 by omega]
      omega
    rw [k1, k2]
    constructor
    · rintro (h | h)
      · exact Or.inl h
      · exact Or.inr (Or.inr h)
    · rintro (h | h | h)
      · exact Or.inl h
      · linarith
      · exact Or.inr h

/-- The test of the kernel and the specification agree, except beside the image. -/
theorem out_iff {p q : ℚ} {w h : Nat} (hw : 0 < w) (hh : 0 < h) (nb : ¬ Beside w h p q) :
    ((if 0 ≤ p then ⌊p⌋ else ⌈p⌉) < 0 ∨ w - 1 ≤ (if 0 ≤ p then ⌊p⌋ else ⌈p⌉).toNat ∨
      (if 0 ≤ q then ⌊q⌋ else ⌈q⌉) < 0 ∨ h - 1 ≤ (if 0 ≤ q then ⌊q⌋ else ⌈q⌉).toNat) ↔
    (p < 0 ∨ q < 0 ∨ 0 + w - 1 ≤ ⌊p⌋.toNat ∨ 0 + h - 1 ≤ ⌊q⌋.toNat) := by
  have ex := trunc_out (p := p) hw
  have ey := trunc_out (p := q) hh
  rw [← or_assoc, ex, ey, Nat.zero_add, Nat.zero_add]
  clear ex ey
  have ew : ((w - 1 : Nat) : ℚ) = w - 1 := by push_cast [Nat.cast_sub hw]; ring
  have eh : ((h - 1 : Nat) : ℚ) = h - 1 := by push_cast [Nat.cast_sub hh]; ring
  have w1 : (1 : ℚ) ≤ w := by exact_mod_cast hw
  have h1 : (1 : ℚ) ≤ h := by exact_mod_cast hh
  have kx : 0 ≤ p → (w - 1 ≤ ⌊p⌋.toNat ↔ (w : ℚ) - 1 ≤ p) := by
    intro h0
    rw [← ew, Int.le_toNat (Int.floor_nonneg.2 h0), Int.le_floor]
    push_cast
    rfl
  have ky : 0 ≤ q → (h - 1 ≤ ⌊q⌋.toNat ↔ (h : ℚ) - 1 ≤ q) := by
    intro h0
    rw [← eh, Int.le_toNat (Int.floor_nonneg.2 h0), Int.le_floor]
    push_cast
    rfl
  rcases lt_or_ge p 0 with hp | hp
  · simp only [hp, true_or, iff_true]
    by_contra hn
    push Not at hn
    obtain ⟨⟨n1, n2, n3⟩, n4, n5, n6⟩ := hn
    exact nb ⟨by omega, by omega, n1, n2, n4, n5, Or.inl hp⟩
  · rcases lt_or_ge q 0 with hq | hq
    · simp only [hq, true_or, or_true, iff_true]
      by_contra hn
      push Not at hn
      obtain ⟨⟨n1, n2, n3⟩, n4, n5, n6⟩ := hn
      exact nb ⟨by omega, by omega, n1, n2, n4, n5, Or.inr hq⟩
    · rw [kx hp, ky hq]
      constructor
      · rintro ((h | h | h) | (h | h | h))
        · linarith
        · exact Or.inr (Or.inr (Or.inl h))
        · refine Or.inr (Or.inr (Or.inl ?_)); rw [h]; push_cast; linarith
        · linarith
        · exact Or.inr (Or.inr (Or.inr h))
        · refine Or.inr (Or.inr (Or.inr ?_)); rw [h]; push_cast; linarith
      · rintro (h | h | h | h)
        · linarith
        · linarith
        · exact Or.inl (Or.inr (Or.inl h))
        · exact Or.inr (Or.inr (Or.inl h))

theorem whole_addr {m : BMem} {img : Image} {w h l : Nat} (wf : (whole img).img.WF m) (fit : (whole img).Fits w h)
    (hg : (whole img).img.cc = 1) (k : Nat) (hl : l < h) : u32 (l * img.rowSize) + k = (whole img).cell k l 0 := by
  have h0 : 0 + h ≤ img.height := fit.inY
  have h1 : img.rowSize * img.height < 4294967296 := wf.small
  have h2 : l * img.rowSize ≤ img.height * img.rowSize := Nat.mul_le_mul_right _ (by omega)
  rw [Nat.mul_comm] at h1
  have hg : img.cc = 1 := hg
  rw [u32_of_lt (by omega), View.cell]
  simp only [whole, hg, Nat.zero_add, Nat.mul_one, Nat.add_zero]

/-- What a thread reads and writes, whatever the numbers are. -/
theorem rotate_foot (fl : ℚ → ℚ) (cosA sinA sx sy : ℚ) {m : BMem} {inp out : Image} {w h k l : Nat}
    (r : GrayPair m (whole inp) (whole out) w h) (hl : l < h) (hw2 : w < 4294967296) (hh2 : h < 4294967296) :
    (Cuda.kernelRotate fl inp.data inp.rowSize out.data out.rowSize sx sy w h cosA sinA k l).Foot
      (fun a => ∃ x y, x < w ∧ y < h ∧ a = (inp.data, (whole inp).cell x y 0))
      (fun a => a = (out.data, (whole out).cell k l 0)) := by
  have hw := r.fiti.wpos
  have hh := r.fiti.hpos
  unfold Cuda.kernelRotate
  cases floatToInt (sourceX fl cosA sinA sx k l) with
  | none => trivial
  | some X =>
    cases floatToInt (sourceY fl cosA sinA sy k l) with
    | none => trivial
    | some Y =>
      simp only
      rw [Cuda.rotateStore, usub_of_le (by omega) (by omega), usub_of_le (by omega) (by omega), whole_addr r.wfo r.fito r.go k hl]
      by_cases hc : X < 0 ∨ w - 1 ≤ X.toNat ∨ Y < 0 ∨ h - 1 ≤ Y.toNat
      · rw [if_pos hc]
        exact Prog.foot_store _ rfl
      · rw [if_neg hc]
        push Not at hc
        generalize X.toNat = x at *
        generalize Y.toNat = y at *
        have e := whole_addr r.wfi r.fiti r.gi x (show y < h by omega)
        have c1 : (whole inp).cell (x + 1) y 0 = (whole inp).cell x y 0 + 1 := by
          have gi : inp.cc = 1 := r.gi
          simp only [View.cell, whole, gi]; omega
        have c2 : (whole inp).cell x (y + 1) 0 = (whole inp).cell x y 0 + inp.rowSize := by
          have gi : inp.cc = 1 := r.gi
          simp only [View.cell, whole, gi, Nat.zero_add, Nat.succ_mul]; omega
        have c3 : (whole inp).cell (x + 1) (y + 1) 0 = (whole inp).cell x y 0 + inp.rowSize + 1 := by
          have gi : inp.cc = 1 := r.gi
          simp only [View.cell, whole, gi, Nat.zero_add, Nat.succ_mul]; omega
        simp only [e]
        refine Prog.foot_bind (Prog.foot_load ⟨x, y, by omega, by omega, rfl⟩) fun a => ?_
        refine Prog.foot_bind (Prog.foot_load ⟨x + 1, y, by omega, by omega, by rw [c1]⟩) fun b => ?_
        refine Prog.foot_bind (Prog.foot_load ⟨x, y + 1, by omega, by omega, by rw [c2]⟩) fun c => ?_
        refine Prog.foot_bind (Prog.foot_load ⟨x + 1, y + 1, by omega, by omega, by rw [c3]⟩) fun d => ?_
        cases floatToByte (rotateSum fl a b c d (fl (sourceX fl cosA sinA sx k l - fl X)) (fl (sourceY fl cosA sinA sy k l - fl Y))) with
        | none => trivial
        | some v => exact Prog.foot_store _ rfl

/-- One thread. -/
theorem rotate_run {fl : ℚ → ℚ} (R : Rounding24 fl) {m : BMem} {inp out : Image} {w h k l N : Nat} {sx sy cosA sinA : ℚ}
    (r : GrayPair m (whole inp) (whole out) w h) (hk : k < w) (hl : l < h) (hw2 : w < 16777216) (hh2 : h < 16777216)
    (hp : |sourceX fl cosA sinA sx k l| ≤ N) (hq : |sourceY fl cosA sinA sy k l| ≤ N) (hN : N < 16777216)
    (nb : ¬ Beside w h (sourceX fl cosA sinA sx k l) (sourceY fl cosA sinA sy k l)) :
    (Cuda.kernelRotate fl inp.data inp.rowSize out.data out.rowSize sx sy w h cosA sinA k l).run m
      = .ok () (m.set out.data ((whole out).cell k l 0)
          (rotateValue fl (inp.pix m) 0 0 w h (sourceX fl cosA sinA sx k l) (sourceY fl cosA sinA sy k l))) := by
  have hw := r.fiti.wpos
  have hh := r.fiti.hpos
  have ho := whole_addr r.wfo r.fito r.go k hl
  have hv : m.Valid out.data ((whole out).cell k l 0) := View.cell_valid r.wfo r.fito hk hl (by rw [r.go]; omega)
  unfold Cuda.kernelRotate
  rw [floatToInt_some hp hN, floatToInt_some hq hN]
  generalize sourceX fl cosA sinA sx k l = p at *
  generalize sourceY fl cosA sinA sy k l = q at *
  simp only
  rw [Cuda.rotateStore, usub_of_le (by omega) (by omega), usub_of_le (by omega) (by omega), ho, rotateValue]
  have key := out_iff hw hh nb
  by_cases hz : p < ((0 : Nat) : ℚ) ∨ q < ((0 : Nat) : ℚ) ∨ 0 + w - 1 ≤ ⌊p⌋.toNat ∨ 0 + h - 1 ≤ ⌊q⌋.toNat
  · rw [if_pos hz, if_pos (key.2 (by simpa using hz)), Prog.run_store, writeC_valid hv]
  · rw [if_neg hz, if_neg (fun hc => hz (by simpa using key.1 hc))]
    push Not at hz
    push_cast at hz
    obtain ⟨p0, q0, z1, z2⟩ := hz
    rw [if_pos p0, if_pos q0]
    obtain ⟨fp1, fp2⟩ := floor_nat p0
    obtain ⟨fq1, fq2⟩ := floor_nat q0
    have ep : ((⌊p⌋ : ℤ) : ℚ) = (⌊p⌋.toNat : ℚ) := by
      have : ((⌊p⌋.toNat : ℤ)) = ⌊p⌋ := Int.toNat_of_nonneg (Int.floor_nonneg.2 p0)
      exact_mod_cast congrArg (fun z : ℤ => (z : ℚ)) this.symm
    have eq : ((⌊q⌋ : ℤ) : ℚ) = (⌊q⌋.toNat : ℚ) := by
      have : ((⌊q⌋.toNat : ℤ)) = ⌊q⌋ := Int.toNat_of_nonneg (Int.floor_nonneg.2 q0)
      exact_mod_cast congrArg (fun z : ℤ => (z : ℚ)) this.symm
    rw [ep, eq]
    clear ep eq key
    generalize ⌊p⌋.toNat = X at *
    generalize ⌊q⌋.toNat = Y at *
    have inX : 0 + w ≤ inp.width := r.fiti.inX
    have inY : 0 + h ≤ inp.height := r.fiti.inY
    have gi : inp.cc = 1 := r.gi
    have hsm : inp.rowSize * inp.height < 4294967296 := r.wfi.small
    rw [rnd_nat24 R (n := X) (by omega), rnd_nat24 R (n := Y) (by omega)]
    have hy : Y * inp.rowSize < 4294967296 := by
      refine Nat.lt_of_le_of_lt (Nat.mul_le_mul_right _ (show Y ≤ inp.height by omega)) ?_
      rw [Nat.mul_comm]
      exact hsm
    have rd := fun X Y (a1 : X < inp.width) (a2 : Y < inp.height) => pix_read (m := m) (img := inp) r.fiti.nonempty r.wfi gi a1 a2
    have r1 := rd X Y (by omega) (by omega)
    have r2 := rd (X + 1) Y (by omega) (by omega)
    have r3 := rd X (Y + 1) (by omega) (by omega)
    have r4 := rd (X + 1) (Y + 1) (by omega) (by omega)
    rw [Nat.succ_mul] at r3 r4
    rw [show Y * inp.rowSize + (X + 1) = Y * inp.rowSize + X + 1 by omega] at r2
    rw [show Y * inp.rowSize + inp.rowSize + X = Y * inp.rowSize + X + inp.rowSize by omega] at r3
    rw [show Y * inp.rowSize + inp.rowSize + (X + 1) = Y * inp.rowSize + X + inp.rowSize + 1 by omega] at r4
    obtain ⟨s1, s2⟩ := sum_facts24 R (inp.pix m X Y) (inp.pix m (X + 1) Y) (inp.pix m X (Y + 1))
      (inp.pix m (X + 1) (Y + 1)) fp1 fp2 fq1 fq2
    rw [u32_of_lt hy]
    simp only
    rw [Prog.run_bind, Prog.run_load, bind_ok r1, Prog.run_bind, Prog.run_load, bind_ok r2, Prog.run_bind, Prog.run_load,
      bind_ok r3, Prog.run_bind, Prog.run_load, bind_ok r4, floatToByte, if_pos ⟨by linarith, s2⟩]
    simp only
    rw [Prog.run_store, writeC_valid hv]

theorem rotate_call {fl : ℚ → ℚ} {cosA sinA cxi cyi cxo cyo : ℚ} {d : CudaDevice} {m : BMem} {inp out : Image}
    (r : GrayPair m (whole inp) (whole out) inp.width inp.height) (hw : out.width = inp.width) (hh : out.height = inp.height) :
    Cuda.Rotate fl cosA sinA d inp cxi cyi out cxo cyo m = Cuda.launch2D d inp.width inp.height (guarded inp.width inp.height
      (Cuda.kernelRotate fl inp.data inp.rowSize out.data out.rowSize (startX fl cosA sinA cxi cxo cyo)
        (startY fl cosA sinA cyi cxo cyo) inp.width inp.height cosA sinA)) m := by
  have gi : inp.cc = 1 := r.gi
  have go : out.cc = 1 := r.go
  rw [Cuda.Rotate, bind_ok (validImages2 r.fiti (by rw [hw, hh]; exact r.fito) hw hh), bind_ok (gray_ok (by simp [gi, go]))]

/-! ### C167 -/

/-- **C167.** No thread reads anything but pixels of the input, or writes anything but its own pixel of the output; for all numbers, also
    for those that are no result of `cos` and `sin`, and for any arithmetic. -/
theorem C167_inside (fl : ℚ → ℚ) (cosA sinA cxi cyi cxo cyo : ℚ) {d : CudaDevice} {m : BMem} {inp out : Image} {L : Launch} {m' : BMem}
    (r : GrayPair m (whole inp) (whole out) inp.width inp.height) (hw : out.width = inp.width) (hh : out.height = inp.height)
    (hw2 : inp.width < 4294967296) (hh2 : inp.height < 4294967296) (s : d.Serves inp.width inp.height)
    (hL : Cuda.Rotate fl cosA sinA d inp cxi cyi out cxo cyo m = .ok L m') :
    m' = m ∧ ∀ x y, (L.kernel x y).Foot
      (fun a => ∃ x' y', x' < inp.width ∧ y' < inp.height ∧ a = (inp.data, (whole inp).cell x' y' 0))
      (fun a => x < inp.width ∧ y < inp.height ∧ a = (out.data, (whole out).cell x y 0)) := by
  rw [rotate_call r hw hh] at hL
  obtain ⟨L', e, hk, _⟩ := Cuda.launch2D_ok (μ := BMem) s r.fiti.wpos r.fiti.hpos (guarded inp.width inp.height
      (Cuda.kernelRotate fl inp.data inp.rowSize out.data out.rowSize (startX fl cosA sinA cxi cxo cyo)
        (startY fl cosA sinA cyi cxo cyo) inp.width inp.height cosA sinA))
  rw [e] at hL
  obtain ⟨rfl, rfl⟩ := Res.ok.inj hL
  refine ⟨rfl, fun x y => ?_⟩
  rw [hk, guarded]
  by_cases hc : x < inp.width ∧ y < inp.height
  · rw [if_pos hc]
    have := rotate_foot fl cosA sinA (startX fl cosA sinA cxi cxo cyo) (startY fl cosA sinA cyi cxo cyo) (k := x) r hc.2 hw2 hh2
    simpa only [hc.1, hc.2, true_and] using this
  · rw [if_neg hc]
    trivial

theorem turn_points {fl : ℚ → ℚ} (R : Rounding24 fl) {m : BMem} {inp out : Image} {cosA sinA cxi cyi cxo cyo : ℚ} {C : Nat}
    (t : TurnAt m inp out cosA sinA cxi cyi cxo cyo C) {k l : Nat} (hk : k < inp.width) (hl : l < inp.height) :
    |pointX fl cosA sinA cxi cxo cyo k l| ≤ (3 * C + inp.width + inp.height : Nat) ∧
    |pointY fl cosA sinA cyi cxo cyo k l| ≤ (3 * C + inp.width + inp.height : Nat) ∧
    |pointX fl cosA sinA cxi cxo cyo k l - turnedX cosA sinA cxi cxo cyo k l| ≤ 7 * ((3 * C + inp.width + inp.height) / 2 ^ 23) ∧
    |pointY fl cosA sinA cyi cxo cyo k l - turnedY cosA sinA cyi cxo cyo k l| ≤ 7 * ((3 * C + inp.width + inp.height) / 2 ^ 23) := by
  have hsm := t.small
  obtain ⟨x1, x2⟩ := near_start24 R t.hc t.hs t.xo t.yo t.xi (by omega)
  obtain ⟨y1, y2⟩ := near_start24 R (c := -sinA) (by rw [abs_neg]; exact t.hs) t.hc t.xo t.yo t.yi (by omega)
  obtain ⟨a1, a2⟩ := product_near R t.hc hk (by omega)
  obtain ⟨b1, b2⟩ := product_near R t.hs hl (by omega)
  obtain ⟨c1, c2⟩ := product_near R t.hs hk (by omega)
  obtain ⟨d1, d2⟩ := product_near R t.hc hl (by omega)
  obtain ⟨nx1, nx2⟩ := point_near R x1 x2 a1 a2 b1 b2 hsm
  obtain ⟨ny1, ny2⟩ := point_near R (A := -fl (sinA * fl k)) (a := -(sinA * k)) y1 y2 (by rw [abs_neg]; exact c1)
    (by rw [← abs_neg]; convert c2 using 2; ring) d1 d2 hsm
  rw [← sub_eq_add_neg] at ny1 ny2
  refine ⟨nx1, ny1, ?_, ?_⟩
  · convert nx2 using 2
    rw [pointX, sourceX, startX, turnedX]
    ring
  · convert ny2 using 2
    rw [pointY, sourceY, startY, turnedY]
    ring

/-- **C167.** Every pixel of the output is zero or interpolated, at a point of the input which is at most 7 (3C + w + h) / 2^23 away from
    the point that the rotation puts there, and nothing else is written; in every order of the accesses of the threads.
    Partial: no point may be less than one pixel to the left of or above the image (`C167_wrong`, `C167_undefined`). -/
theorem C167_turned_partial {fl : ℚ → ℚ} (R : Rounding24 fl) {d : CudaDevice} {m : BMem} {inp out : Image}
    {cosA sinA cxi cyi cxo cyo : ℚ} {C : Nat} (t : TurnAt m inp out cosA sinA cxi cyi cxo cyo C) (s : d.Serves inp.width inp.height)
    (nb : ∀ k l, k < inp.width → l < inp.height →
      ¬ Beside inp.width inp.height (pointX fl cosA sinA cxi cxo cyo k l) (pointY fl cosA sinA cyi cxo cyo k l)) :
    ∃ F : Nat → Nat → UInt8,
      Runs (Cuda.Rotate fl cosA sinA d inp cxi cyi out cxo cyo) m
        (fun m' => WritesRoi m m' (whole out) inp.width inp.height fun k l _ => F k l) ∧
      ∀ k l, k < inp.width → l < inp.height → ∃ p q,
        |p - turnedX cosA sinA cxi cxo cyo k l| ≤ 7 * ((3 * C + inp.width + inp.height) / 2 ^ 23) ∧
        |q - turnedY cosA sinA cyi cxo cyo k l| ≤ 7 * ((3 * C + inp.width + inp.height) / 2 ^ 23) ∧
        p = pointX fl cosA sinA cxi cxo cyo k l ∧ q = pointY fl cosA sinA cyi cxo cyo k l ∧
        Sampled m (whole inp) inp.width inp.height (1 / 2 ^ 7) p q (F k l) := by
  have hsm := t.small
  refine ⟨fun k l => rotateValue fl (inp.pix m) 0 0 inp.width inp.height (pointX fl cosA sinA cxi cxo cyo k l)
    (pointY fl cosA sinA cyi cxo cyo k l), Cuda.Runs_congr (rotate_call t.pair t.width t.height)
      (Cuda.launch_runs s t.pair.fiti.wpos t.pair.fiti.hpos fun L hL hk => ?_), fun k l hk hl => ?_⟩
  · have go : out.cc = 1 := t.pair.go
    refine Launch.writes_one t.pair.wfo t.pair.fito hL (PosMap.pixels _ _ _ t.pair.go) hk
      (fun X Y a => ∃ x y, x < inp.width ∧ y < inp.height ∧ a = (inp.data, (whole inp).cell x y 0)) ?_ ?_ ?_
    · intro X Y hX hY
      exact rotate_foot fl cosA sinA _ _ t.pair hY (by omega) (by omega)
    · rintro X Y a hX hY ⟨x, y, hx, hy, rfl⟩ x' y' c' hx' hy' hc' he
      exact absurd (Prod.mk.inj he).2 (t.apart _ _ _ _ _ _ hx hy (by rw [t.pair.gi]; omega) hx' hy' hc' (Prod.mk.inj he).1)
    · intro X Y hX hY
      obtain ⟨n1, n2, _⟩ := turn_points R t hX hY
      exact rotate_run R t.pair hX hY (by omega) (by omega) n1 n2 hsm (nb X Y hX hY)
  · obtain ⟨_, _, n3, n4⟩ := turn_points R t hk hl
    exact ⟨_, _, n3, n4, rfl, rfl, rotateValue_sampled24 R t.pair.gi t.pair.fiti.wpos t.pair.fiti.hpos _ _⟩

/-- **C167.** In exact arithmetic it is the point of the rotation. -/
theorem C167_exact_partial {d : CudaDevice} {m : BMem} {inp out : Image} {cosA sinA cxi cyi cxo cyo : ℚ} {C : Nat}
    (t : TurnAt m inp out cosA sinA cxi cyi cxo cyo C) (s : d.Serves inp.width inp.height)
    (nb : ∀ k l, k < inp.width → l < inp.height →
      ¬ Beside inp.width inp.height (turnedX cosA sinA cxi cxo cyo k l) (turnedY cosA sinA cyi cxo cyo k l)) :
    ∃ F : Nat → Nat → UInt8,
      Runs (Cuda.Rotate id cosA sinA d inp cxi cyi out cxo cyo) m
        (fun m' => WritesRoi m m' (whole out) inp.width inp.height fun k l _ => F k l) ∧
      ∀ k l, k < inp.width → l < inp.height →
        Sampled m (whole inp) inp.width inp.height (1 / 2 ^ 7) (turnedX cosA sinA cxi cxo cyo k l) (turnedY cosA sinA cyi cxo cyo k l)
          (F k l) := by
  have ex : ∀ k l, pointX id cosA sinA cxi cxo cyo k l = turnedX cosA sinA cxi cxo cyo k l := by
    intro k l
    simp only [pointX, sourceX, startX, turnedX, id]
    ring
  have ey : ∀ k l, pointY id cosA sinA cyi cxo cyo k l = turnedY cosA sinA cyi cxo cyo k l := by
    intro k l
    simp only [pointY, sourceY, startY, turnedY, id]
    ring
  obtain ⟨F, h1, h2⟩ := C167_turned_partial Rounding24.exact t s (fun k l hk hl => by rw [ex, ey]; exact nb k l hk hl)
  refine ⟨F, h1, fun k l hk hl => ?_⟩
  obtain ⟨p, q, _, _, rfl, rfl, h⟩ := h2 k l hk hl
  rwa [ex, ey] at h

/-- **C167.** With room to spare it does not depend on the rounding: if no point of the rotation comes near the stripes beside the image,
    no computed point is there. -/
theorem C167_margin {fl : ℚ → ℚ} (R : Rounding24 fl) {m : BMem} {inp out : Image} {cosA sinA cxi cyi cxo cyo : ℚ} {C : Nat}
    (t : TurnAt m inp out cosA sinA cxi cyi cxo cyo C) {k l : Nat} (hk : k < inp.width) (hl : l < inp.height)
    {e : ℚ} (he : e = 7 * ((3 * C + inp.width + inp.height) / 2 ^ 23))
    (h : (e ≤ turnedX cosA sinA cxi cxo cyo k l ∧ e ≤ turnedY cosA sinA cyi cxo cyo k l) ∨ turnedX cosA sinA cxi cxo cyo k l ≤ -1 - e ∨
      turnedY cosA sinA cyi cxo cyo k l ≤ -1 - e) :
    ¬ Beside inp.width inp.height (pointX fl cosA sinA cxi cxo cyo k l) (pointY fl cosA sinA cyi cxo cyo k l) := by
  obtain ⟨_, _, n3, n4⟩ := turn_points R t hk hl
  rw [← he, abs_le] at n3 n4
  rintro ⟨_, _, b1, _, b2, _, b3⟩
  rcases h with ⟨h1, h2⟩ | h | h
  · rcases b3 with b3 | b3
    · linarith [n3.1]
    · linarith [n4.1]
  · linarith [n3.2]
  · linarith [n4.2]

/-- **C167.** Calls that are refused, with the memory unchanged: empty images, a wrong number of colours, different sizes, images that are not
    gray-scale. -/
theorem C167_rejects (fl : ℚ → ℚ) (cosA sinA cxi cyi cxo cyo : ℚ) {d : CudaDevice} {m : BMem} {inp out : Image}
    (h : inp.data = 0 ∨ out.data = 0 ∨ inp.cc ≠ 1 ∨ out.cc ≠ 1 ∨ inp.width ≠ out.width ∨ inp.height ≠ out.height) :
    Cuda.Rotate fl cosA sinA d inp cxi cyi out cxo cyo m = .throw m := by
  by_cases hv : (inp.empty || out.empty || !isCorrectColorCount inp || !isCorrectColorCount out || inp.width != out.width
      || inp.height != out.height) = true
  · rw [Cuda.Rotate, validateImages2, hv]
    rfl
  · have hv : (inp.empty || out.empty || !isCorrectColorCount inp || !isCorrectColorCount out || inp.width != out.width
      || inp.height != out.height) = false := by simpa using hv
    have h2 : inp.cc ≠ 1 ∨ out.cc ≠ 1 := by
      simp only [Bool.or_eq_false_iff, Image.empty, beq_eq_false_iff_ne, bne_eq_false_iff_eq] at hv
      tauto
    have e : validateImages2 inp out m = .ok () m := by rw [validateImages2, hv]; rfl
    rw [Cuda.Rotate, bind_ok e]
    refine bind_throw (gray_throw ?_)
    rcases h2 with h2 | h2
    · exact ⟨inp, by simp, h2⟩
    · exact ⟨out, by simp, h2⟩

/-! ### Examples -/

/-- Two images of 2 by 2 pixels: every row of the first is (v, 0). -/
def turnMem (v : UInt8) : BMem where
  size b := if b = 1 ∨ b = 2 then 4 else 0
  byte b i := if b = 1 ∧ i % 2 = 0 then v else 0

/-- An image of 2 by 2 pixels. -/
def turnImg (b : Nat) : Image := ⟨b, 2, 2, 1, 2⟩

theorem turn_pair (v : UInt8) : GrayPair (turnMem v) (whole (turnImg 1)) (whole (turnImg 2)) 2 2 :=
  ⟨⟨by decide, by simp [turnMem, whole, turnImg], by decide⟩, ⟨by decide, by simp [turnMem, whole, turnImg], by decide⟩,
    ⟨by decide, by decide, by decide, by decide, by decide, by decide⟩,
    ⟨by decide, by decide, by decide, by decide, by decide, by decide⟩, rfl, rfl⟩

theorem turn_at (v : UInt8) (cxo : ℚ) (h : |cxo| ≤ 1) : TurnAt (turnMem v) (turnImg 1) (turnImg 2) 1 0 0 0 cxo 0 1 :=
  ⟨turn_pair v, apart_of_ne _ _ _ _ (by decide), rfl, rfl, by norm_num, by norm_num, by norm_num, by norm_num, by simpa using h, by norm_num,
    by decide⟩

/-- No rotation at all. -/
example : ∃ F : Nat → Nat → UInt8, Runs (Cuda.Rotate single 1 0 small (turnImg 1) 0 0 (turnImg 2) 0 0) (turnMem 100)
    (fun m' => WritesRoi (turnMem 100) m' (whole (turnImg 2)) 2 2 fun k l _ => F k l) := by
  obtain ⟨F, h, _⟩ := C167_turned_partial Rounding24.single (turn_at 100 0 (by norm_num)) (small_serves (by decide) (by decide)) (by
    intro k l hk hl
    have z := Rounding24.single.zero
    have n : ∀ n : Nat, n < 2 → single n = n := fun n hn => rnd_nat24 Rounding24.single (by omega)
    have hk : k < 2 := hk
    have hl : l < 2 := hl
    have ex : pointX single 1 0 0 0 0 k l = k := by
      simp only [pointX, sourceX, startX, n k hk, n l hl, z, mul_zero, zero_mul, add_zero, neg_zero, one_mul, zero_add]
    have ey : pointY single 1 0 0 0 0 k l = l := by
      simp only [pointY, sourceY, startY, n k hk, n l hl, z, mul_zero, zero_mul, add_zero, neg_zero, one_mul, zero_add, sub_zero]
    rw [ex, ey]
    rintro ⟨_, _, _, _, _, _, h | h⟩
    · have : (0 : ℚ) ≤ k := by positivity
      linarith
    · have : (0 : ℚ) ≤ l := by positivity
      linarith)
  exact ⟨F, h⟩

example : afterSeq (Cuda.Rotate id 1 0 small (turnImg 1) 0 0 (turnImg 2) 0 0) (turnMem 100) 2 0 = some 100 := by decide +kernel

/-- **C167** is false half a pixel to the left of the image: the pixel there is neither zero nor between pixels of the input, which are 100 and 0. -/
theorem C167_wrong : TurnAt (turnMem 100) (turnImg 1) (turnImg 2) 1 0 0 0 (1 / 2) 0 1 ∧ small.Serves 2 2 ∧
    turnedX 1 0 0 (1 / 2) 0 0 0 = -1 / 2 ∧ turnedY 1 0 0 (1 / 2) 0 0 0 = 0 ∧
    (∀ x, x < 2 → ∀ y, y < 2 → (whole (turnImg 1)).get (turnMem 100) x y 0 ≤ 100) ∧
    ∀ Q : BMem → Prop, Runs (Cuda.Rotate id 1 0 small (turnImg 1) 0 0 (turnImg 2) (1 / 2) 0) (turnMem 100) Q →
      ∃ m', Q m' ∧ (whole (turnImg 2)).get m' 0 0 0 = 150 := by
  refine ⟨turn_at 100 (1 / 2) (by norm_num [abs_of_pos]), small_serves (by decide) (by decide), by norm_num [turnedX], by norm_num [turnedY],
    by decide, fun Q h => ?_⟩
  exact runs_afterSeq h (by decide +kernel)

/-- **C167.** With a brighter image the number does not fit into a pixel: its conversion is undefined. -/
theorem C167_undefined : TurnAt (turnMem 200) (turnImg 1) (turnImg 2) 1 0 0 0 (1 / 2) 0 1 ∧ small.Serves 2 2 ∧
    ∀ Q : BMem → Prop, ¬ Runs (Cuda.Rotate id 1 0 small (turnImg 1) 0 0 (turnImg 2) (1 / 2) 0) (turnMem 200) Q := by
  refine ⟨turn_at 200 (1 / 2) (by norm_num [abs_of_pos]), small_serves (by decide) (by decide), fun Q h => ?_⟩
  have := runs_ubSeq h
  revert this
  decide +kernel

end PV.Props
