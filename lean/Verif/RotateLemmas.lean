import Verif.Rotate
import Verif.FilterGrad
import Mathlib.Tactic.Linarith
import Mathlib.Tactic.Ring
import Mathlib.Tactic.Positivity
import Mathlib.Tactic.FieldSimp
/-
  Lemmas about `Rotate`.
-/
namespace PV.Move

open Simd

/-! ### Rounding -/

theorem rnd_abs {rnd : ℚ → ℚ} (R : Rounding rnd) {q : ℚ} {n : Nat} (hq : |q| ≤ n) (hn : n < 9007199254740992) : |rnd q| ≤ n := by
  have e : rnd (n : ℚ) = n := by
    have := R.int (n : ℤ) (by rw [abs_of_nonneg (by positivity)]; norm_num; exact_mod_cast hn)
    exact_mod_cast this
  have e' : rnd (-(n : ℚ)) = -(n : ℚ) := by
    have := R.int (-(n : ℤ)) (by rw [abs_neg, abs_of_nonneg (by positivity)]; norm_num; exact_mod_cast hn)
    push_cast at this
    exact this
  rw [abs_le] at hq ⊢
  exact ⟨by rw [← e']; exact R.mono _ _ hq.1, by rw [← e]; exact R.mono _ _ hq.2⟩

theorem rnd_nat {rnd : ℚ → ℚ} (R : Rounding rnd) {n : Nat} (hn : n < 9007199254740992) : rnd (n : ℚ) = n := by
  have := R.int (n : ℤ) (by rw [abs_of_nonneg (by positivity)]; norm_num; exact_mod_cast hn)
  exact_mod_cast this

/-- The rounding error of a value of bounded size. -/
theorem rnd_near {rnd : ℚ → ℚ} (R : Rounding rnd) {q : ℚ} {n : ℚ} (hq : |q| ≤ n) : |rnd q - q| ≤ n / 2 ^ 52 :=
  le_trans (R.err q) (div_le_div_of_nonneg_right hq (by positivity))

/-- Adding `d` again and again. -/
def walk (rnd : ℚ → ℚ) (d a : ℚ) : Nat → ℚ
  | 0 => a
  | k + 1 => rnd (walk rnd d a k + d)

theorem walk_abs {rnd : ℚ → ℚ} (R : Rounding rnd) {d a : ℚ} (hd : |d| ≤ 1) {n : Nat} (ha : |a| ≤ n) :
    ∀ k : Nat, n + k < 9007199254740992 → |walk rnd d a k| ≤ (n + k : Nat)
  | 0, _ => ha
  | k + 1, hk => by
    rw [walk]
    refine rnd_abs R ?_ hk
    have := walk_abs R hd ha k (by omega)
    refine le_trans (abs_add_le _ _) ?_
    push_cast at this ⊢
    linarith

theorem walk_near {rnd : ℚ → ℚ} (R : Rounding rnd) {d a : ℚ} (hd : |d| ≤ 1) {n N : Nat} (ha : |a| ≤ n) :
    ∀ k : Nat, n + k ≤ N → N < 9007199254740992 → |walk rnd d a k - (a + k * d)| ≤ k * (N / 2 ^ 52)
  | 0, _, _ => by simp [walk]
  | k + 1, hk, hN => by
    rw [walk]
    have h1 := walk_abs R hd ha k (by omega)
    have h2 := walk_near R hd ha k (by omega) hN
    have h3 : |walk rnd d a k + d| ≤ N := by
      refine le_trans (abs_add_le _ _) ?_
      have : ((n + (k + 1) : Nat) : ℚ) ≤ N := by exact_mod_cast hk
      push_cast at this h1
      linarith
    have h4 := rnd_near R h3
    rw [abs_le] at h2 h4 ⊢
    push_cast
    constructor <;> nlinarith [h2.1, h2.2, h4.1, h4.2]

/-! ### The mean of four pixels -/

theorem coeff_facts {rnd : ℚ → ℚ} (R : Rounding rnd) {p : ℚ} {x : Nat} (h1 : (x : ℚ) ≤ p) (h2 : p < x + 1) :
    0 ≤ rnd (p - x) ∧ rnd (p - x) ≤ 1 ∧ |rnd (p - x) - (p - x)| ≤ 1 / 2 ^ 52 := by
  have h0 : 0 ≤ p - x := by linarith
  refine ⟨R.nonneg h0, ?_, ?_⟩
  · rw [← R.one]
    exact R.mono _ _ (by linarith)
  · exact rnd_near R (by rw [abs_of_nonneg h0]; linarith)

theorem compl_facts {rnd : ℚ → ℚ} (R : Rounding rnd) {c : ℚ} (h1 : 0 ≤ c) (h2 : c ≤ 1) :
    0 ≤ rnd (1 - c) ∧ rnd (1 - c) ≤ 1 ∧ |rnd (1 - c) - (1 - c)| ≤ 1 / 2 ^ 52 := by
  have h0 : 0 ≤ 1 - c := by linarith
  refine ⟨R.nonneg h0, ?_, ?_⟩
  · calc rnd (1 - c) ≤ rnd 1 := R.mono _ _ (by linarith)
      _ = 1 := R.one
  · exact rnd_near R (by rw [abs_of_nonneg h0]; linarith)

/-- One of the four products. -/
theorem term_near {rnd : ℚ → ℚ} (R : Rounding rnd) {a : Nat} {u v U V : ℚ} (ha : a ≤ 255) (hu : 0 ≤ u) (hu1 : u ≤ 1) (hv : 0 ≤ v)
    (hv1 : v ≤ 1) (hU : 0 ≤ U) (hU1 : U ≤ 1) (eu : |u - U| ≤ 2 / 2 ^ 52) (ev : |v - V| ≤ 2 / 2 ^ 52) :
    0 ≤ rnd (rnd (a * u) * v) ∧ rnd (rnd (a * u) * v) ≤ 255 ∧ |rnd (rnd (a * u) * v) - a * U * V| ≤ 1530 / 2 ^ 52 := by
  have ha' : (a : ℚ) ≤ 255 := by exact_mod_cast ha
  have ha0 : (0 : ℚ) ≤ a := by positivity
  have p0 : 0 ≤ a * u := by positivity
  have p1 : a * u ≤ 255 := by nlinarith
  have q0 := R.nonneg p0
  have q1 : rnd (a * u) ≤ 255 := by
    have e : rnd 255 = 255 := by exact_mod_cast rnd_nat R (n := 255) (by norm_num)
    rw [← e]
    exact R.mono _ _ p1
  have q2 := rnd_near R (n := 255) (q := a * u) (by rw [abs_of_nonneg p0]; exact p1)
  have r0 : 0 ≤ rnd (a * u) * v := by positivity
  have r1 : rnd (a * u) * v ≤ 255 := by nlinarith
  have r2 := rnd_near R (n := 255) (q := rnd (a * u) * v) (by rw [abs_of_nonneg r0]; exact r1)
  refine ⟨R.nonneg r0, ?_, ?_⟩
  · have e : rnd 255 = 255 := by exact_mod_cast rnd_nat R (n := 255) (by norm_num)
    rw [← e]
    exact R.mono _ _ r1
  · have k1 : |rnd (a * u) * v - a * u * v| ≤ 255 / 2 ^ 52 := by
      rw [← sub_mul, abs_mul, abs_of_nonneg hv]
      nlinarith [abs_nonneg (rnd (a * u) - a * u)]
    have k2 : |a * u * v - a * U * v| ≤ 510 / 2 ^ 52 := by
      rw [show a * u * v - a * U * v = (a * v) * (u - U) by ring, abs_mul, abs_of_nonneg (by positivity)]
      have : (a : ℚ) * v ≤ 255 := by nlinarith
      calc (a : ℚ) * v * |u - U| ≤ 255 * (2 / 2 ^ 52) := mul_le_mul this eu (abs_nonneg _) (by norm_num)
        _ = 510 / 2 ^ 52 := by norm_num
    have k3 : |a * U * v - a * U * V| ≤ 510 / 2 ^ 52 := by
      rw [show a * U * v - a * U * V = (a * U) * (v - V) by ring, abs_mul, abs_of_nonneg (by positivity)]
      have : (a : ℚ) * U ≤ 255 := by nlinarith
      calc (a : ℚ) * U * |v - V| ≤ 255 * (2 / 2 ^ 52) := mul_le_mul this ev (abs_nonneg _) (by norm_num)
        _ = 510 / 2 ^ 52 := by norm_num
    rw [abs_le] at *
    constructor <;> linarith [k1.1, k1.2, k2.1, k2.2, k3.1, k3.2, r2.1, r2.2]

/-- The bilinear mean of four values. -/
def blend (a b c d : UInt8) (u v : ℚ) : ℚ :=
  a.toNat * (1 - u) * (1 - v) + b.toNat * u * (1 - v) + c.toNat * (1 - u) * v + d.toNat * u * v

theorem blend_ge {a b c d : UInt8} {u v : ℚ} {lo : Nat} (hu : 0 ≤ u) (hu1 : u ≤ 1) (hv : 0 ≤ v) (hv1 : v ≤ 1)
    (h1 : lo ≤ a.toNat) (h2 : lo ≤ b.toNat) (h3 : lo ≤ c.toNat) (h4 : lo ≤ d.toNat) : (lo : ℚ) ≤ blend a b c d u v := by
  have e : (lo : ℚ) = lo * ((1 - u) * (1 - v)) + lo * (u * (1 - v)) + lo * ((1 - u) * v) + lo * (u * v) := by ring
  have w1 : 0 ≤ (1 - u) * (1 - v) := mul_nonneg (by linarith) (by linarith)
  have w2 : 0 ≤ u * (1 - v) := mul_nonneg (by linarith) (by linarith)
  have w3 : 0 ≤ (1 - u) * v := mul_nonneg (by linarith) (by linarith)
  have w4 : 0 ≤ u * v := mul_nonneg (by linarith) (by linarith)
  rw [e, blend]
  simp only [mul_assoc]
  refine add_le_add (add_le_add (add_le_add ?_ ?_) ?_) ?_
  · exact mul_le_mul_of_nonneg_right (by exact_mod_cast h1) w1
  · exact mul_le_mul_of_nonneg_right (by exact_mod_cast h2) w2
  · exact mul_le_mul_of_nonneg_right (by exact_mod_cast h3) w3
  · exact mul_le_mul_of_nonneg_right (by exact_mod_cast h4) w4

theorem blend_le {a b c d : UInt8} {u v : ℚ} {hi : Nat} (hu : 0 ≤ u) (hu1 : u ≤ 1) (hv : 0 ≤ v) (hv1 : v ≤ 1)
    (h1 : a.toNat ≤ hi) (h2 : b.toNat ≤ hi) (h3 : c.toNat ≤ hi) (h4 : d.toNat ≤ hi) : blend a b c d u v ≤ hi := by
  have e : (hi : ℚ) = hi * ((1 - u) * (1 - v)) + hi * (u * (1 - v)) + hi * ((1 - u) * v) + hi * (u * v) := by ring
  have w1 : 0 ≤ (1 - u) * (1 - v) := mul_nonneg (by linarith) (by linarith)
  have w2 : 0 ≤ u * (1 - v) := mul_nonneg (by linarith) (by linarith)
  have w3 : 0 ≤ (1 - u) * v := mul_nonneg (by linarith) (by linarith)
  have w4 : 0 ≤ u * v := mul_nonneg (by linarith) (by linarith)
  rw [e, blend]
  simp only [mul_assoc]
  refine add_le_add (add_le_add (add_le_add ?_ ?_) ?_) ?_
  · exact mul_le_mul_of_nonneg_right (by exact_mod_cast h1) w1
  · exact mul_le_mul_of_nonneg_right (by exact_mod_cast h2) w2
  · exact mul_le_mul_of_nonneg_right (by exact_mod_cast h3) w3
  · exact mul_le_mul_of_nonneg_right (by exact_mod_cast h4) w4

theorem rotateSum_near {rnd : ℚ → ℚ} (R : Rounding rnd) (a b c d : UInt8) {p q : ℚ} {x y : Nat} (h1 : (x : ℚ) ≤ p) (h2 : p < x + 1)
    (h3 : (y : ℚ) ≤ q) (h4 : q < y + 1) :
    |rotateSum rnd a b c d (rnd (p - x)) (rnd (q - y)) - (blend a b c d (p - x) (q - y) + 1 / 2)| ≤ 1 / 2 ^ 36 := by
  obtain ⟨a1, a2, a3⟩ := coeff_facts R h1 h2
  obtain ⟨b1, b2, b3⟩ := coeff_facts R h3 h4
  obtain ⟨c1, c2, c3⟩ := compl_facts R a1 a2
  obtain ⟨d1, d2, d3⟩ := compl_facts R b1 b2
  have e1 : |rnd (1 - rnd (p - x)) - (1 - (p - x))| ≤ 2 / 2 ^ 52 := by
    rw [abs_le] at *
    constructor <;> linarith [a3.1, a3.2, c3.1, c3.2]
  have e2 : |rnd (1 - rnd (q - y)) - (1 - (q - y))| ≤ 2 / 2 ^ 52 := by
    rw [abs_le] at *
    constructor <;> linarith [b3.1, b3.2, d3.1, d3.2]
  have e3 : |rnd (p - x) - (p - x)| ≤ 2 / 2 ^ 52 := le_trans a3 (by norm_num)
  have e4 : |rnd (q - y) - (q - y)| ≤ 2 / 2 ^ 52 := le_trans b3 (by norm_num)
  have ha := fun z : UInt8 => (by have := z.toNat_lt; omega : z.toNat ≤ 255)
  obtain ⟨s1, s2, s3⟩ := term_near R (ha a) c1 c2 d1 d2 (by linarith) (by linarith) e1 e2
  obtain ⟨t1, t2, t3⟩ := term_near R (ha b) a1 a2 d1 d2 (by linarith) (by linarith) e3 e2
  obtain ⟨u1, u2, u3⟩ := term_near R (ha c) c1 c2 b1 b2 (by linarith) (by linarith) e1 e4
  obtain ⟨v1, v2, v3⟩ := term_near R (ha d) a1 a2 b1 b2 (by linarith) (by linarith) e3 e4
  rw [rotateSum, blend]
  generalize rnd (rnd (a.toNat * rnd (1 - rnd (p - x))) * rnd (1 - rnd (q - y))) = S at *
  generalize rnd (rnd (b.toNat * rnd (p - x)) * rnd (1 - rnd (q - y))) = T at *
  generalize rnd (rnd (c.toNat * rnd (1 - rnd (p - x))) * rnd (q - y)) = U at *
  generalize rnd (rnd (d.toNat * rnd (p - x)) * rnd (q - y)) = V at *
  have m1 : 0 ≤ rnd (S + T) ∧ |rnd (S + T) - (S + T)| ≤ 510 / 2 ^ 52 :=
    ⟨R.nonneg (by linarith), rnd_near R (by rw [abs_of_nonneg (by linarith)]; linarith)⟩
  generalize rnd (S + T) = A at *
  have k1 := abs_le.1 m1.2
  norm_num at k1
  have m2 : 0 ≤ rnd (A + U) ∧ |rnd (A + U) - (A + U)| ≤ 770 / 2 ^ 52 :=
    ⟨R.nonneg (by linarith), rnd_near R (by rw [abs_of_nonneg (by linarith)]; linarith)⟩
  generalize rnd (A + U) = B at *
  have k2 := abs_le.1 m2.2
  norm_num at k2
  have m3 : 0 ≤ rnd (B + V) ∧ |rnd (B + V) - (B + V)| ≤ 1030 / 2 ^ 52 :=
    ⟨R.nonneg (by linarith), rnd_near R (by rw [abs_of_nonneg (by linarith)]; linarith)⟩
  generalize rnd (B + V) = C at *
  have k3 := abs_le.1 m3.2
  norm_num at k3
  have m4 := rnd_near R (n := 1100) (q := C + 1 / 2) (by rw [abs_of_nonneg (by linarith)]; linarith)
  generalize rnd (C + 1 / 2) = D at *
  have k4 := abs_le.1 m4
  have g1 := abs_le.1 s3
  have g2 := abs_le.1 t3
  have g3 := abs_le.1 u3
  have g4 := abs_le.1 v3
  norm_num at k4 g1 g2 g3 g4
  rw [abs_le]
  norm_num
  constructor <;> linarith [k1.1, k1.2, k2.1, k2.2, k3.1, k3.2, k4.1, k4.2, g1.1, g1.2, g2.1, g2.2, g3.1, g3.2, g4.1, g4.2]

theorem sum_facts {rnd : ℚ → ℚ} (R : Rounding rnd) (a b c d : UInt8) {p q : ℚ} {x y : Nat} (h1 : (x : ℚ) ≤ p) (h2 : p < x + 1)
    (h3 : (y : ℚ) ≤ q) (h4 : q < y + 1) :
    0 ≤ rotateSum rnd a b c d (rnd (p - x)) (rnd (q - y)) ∧ rotateSum rnd a b c d (rnd (p - x)) (rnd (q - y)) < 256 := by
  have h := abs_le.1 (rotateSum_near R a b c d h1 h2 h3 h4)
  have ha := fun z : UInt8 => (by have := z.toNat_lt; omega : z.toNat ≤ 255)
  have k1 := blend_ge (a := a) (b := b) (c := c) (d := d) (lo := 0) (u := p - x) (v := q - y) (by linarith) (by linarith)
    (by linarith) (by linarith) (by omega) (by omega) (by omega) (by omega)
  have k2 := blend_le (a := a) (b := b) (c := c) (d := d) (hi := 255) (u := p - x) (v := q - y) (by linarith) (by linarith)
    (by linarith) (by linarith) (ha a) (ha b) (ha c) (ha d)
  push_cast at k1 k2
  norm_num at h
  constructor <;> linarith [h.1, h.2]

/-! ### One pixel -/

/-- What `Rotate` stores for the point (p, q) of the region of `w` x `h` pixels at (x0, y0) of an image with the pixels `g`. -/
def rotateValue (rnd : ℚ → ℚ) (g : Nat → Nat → UInt8) (x0 y0 w h : Nat) (p q : ℚ) : UInt8 :=
  if p < x0 ∨ q < y0 ∨ x0 + w - 1 ≤ ⌊p⌋.toNat ∨ y0 + h - 1 ≤ ⌊q⌋.toNat then 0
  else UInt8.ofNat ⌊rotateSum rnd (g ⌊p⌋.toNat ⌊q⌋.toNat) (g (⌊p⌋.toNat + 1) ⌊q⌋.toNat) (g ⌊p⌋.toNat (⌊q⌋.toNat + 1))
    (g (⌊p⌋.toNat + 1) (⌊q⌋.toNat + 1)) (rnd (p - ⌊p⌋.toNat)) (rnd (q - ⌊q⌋.toNat))⌋.toNat

theorem toU32_ok {μ : Type} {q : ℚ} (h1 : 0 ≤ q) (h2 : q < 4294967296) (m : μ) : toU32 q m = .ok ⌊q⌋.toNat m := by
  rw [toU32, if_pos ⟨by linarith, h2⟩]
  rfl

theorem toU8_ok {μ : Type} {q : ℚ} (h1 : 0 ≤ q) (h2 : q < 256) (m : μ) : toU8 q m = .ok (UInt8.ofNat ⌊q⌋.toNat) m := by
  rw [toU8, if_pos ⟨by linarith, h2⟩]
  rfl

theorem floor_nat {q : ℚ} (h : 0 ≤ q) : (⌊q⌋.toNat : ℚ) ≤ q ∧ q < ⌊q⌋.toNat + 1 := by
  have h0 : 0 ≤ ⌊q⌋ := Int.floor_nonneg.2 h
  have e : ((⌊q⌋.toNat : ℤ) : ℚ) = (⌊q⌋ : ℚ) := by rw [Int.toNat_of_nonneg h0]
  rw [← Int.cast_natCast (R := ℚ) ⌊q⌋.toNat, e]
  exact ⟨Int.floor_le q, Int.lt_floor_add_one q⟩

theorem rotatePixel_ok {rnd : ℚ → ℚ} (R : Rounding rnd) {m m1 : BMem} {inp : View} {w h bo o : Nat} {p q : ℚ}
    (wf : inp.img.WF m1) (fit : inp.Fits w h) (gi : inp.img.cc = 1) (hp : p < 4294967296) (hq : q < 4294967296)
    (hv : m1.Valid bo o)
    (he : ∀ X Y, inp.x ≤ X → X < inp.x + w → inp.y ≤ Y → Y < inp.y + h → inp.img.pix m1 X Y = inp.img.pix m X Y) :
    rotatePixel rnd inp.img.data inp.img.rowSize inp.x inp.y (inp.x + w - 1) (inp.y + h - 1) bo (o, p, q) m1
      = .ok () (m1.set bo o (rotateValue rnd (inp.img.pix m) inp.x inp.y w h p q)) := by
  rw [rotatePixel, rotateValue]
  by_cases h1 : p < inp.x ∨ q < inp.y
  · rw [if_pos h1, if_pos (by tauto)]
    exact writeC_ok _ hv
  · rw [if_neg h1]
    push Not at h1
    have p0 : 0 ≤ p := le_trans (by positivity) h1.1
    have q0 : 0 ≤ q := le_trans (by positivity) h1.2
    rw [bind_ok (toU32_ok p0 hp m1), bind_ok (toU32_ok q0 hq m1)]
    by_cases h2 : inp.x + w - 1 ≤ ⌊p⌋.toNat ∨ inp.y + h - 1 ≤ ⌊q⌋.toNat
    · rw [if_pos h2, if_pos (by tauto)]
      exact writeC_ok _ hv
    · rw [if_neg h2, if_neg (by push Not at h2 ⊢; exact ⟨h1.1, h1.2, h2.1, h2.2⟩)]
      have hx0 : inp.x ≤ ⌊p⌋.toNat := by
        have : (inp.x : ℤ) ≤ ⌊p⌋ := Int.le_floor.2 (by exact_mod_cast h1.1)
        omega
      have hy0 : inp.y ≤ ⌊q⌋.toNat := by
        have : (inp.y : ℤ) ≤ ⌊q⌋ := Int.le_floor.2 (by exact_mod_cast h1.2)
        omega
      obtain ⟨fp1, fp2⟩ := floor_nat p0
      obtain ⟨fq1, fq2⟩ := floor_nat q0
      generalize ⌊p⌋.toNat = X at *
      generalize ⌊q⌋.toNat = Y at *
      push Not at h2
      have inX := fit.inX
      have inY := fit.inY
      have hd : inp.img.data ≠ 0 := fit.nonempty
      have hsm := wf.small
      have hy : Y * inp.img.rowSize < 4294967296 := by
        refine Nat.lt_of_le_of_lt (Nat.mul_le_mul_right _ (show Y ≤ inp.img.height by omega)) ?_
        rw [Nat.mul_comm]
        exact hsm
      have r := fun X Y (a1 : X < inp.img.width) (a2 : Y < inp.img.height) => pix_read (m := m1) hd wf gi a1 a2
      have r1 := r X Y (by omega) (by omega)
      have r2 := r (X + 1) Y (by omega) (by omega)
      have r3 := r X (Y + 1) (by omega) (by omega)
      have r4 := r (X + 1) (Y + 1) (by omega) (by omega)
      rw [he _ _ (by omega) (by omega) (by omega) (by omega)] at r1 r2 r3 r4
      rw [Nat.succ_mul] at r3 r4
      rw [show Y * inp.img.rowSize + (X + 1) = Y * inp.img.rowSize + X + 1 by omega] at r2
      rw [show Y * inp.img.rowSize + inp.img.rowSize + X = Y * inp.img.rowSize + X + inp.img.rowSize by omega] at r3
      rw [show Y * inp.img.rowSize + inp.img.rowSize + (X + 1) = Y * inp.img.rowSize + X + inp.img.rowSize + 1 by omega] at r4
      obtain ⟨s1, s2⟩ := sum_facts R (inp.img.pix m X Y) (inp.img.pix m (X + 1) Y) (inp.img.pix m X (Y + 1))
        (inp.img.pix m (X + 1) (Y + 1)) fp1 fp2 fq1 fq2
      simp only
      rw [u32_of_lt hy, bind_ok r1, bind_ok r2, bind_ok r3, bind_ok r4, bind_ok (toU8_ok s1 s2 m1)]
      exact writeC_ok _ hv

/-! ### The loops -/

/-- Where the pixel (k, l) of the output is taken from. -/
def rotateX (rnd : ℚ → ℚ) (cosA sinA x0 : ℚ) (k l : Nat) : ℚ := walk rnd cosA (walk rnd sinA x0 l) k

/-- Where the pixel (k, l) of the output is taken from. -/
def rotateY (rnd : ℚ → ℚ) (cosA sinA y0 : ℚ) (k l : Nat) : ℚ := walk rnd (-sinA) (walk rnd cosA y0 l) k

theorem rotateRow_eq {rnd : ℚ → ℚ} {cosA sinA : ℚ} {bi rowIn : Nat} {minX minY : ℚ} {maxX maxY bo w o : Nat} {p q : ℚ}
    (hw : w < 4294967296) :
    rotateRow rnd cosA sinA bi rowIn minX minY maxX maxY bo w (o, p, q)
      = fold (fun k _ => rotatePixel rnd bi rowIn minX minY maxX maxY bo (o + k, walk rnd cosA p k, walk rnd (-sinA) q k))
          (List.range w) () := by
  rw [rotateRow]
  exact loop_eq_fold (cond := fun t : Nat × ℚ × ℚ => t.1 != o + w)
    (next := fun t => (t.1 + 1, rnd (t.2.1 + cosA), rnd (t.2.2 - sinA)))
    (body := fun t _ => rotatePixel rnd bi rowIn minX minY maxX maxY bo t)
    (fun k => (o + k, walk rnd cosA p k, walk rnd (-sinA) q k)) w fuelMax () (by unfold fuelMax; omega)
    (fun k hk => by simp; omega) (by simp) (fun k _ => by
      simp only [walk, ← sub_eq_add_neg]
      rfl)

theorem rotate_ok {rnd : ℚ → ℚ} (R : Rounding rnd) {cosA sinA : ℚ} (hc : |cosA| ≤ 1) (hs : |sinA| ≤ 1) {m : BMem}
    {inp out : View} {w h N : Nat} {cxi cyi cxo cyo x0 y0 : ℚ} (wfi : inp.img.WF m) (wfo : out.img.WF m) (fiti : inp.Fits w h)
    (fito : out.Fits w h) (gi : inp.img.cc = 1) (go : out.img.cc = 1) (hap : Apart inp w h out w h)
    (ex : x0 = rnd (-(rnd (rnd (cosA * cxo) + rnd (sinA * cyo))) + cxi))
    (ey : y0 = rnd (-(rnd (rnd (-sinA * cxo) + rnd (cosA * cyo))) + cyi))
    (hx : |x0| ≤ N) (hy : |y0| ≤ N) (hN : N + w + h ≤ 4294967297) :
    ∃ m', Rotate rnd cosA sinA inp cxi cyi out cxo cyo w h m = .ok () m' ∧
      WritesRoi m m' out w h fun k l _ => rotateValue rnd (inp.img.pix m) inp.x inp.y w h
        (rotateX rnd cosA sinA x0 k l) (rotateY rnd cosA sinA y0 k l) := by
  obtain ⟨hxi, hyi⟩ := Fits.sub_eq wfi fiti
  obtain ⟨_, hrO, _, hwO, hhO, hfO, _, _, _, _⟩ := View.facts wfo fito
  obtain ⟨_, hrI, _, hwI, hhI, hfI, _, _, _, hrw⟩ := View.facts wfi fiti
  have wpos := fiti.wpos
  have hpos := fiti.hpos
  have inX := fiti.inX
  have inX' := fito.inX
  rw [Rotate, bind_ok (validateRois_ok m (vs := [inp, out]) (by
      intro v hv
      simp only [List.mem_cons, List.not_mem_nil, or_false] at hv
      rcases hv with rfl | rfl
      · exact ⟨fiti, hwI, hhI⟩
      · exact ⟨fito, hwO, hhO⟩)),
    bind_ok (gray_ok (by simp [gi, go]))]
  rw [← ex, ← ey, u32_of_lt hxi, u32_of_lt hyi, usub_of_le (by omega) hxi, usub_of_le (by omega) hyi, u32_of_lt hfO]
  have e := loop_eq_fold (μ := BMem) (cond := fun s : Nat × ℚ × ℚ => s.1 != out.start 1 + h * out.img.rowSize)
    (next := fun s => (s.1 + out.img.rowSize, rnd (s.2.1 + sinA), rnd (s.2.2 + cosA)))
    (body := fun s _ => rotateRow rnd cosA sinA inp.img.data inp.img.rowSize inp.x inp.y (inp.x + w - 1) (inp.y + h - 1)
      out.img.data w s)
    (fun l => (out.start 1 + l * out.img.rowSize, walk rnd sinA x0 l, walk rnd cosA y0 l)) h fuelMax ()
    (count_lt_fuel hrO hfO) (fun k hk => ptr_ne hk hrO) (by simp) (fun k _ => by
      simp only [Nat.succ_mul, walk]
      rw [Nat.add_assoc])
  rw [Nat.zero_mul, Nat.add_zero] at e
  rw [walk, walk] at e
  rw [e]
  simp only [rotateRow_eq (show w < 4294967296 by omega)]
  have hg := gray_writes (m := m) (vo := out) (w := w) (h := h) (body := fun p _ => rotatePixel rnd inp.img.data inp.img.rowSize
      inp.x inp.y (inp.x + w - 1) (inp.y + h - 1) out.img.data (out.start 1 + p.1 * out.img.rowSize + p.2,
        rotateX rnd cosA sinA x0 p.2 p.1, rotateY rnd cosA sinA y0 p.2 p.1))
    (val := fun k l => rotateValue rnd (inp.img.pix m) inp.x inp.y w h
        (rotateX rnd cosA sinA x0 k l) (rotateY rnd cosA sinA y0 k l)) wfo fito go (by
      intro k l hk hl m1 ho
      have a1 := walk_abs R hs hx l (by omega)
      have a2 := walk_abs R hc a1 k (by omega)
      have b1 := walk_abs R hc hy l (by omega)
      have b2 := walk_abs R (d := -sinA) (by rwa [abs_neg]) b1 k (by omega)
      have lt : ((N + l + k : Nat) : ℚ) < 4294967296 := by
        have : N + l + k < 4294967296 := by omega
        exact_mod_cast this
      have hcell : out.cell k l 0 = out.start 1 + l * out.img.rowSize + k := by
        rw [← View.start_cell wfo fito, go, Nat.mul_one, Nat.add_zero]
      rw [hcell]
      refine rotatePixel_ok R (m := m) ⟨wfi.row, by rw [ho.size_eq]; exact wfi.block, wfi.small⟩ fiti gi (lt_of_le_of_lt (abs_le.1 a2).2 lt) (lt_of_le_of_lt (abs_le.1 b2).2 lt) ?_ ?_
      · rw [← hcell]
        exact Mem.valid_of_size ho.size_eq (View.cell_valid wfo fito hk hl (by omega))
      · intro X Y x1 x2 y1 y2
        have := ho.get_apart hap (x' := X - inp.x) (y' := Y - inp.y) (c' := 0) (by omega) (by omega) (by omega)
        simp only [View.get, View.cell] at this
        rw [gi, show inp.y + (Y - inp.y) = Y by omega, show inp.x + (X - inp.x) = X by omega, Nat.mul_one, Nat.add_zero] at this
        exact this)
  obtain ⟨m', g1, g2⟩ := hg
  rw [fold_grid] at g1
  exact ⟨m', g1, g2⟩

end PV.Move
