import Mathlib.Tactic.LinearCombination
import Mathlib.Analysis.Real.Sqrt
import Verif.Haar
import Verif.PropsReduce
/-
  C62: the Haar transform and its inverse.
-/
namespace PV.Props
open PV

variable {R : Type} [CommRing R]

/-- What the direct transform computes: the four quadrants hold, for every 2 x 2 block of the input
    (values p q above r s), c² times the sum and the differences. -/
structure Quadrants (c : R) (f g : Nat → R) (w h : Nat) : Prop where
  low : ∀ x y, x < w / 2 → y < h / 2 → g (y * w + x) = c * c *
    (f (2 * y * w + 2 * x) + f (2 * y * w + 2 * x + 1) + f ((2 * y + 1) * w + 2 * x) + f ((2 * y + 1) * w + 2 * x + 1))
  right : ∀ x y, x < w / 2 → y < h / 2 → g (y * w + (x + w / 2)) = c * c *
    (f (2 * y * w + 2 * x + 1) + f ((2 * y + 1) * w + 2 * x + 1) - f (2 * y * w + 2 * x) - f ((2 * y + 1) * w + 2 * x))
  bottom : ∀ x y, x < w / 2 → y < h / 2 → g ((y + h / 2) * w + x) = c * c *
    (f ((2 * y + 1) * w + 2 * x) + f ((2 * y + 1) * w + 2 * x + 1) - f (2 * y * w + 2 * x) - f (2 * y * w + 2 * x + 1))
  corner : ∀ x y, x < w / 2 → y < h / 2 → g ((y + h / 2) * w + (x + w / 2)) = c * c *
    (f (2 * y * w + 2 * x) + f ((2 * y + 1) * w + 2 * x + 1) - f (2 * y * w + 2 * x + 1) - f ((2 * y + 1) * w + 2 * x))

/-- C62: the direct transform computes the four quadrants and changes nothing but the output. -/
theorem C62_direct {c : R} {w h n t inp out : Nat} {m : Mem R} (g : HaarCall w h n t inp out m) :
    ∃ m', HaarDirectTransform c t inp out w h m = .ok () m' ∧ m'.size = m.size ∧ (∀ b, b ≠ out → m'.byte b = m.byte b) ∧
      Quadrants c (m.byte inp) (m'.byte out) w h := by
  have he := g.size.he
  have hw := g.size.we
  obtain ⟨m', tmp, h1, h2, h3, v1, v2⟩ := HaarDirect_ok (c := c) g
  refine ⟨m', h1, h2, h3, ⟨fun x y hx hy => ?_, fun x y hx hy => ?_, fun x y hx hy => ?_, fun x y hx hy => ?_⟩⟩
  · rw [(v2 x y (by omega) hy).1, (v1 x (2 * y) hx (by omega)).1, (v1 x (2 * y + 1) hx (by omega)).1]
    ring
  · rw [(v2 (x + w / 2) y (by omega) hy).1, ← Nat.add_assoc, ← Nat.add_assoc, (v1 x (2 * y) hx (by omega)).2,
      (v1 x (2 * y + 1) hx (by omega)).2]
    ring
  · rw [(v2 x y (by omega) hy).2, (v1 x (2 * y) hx (by omega)).1, (v1 x (2 * y + 1) hx (by omega)).1]
    ring
  · rw [(v2 (x + w / 2) y (by omega) hy).2, ← Nat.add_assoc, ← Nat.add_assoc, (v1 x (2 * y) hx (by omega)).2,
      (v1 x (2 * y + 1) hx (by omega)).2]
    ring

/-- The inverse transform of the direct transform multiplies every element by (2c²)², whatever the
    coefficient c; the vectors may be the same. -/
theorem C62_round_trip {c : R} {w h n t t' inp out back : Nat} {m : Mem R} (g : HaarCall w h n t inp out m)
    (g' : HaarCall w h n t' out back m) :
    ∃ m1 m2, HaarDirectTransform c t inp out w h m = .ok () m1 ∧ HaarInverseTransform c t' out back w h m1 = .ok () m2 ∧
      m2.size = m.size ∧ (∀ b, b ≠ out → b ≠ back → m2.byte b = m.byte b) ∧
      ∀ i, i < n → m2.byte back i = (2 * (c * c)) ^ 2 * m.byte inp i := by
  have he := g.size.he
  have hw := g.size.we
  have hw0 := g.size.wpos
  obtain ⟨m1, h1, z1, o1, q⟩ := C62_direct (c := c) g
  obtain ⟨m2, tmp, h2, z2, o2, v1, v2⟩ := HaarInverse_ok (c := c) (m := m1)
    ⟨g'.size, g'.tz, g'.iz, g'.oz, g'.ti, g'.ot, by rw [z1]; exact g'.mi, by rw [z1]; exact g'.mo⟩
  refine ⟨m1, m2, h1, h2, z2.trans z1, fun b hb hb' => (o2 b hb').trans (o1 b hb), fun i hi => ?_⟩
  have hi' : i / w < h := Nat.div_lt_of_lt_mul (by rw [← g.size.count]; exact hi)
  have hx' : i % w < w := Nat.mod_lt _ hw0
  have e : i = i / w * w + i % w := by
    rw [Nat.mul_comm]
    exact (Nat.div_add_mod i w).symm
  have key : ∀ x y, x < w / 2 → y < h / 2 →
      m2.byte back (2 * y * w + 2 * x) = (2 * (c * c)) ^ 2 * m.byte inp (2 * y * w + 2 * x) ∧
      m2.byte back (2 * y * w + (2 * x + 1)) = (2 * (c * c)) ^ 2 * m.byte inp (2 * y * w + (2 * x + 1)) ∧
      m2.byte back ((2 * y + 1) * w + 2 * x) = (2 * (c * c)) ^ 2 * m.byte inp ((2 * y + 1) * w + 2 * x) ∧
      m2.byte back ((2 * y + 1) * w + (2 * x + 1)) = (2 * (c * c)) ^ 2 * m.byte inp ((2 * y + 1) * w + (2 * x + 1)) := by
    intro x y hx hy
    have q1 := q.low x y hx hy
    have q2 := q.right x y hx hy
    have q3 := q.bottom x y hx hy
    have q4 := q.corner x y hx hy
    rw [← Nat.add_assoc] at q2 q4
    obtain ⟨a1, a2⟩ := v1 x y hx (by omega)
    obtain ⟨a3, a4⟩ := v1 x (y + h / 2) hx (by omega)
    obtain ⟨b1, b2⟩ := v2 (2 * x) y (by omega) hy
    obtain ⟨b3, b4⟩ := v2 (2 * x + 1) y (by omega) hy
    rw [← Nat.add_assoc, ← Nat.add_assoc, ← Nat.add_assoc] at b3 b4
    rw [← Nat.add_assoc, ← Nat.add_assoc]
    rw [b1, b2, b3, b4, a1, a2, a3, a4, q1, q2, q3, q4]
    refine ⟨by ring, by ring, by ring, by ring⟩
  rw [e]
  generalize i / w = y at hi' ⊢
  generalize i % w = x at hx' ⊢
  obtain ⟨k1, k2, k3, k4⟩ := key (x / 2) (y / 2) (by omega) (by omega)
  rcases Nat.mod_two_eq_zero_or_one x with hx | hx <;> rcases Nat.mod_two_eq_zero_or_one y with hy | hy
  · rw [show x = 2 * (x / 2) by omega, show y = 2 * (y / 2) by omega]; exact k1
  · rw [show x = 2 * (x / 2) by omega, show y = 2 * (y / 2) + 1 by omega]; exact k3
  · rw [show x = 2 * (x / 2) + 1 by omega, show y = 2 * (y / 2) by omega]; exact k2
  · rw [show x = 2 * (x / 2) + 1 by omega, show y = 2 * (y / 2) + 1 by omega]; exact k4

/-- C62 (partial: the product of width and height fits 64 bits): with the coefficient 1 / sqrt 2 and exact
    arithmetic the inverse transform restores the input. -/
theorem C62_haar_partial {w h n t t' inp out back : Nat} {m : Mem ℝ} (g : HaarCall w h n t inp out m)
    (g' : HaarCall w h n t' out back m) :
    ∃ m1 m2, HaarDirectTransform (1 / Real.sqrt 2) t inp out w h m = .ok () m1 ∧
      HaarInverseTransform (1 / Real.sqrt 2) t' out back w h m1 = .ok () m2 ∧
      m2.size = m.size ∧ (∀ b, b ≠ out → b ≠ back → m2.byte b = m.byte b) ∧
      ∀ i, i < n → m2.byte back i = m.byte inp i := by
  obtain ⟨m1, m2, h1, h2, h3, h4, h5⟩ := C62_round_trip (c := 1 / Real.sqrt 2) g g'
  refine ⟨m1, m2, h1, h2, h3, h4, fun i hi => ?_⟩
  have e : (2 : ℝ) * (1 / Real.sqrt 2 * (1 / Real.sqrt 2)) = 1 := by
    rw [div_mul_div_comm, Real.mul_self_sqrt (by norm_num)]
    norm_num
  rw [h5 i hi, e]
  ring

/-- Parameters which do not describe the vectors throw and change nothing. -/
theorem C62_rejects (c : R) {w h t inp out : Nat} {m : Mem R}
    (hb : m.size inp = 0 ∨ m.size inp ≠ m.size out ∨ (w * h < 18446744073709551616 ∧ m.size inp ≠ w * h) ∨ w % 2 ≠ 0 ∨ h % 2 ≠ 0) :
    HaarDirectTransform c t inp out w h m = .throw m ∧ HaarInverseTransform c t inp out w h m = .throw m := by
  have e : haarCheck inp out w h m = .throw m := by
    have e : (m.size inp == 0 || m.size inp != m.size out || m.size inp != u64 (w * h) || w % 2 != 0 || h % 2 != 0) = true := by
      simp only [Bool.or_eq_true, bne_iff_ne, ne_eq, beq_iff_eq]
      rcases hb with hb | hb | ⟨hs, hb⟩ | hb | hb
      · tauto
      · tauto
      · rw [u64_of_lt hs]
        tauto
      · tauto
      · tauto
    rw [haarCheck, e]
    rfl
  constructor
  · rw [HaarDirectTransform]
    exact bind_throw e
  · rw [HaarInverseTransform]
    exact bind_throw e

/-- A memory with two vectors of 8 elements. -/
def haarMem : Mem ℤ := ⟨fun b => if b = 1 ∨ b = 2 then 8 else 0, fun b i => if b = 1 then 10 * i * i - 7 else 0⟩

/-- The check multiplies with 64 bits: 2^63 + 4 columns of 2 rows are taken for 8 elements, and the
    transform accesses memory outside of the vectors. -/
theorem C62_wrong : isUb (HaarDirectTransform 1 3 1 2 9223372036854775812 2 haarMem) = true := by decide +kernel

example : HaarCall 4 2 8 3 1 2 haarMem :=
  ⟨⟨by decide, by decide, by decide, by decide, by decide, by decide⟩, by decide, by decide, by decide, by decide, by decide, by decide, by decide⟩

/-- In place. -/
example : HaarCall 4 2 8 3 1 1 haarMem :=
  ⟨⟨by decide, by decide, by decide, by decide, by decide, by decide⟩, by decide, by decide, by decide, by decide, by decide, by decide, by decide⟩

example : HaarDirectTransform 1 3 1 2 3 2 haarMem = .throw haarMem := (C62_rejects 1 (by decide)).1

end PV.Props
