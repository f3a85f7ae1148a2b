import Verif.Line
import Mathlib.Tactic.NormNum
import Mathlib.Tactic.Positivity
import Mathlib.Tactic.LinearCombination
/-
  C84: lines through points and intersections; C85: distance, projection and opposite point; C86: fitted lines.
-/
namespace PV.Props
open PV.Line

/-- The point lies on the line. -/
def OnLine (l : Ln) (p : Pt) : Prop := ∃ t : ℝ, p.x = l.pos.x + t * l.dir.x ∧ p.y = l.pos.y + t * l.dir.y

/-- The direction of the line has length 1. -/
def UnitDir (l : Ln) : Prop := l.dir.x ^ 2 + l.dir.y ^ 2 = 1

/-- Square of the distance of two points -/
def sqDist (p q : Pt) : ℝ := (p.x - q.x) ^ 2 + (p.y - q.y) ^ 2

/-! ### C84 -/

theorem through_apart (s e : Pt) (h : ¬ s.same e) : OnLine (through s e) s ∧ OnLine (through s e) e ∧ UnitDir (through s e) := by
  rw [through, if_neg h]
  have hpos : 0 < (e.x - s.x) * (e.x - s.x) + (e.y - s.y) * (e.y - s.y) := by
    by_contra hc
    have h1 : (e.x - s.x) * (e.x - s.x) = 0 := le_antisymm (by nlinarith [mul_self_nonneg (e.x - s.x), mul_self_nonneg (e.y - s.y)]) (mul_self_nonneg _)
    have h2 : (e.y - s.y) * (e.y - s.y) = 0 := le_antisymm (by nlinarith [mul_self_nonneg (e.x - s.x), mul_self_nonneg (e.y - s.y)]) (mul_self_nonneg _)
    have h3 := mul_self_eq_zero.1 h1
    have h4 := mul_self_eq_zero.1 h2
    refine h ⟨?_, ?_⟩
    · rw [isEqual, show s.x - e.x = 0 by linarith, abs_zero]
      norm_num
    · rw [isEqual, show s.y - e.y = 0 by linarith, abs_zero]
      norm_num
  have hl := Real.sqrt_pos.2 hpos
  have hsq := Real.mul_self_sqrt hpos.le
  obtain ⟨L, hL⟩ : ∃ L, Real.sqrt ((e.x - s.x) * (e.x - s.x) + (e.y - s.y) * (e.y - s.y)) = L := ⟨_, rfl⟩
  rw [hL] at hl hsq
  dsimp only
  rw [hL]
  refine ⟨⟨0, by simp, by simp⟩, ⟨L, ?_, ?_⟩, ?_⟩
  · dsimp only
    field_simp
    ring
  · dsimp only
    field_simp
    ring
  · rw [UnitDir]
    dsimp only
    field_simp
    linarith

/-- Two points differ by at least 1e-9 in a coordinate. -/
def Distinct (s e : Pt) : Prop := 1 / 10 ^ 9 ≤ |s.x - e.x| ∨ 1 / 10 ^ 9 ≤ |s.y - e.y|

theorem distinct_iff (s e : Pt) : Distinct s e ↔ ¬ s.same e := by
  rw [Distinct, Pt.same, isEqual, isEqual, not_and_or, not_lt, not_lt]
  norm_num

/-- C84: the line through two points which differ by at least 1e-9 in a coordinate contains both of them.  Partial: for closer points see
    `C84_wrong` and `C84_through_exact`. -/
theorem C84_through_partial (s e : Pt) (h : Distinct s e) : OnLine (through s e) s ∧ OnLine (through s e) e ∧ UnitDir (through s e) :=
  through_apart s e ((distinct_iff s e).1 h)

/-- C84: for all points the line contains the first one and has a direction; it contains the second one if and only if they differ
    by at least 1e-9 in a coordinate or are at the same height. -/
theorem C84_through_exact (s e : Pt) : OnLine (through s e) s ∧ UnitDir (through s e) ∧
    (OnLine (through s e) e ↔ Distinct s e ∨ s.y = e.y) := by
  by_cases h : s.same e
  · have hd : ¬ Distinct s e := fun hd => (distinct_iff s e).1 hd h
    have ht : through s e = ⟨s, ⟨1, 0⟩⟩ := by rw [through, if_pos h]
    rw [ht]
    refine ⟨⟨0, by simp, by simp⟩, by simp [UnitDir], ?_, ?_⟩
    · rintro ⟨t, _, h2⟩
      right
      simp only [mul_zero, add_zero] at h2
      exact h2.symm
    · rintro (h2 | h2)
      · exact absurd h2 hd
      · exact ⟨e.x - s.x, by simp, by simp [h2]⟩
  · obtain ⟨h1, h2, h3⟩ := through_apart s e h
    exact ⟨h1, h3, fun _ => Or.inl ((distinct_iff s e).2 h), fun _ => h2⟩

/-- C84: a line given by an angle contains its position. -/
theorem C84_angle (p : Pt) (a : ℝ) : OnLine (atAngle p a) p ∧ UnitDir (atAngle p a) :=
  ⟨⟨0, by simp [atAngle], by simp [atAngle]⟩, by
    rw [UnitDir, atAngle]
    exact Real.cos_sq_add_sin_sq a⟩

/-- C84: the intersection of two lines is the only point they have in common. -/
theorem C84_intersection (a b : Ln) (p : Pt) (h : a.intersection b = some p) :
    OnLine a p ∧ OnLine b p ∧ ∀ q, OnLine a q → OnLine b q → q = p := by
  rw [Ln.intersection] at h
  split at h
  · exact absurd h (by simp)
  · rename_i hd
    have hd0 : denominator a b ≠ 0 := by
      intro h0
      refine hd ?_
      rw [isEqual10, h0]
      norm_num
    obtain ⟨D, hD⟩ : ∃ D, denominator a b = D := ⟨_, rfl⟩
    have hD' := hD
    rw [denominator] at hD'
    rw [hD] at hd0 h
    simp only [Option.some.injEq] at h
    subst h
    refine ⟨⟨(b.dir.y * (a.pos.x - b.pos.x) - b.dir.x * (a.pos.y - b.pos.y)) / D, by simp only [Pt.add, Pt.sub]; ring, by simp only [Pt.add, Pt.sub]; ring⟩,
      ⟨(a.dir.y * (a.pos.x - b.pos.x) - a.dir.x * (a.pos.y - b.pos.y)) / D, ?_, ?_⟩, ?_⟩
    · simp only [Pt.add, Pt.sub]
      field_simp
      rw [← hD']
      ring
    · simp only [Pt.add, Pt.sub]
      field_simp
      rw [← hD']
      ring
    · rintro q ⟨t, h1, h2⟩ ⟨u, h3, h4⟩
      have ht : t = (b.dir.y * (a.pos.x - b.pos.x) - b.dir.x * (a.pos.y - b.pos.y)) / D := by
        rw [eq_div_iff hd0, ← hD']
        have e1 : a.pos.x - b.pos.x = u * b.dir.x - t * a.dir.x := by linarith
        have e2 : a.pos.y - b.pos.y = u * b.dir.y - t * a.dir.y := by linarith
        rw [e1, e2]
        ring
      ext
      · simp only [Pt.add, Pt.sub]
        rw [h1, ← ht]
        ring
      · simp only [Pt.add, Pt.sub]
        rw [h2, ← ht]
        ring

/-- C84: no intersection is reported exactly for lines isParallel calls parallel. -/
theorem C84_parallel (a b : Ln) : a.intersection b = none ↔ a.isParallel b := by
  rw [Ln.intersection, Ln.isParallel]
  split <;> simp [*]

/-- Lines whose directions are multiples of each other are parallel. -/
theorem C84_parallel_of_multiple (a b : Ln) (k : ℝ) (h1 : b.dir.x = k * a.dir.x) (h2 : b.dir.y = k * a.dir.y) : a.isParallel b := by
  rw [Ln.isParallel, isEqual10, denominator, h1, h2, show a.dir.y * (k * a.dir.x) - a.dir.x * (k * a.dir.y) - 0 = 0 by ring, abs_zero]
  norm_num

/-- The reverse holds up to 1e-8: lines called parallel which meet in some point and have unit directions enclose an angle whose sine is below
    that. -/
theorem C84_parallel_angle (a b : Ln) (ha : UnitDir a) (hb : UnitDir b) (h : a.isParallel b) :
    1 - (a.dir.x * b.dir.x + a.dir.y * b.dir.y) ^ 2 < (1 / 100000000) ^ 2 := by
  have e : 1 - (a.dir.x * b.dir.x + a.dir.y * b.dir.y) ^ 2 = (denominator a b) ^ 2 := by
    rw [denominator]
    rw [UnitDir] at ha hb
    linear_combination (-(b.dir.x ^ 2 + b.dir.y ^ 2)) * ha - hb
  rw [e]
  rw [Ln.isParallel, isEqual10, sub_zero] at h
  rw [← sq_abs]
  have := abs_nonneg (denominator a b)
  nlinarith

/-- A line shifted by an offset contains exactly the shifted points. -/
theorem C84_shift (l : Ln) (h : UnitDir l) (o p : Pt) :
    (OnLine (l.shift o) (p.add o) ↔ OnLine l p) ∧ (OnLine (l.shiftBy o) (p.add o) ↔ OnLine l p) := by
  have hz : (⟨l.dir.x, l.dir.y⟩ : ℂ) ≠ 0 := by
    intro hc
    have h1 := congrArg Complex.re hc
    have h2 := congrArg Complex.im hc
    simp only [Complex.zero_re, Complex.zero_im] at h1 h2
    rw [UnitDir, h1, h2] at h
    norm_num at h
  have hn : ‖(⟨l.dir.x, l.dir.y⟩ : ℂ)‖ = 1 := by
    rw [Complex.norm_def, Complex.normSq_mk, ← sq, ← sq]
    rw [UnitDir] at h
    rw [h, Real.sqrt_one]
  have hd : (l.shift o).dir = l.dir := by
    rw [Ln.shift, atAngle, Ln.angle, atan2]
    ext
    · dsimp only
      rw [Complex.cos_arg hz, hn, div_one]
    · dsimp only
      rw [Complex.sin_arg, hn, div_one]
  have key : ∀ l' : Ln, l'.dir = l.dir → l'.pos = l.pos.add o → (OnLine l' (p.add o) ↔ OnLine l p) := by
    intro l' h1 h2
    rw [OnLine, OnLine, h1, h2]
    simp only [Pt.add]
    refine exists_congr fun t => and_congr ?_ ?_
    · constructor <;> intro h <;> linarith
    · constructor <;> intro h <;> linarith
  exact ⟨key _ hd rfl, key _ rfl rfl⟩

/-- C84 is false for points closer than 1e-9 in both coordinates: the line through them is horizontal. -/
theorem C84_wrong : ∃ s e : Pt, s ≠ e ∧ ¬ OnLine (through s e) e := by
  refine ⟨⟨0, 0⟩, ⟨0, 1 / 10000000000⟩, ?_, ?_⟩
  · intro h
    have := congrArg Pt.y h
    norm_num at this
  · have h : (⟨0, 0⟩ : Pt).same ⟨0, 1 / 10000000000⟩ := by
      refine ⟨?_, ?_⟩
      · rw [isEqual, sub_self, abs_zero]
        norm_num
      · rw [isEqual, abs_lt]
        constructor <;> norm_num
    rw [through, if_pos h]
    rintro ⟨t, -, h2⟩
    norm_num at h2

/-- The lines y = x through (1, 1), (4, 4) … -/
example : Distinct ⟨1, 1⟩ ⟨4, 5⟩ := by
  left
  norm_num [abs_of_neg]

/-- The horizontal line y = 2 and a line of slope 4/3 through (1, 1) meet at (7/4, 2). -/
example : Ln.intersection ⟨⟨5, 2⟩, ⟨1, 0⟩⟩ ⟨⟨1, 1⟩, ⟨3 / 5, 4 / 5⟩⟩ = some ⟨7 / 4, 2⟩ := by
  have h : ¬ isEqual10 (denominator ⟨⟨5, 2⟩, ⟨1, 0⟩⟩ ⟨⟨1, 1⟩, ⟨3 / 5, 4 / 5⟩⟩) 0 := by
    rw [isEqual10, denominator, abs_lt]
    norm_num
  rw [Ln.intersection, if_neg h]
  simp only [Pt.add, Pt.sub, denominator, Option.some.injEq, Pt.mk.injEq]
  norm_num

/-! ### C85 -/

/-- C85: the distance is that to the nearest point of the line, which is the projection. -/
theorem C85_distance (l : Ln) (h : UnitDir l) (p : Pt) :
    0 ≤ l.distance p ∧ OnLine l (l.projection p) ∧ (l.distance p) ^ 2 = sqDist p (l.projection p) ∧
      (∀ q, OnLine l q → sqDist p (l.projection p) ≤ sqDist p q) ∧ (l.distance p = 0 ↔ OnLine l p) := by
  rw [UnitDir] at h
  have hd : l.distance p ^ 2 = sqDist p (l.projection p) := by
    have e1 : l.distance p ^ 2 = (l.dir.y * (p.x - l.pos.x) + l.dir.x * (l.pos.y - p.y)) ^ 2 := by
      rw [Ln.distance]
      split <;> ring
    rw [e1, sqDist, Ln.projection]
    simp only [Pt.add]
    linear_combination ((p.x - l.pos.x) ^ 2 + (p.y - l.pos.y) ^ 2 - (l.dir.x * (p.x - l.pos.x) + l.dir.y * (p.y - l.pos.y)) ^ 2) * h
  have hon : OnLine l (l.projection p) := by
    rw [Ln.projection]
    exact ⟨l.dir.x * (p.x - l.pos.x) + l.dir.y * (p.y - l.pos.y), by simp only [Pt.add]; ring, by simp only [Pt.add]; ring⟩
  have hmin : ∀ q, OnLine l q → sqDist p (l.projection p) ≤ sqDist p q := by
    rintro q ⟨t, h1, h2⟩
    rw [sqDist, sqDist, Ln.projection, h1, h2]
    simp only [Pt.add]
    obtain ⟨u, hu⟩ : ∃ u, u = p.x - l.pos.x := ⟨_, rfl⟩
    obtain ⟨v, hv⟩ : ∃ v, v = p.y - l.pos.y := ⟨_, rfl⟩
    have hx : p.x = l.pos.x + u := by linarith
    have hy : p.y = l.pos.y + v := by linarith
    rw [hx, hy]
    have e : (l.pos.x + u - (l.pos.x + t * l.dir.x)) ^ 2 + (l.pos.y + v - (l.pos.y + t * l.dir.y)) ^ 2 -
      ((l.pos.x + u - (l.pos.x + l.dir.x * (l.dir.x * (l.pos.x + u - l.pos.x) + l.dir.y * (l.pos.y + v - l.pos.y)))) ^ 2 +
       (l.pos.y + v - (l.pos.y + l.dir.y * (l.dir.x * (l.pos.x + u - l.pos.x) + l.dir.y * (l.pos.y + v - l.pos.y)))) ^ 2) =
      (t - (l.dir.x * u + l.dir.y * v)) ^ 2 := by
      linear_combination (t ^ 2 - (l.dir.x * u + l.dir.y * v) ^ 2) * h
    nlinarith [sq_nonneg (t - (l.dir.x * u + l.dir.y * v))]
  have h0 : 0 ≤ l.distance p := by
    rw [Ln.distance]
    split <;> linarith
  refine ⟨h0, hon, hd, hmin, ?_, ?_⟩
  · intro hz
    rw [hz, sqDist] at hd
    have h1 : p.x - (l.projection p).x = 0 := by
      have := sq_nonneg (p.x - (l.projection p).x)
      have := sq_nonneg (p.y - (l.projection p).y)
      exact pow_eq_zero_iff (two_ne_zero) |>.1 (by linarith)
    have h2 : p.y - (l.projection p).y = 0 := by
      have := sq_nonneg (p.x - (l.projection p).x)
      have := sq_nonneg (p.y - (l.projection p).y)
      exact pow_eq_zero_iff (two_ne_zero) |>.1 (by linarith)
    have : p = l.projection p := by
      ext <;> linarith
    rw [this]
    exact hon
  · intro hp
    have h1 := hmin p hp
    rw [← hd] at h1
    have h2 : sqDist p p = 0 := by
      rw [sqDist]
      ring
    rw [h2] at h1
    exact pow_eq_zero_iff (two_ne_zero) |>.1 (le_antisymm h1 (sq_nonneg _))

/-- C85: projecting twice is projecting once. -/
theorem C85_projection_twice (l : Ln) (h : UnitDir l) (p : Pt) : l.projection (l.projection p) = l.projection p := by
  rw [UnitDir] at h
  simp only [Ln.projection, Pt.add, Pt.mk.injEq]
  constructor
  · linear_combination (l.dir.x * (l.dir.x * (p.x - l.pos.x) + l.dir.y * (p.y - l.pos.y))) * h
  · linear_combination (l.dir.y * (l.dir.x * (p.x - l.pos.x) + l.dir.y * (p.y - l.pos.y))) * h

/-- C85: the opposite point has the same projection and distance; its opposite is the point. -/
theorem C85_opposite (l : Ln) (h : UnitDir l) (p : Pt) :
    l.opposite (l.opposite p) = p ∧ l.projection (l.opposite p) = l.projection p ∧ l.distance (l.opposite p) = l.distance p ∧
      (p.x + (l.opposite p).x) / 2 = (l.projection p).x ∧ (p.y + (l.opposite p).y) / 2 = (l.projection p).y := by
  have hp : l.projection (l.opposite p) = l.projection p := by
    rw [UnitDir] at h
    simp only [Ln.opposite, Ln.projection, Pt.add, Pt.sub, Pt.twice, Pt.mk.injEq]
    constructor
    · linear_combination (2 * l.dir.x * (l.dir.x * (p.x - l.pos.x) + l.dir.y * (p.y - l.pos.y))) * h
    · linear_combination (2 * l.dir.y * (l.dir.x * (p.x - l.pos.x) + l.dir.y * (p.y - l.pos.y))) * h
  have hm1 : (p.x + (l.opposite p).x) / 2 = (l.projection p).x := by
    simp only [Ln.opposite, Pt.sub, Pt.twice]
    ring
  have hm2 : (p.y + (l.opposite p).y) / 2 = (l.projection p).y := by
    simp only [Ln.opposite, Pt.sub, Pt.twice]
    ring
  refine ⟨?_, hp, ?_, hm1, hm2⟩
  · rw [Ln.opposite, hp]
    ext
    · simp only [Pt.sub, Pt.twice]
      linarith
    · simp only [Pt.sub, Pt.twice]
      linarith
  · obtain ⟨a1, _, a3, _, _⟩ := C85_distance l h p
    obtain ⟨b1, _, b3, _, _⟩ := C85_distance l h (l.opposite p)
    have : l.distance (l.opposite p) ^ 2 = l.distance p ^ 2 := by
      rw [a3, b3, hp, sqDist, sqDist]
      have e1 : (l.opposite p).x = 2 * (l.projection p).x - p.x := by linarith
      have e2 : (l.opposite p).y = 2 * (l.projection p).y - p.y := by linarith
      rw [e1, e2]
      ring
    exact (sq_eq_sq₀ b1 a1).1 this

/-- C85 is false for a line made by the default constructor: it has no direction and every point has distance 0. -/
theorem C85_wrong (p : Pt) : defaultLine.distance p = 0 ∧ defaultLine.projection p = ⟨0, 0⟩ ∧ (p ≠ ⟨0, 0⟩ → ¬ OnLine defaultLine p) := by
  refine ⟨?_, ?_, ?_⟩
  · simp [Ln.distance, defaultLine]
  · simp [Ln.projection, defaultLine, Pt.add]
  · rintro hp ⟨t, h1, h2⟩
    refine hp ?_
    ext
    · simpa [defaultLine] using h1
    · simpa [defaultLine] using h2

/-- The point (5, 0) and the line of slope 4/3 through (1, 1) -/
example : UnitDir ⟨⟨1, 1⟩, ⟨3 / 5, 4 / 5⟩⟩ ∧ Ln.distance ⟨⟨1, 1⟩, ⟨3 / 5, 4 / 5⟩⟩ ⟨5, 0⟩ = 19 / 5 := by
  constructor
  · rw [UnitDir]
    norm_num
  · rw [Ln.distance]
    norm_num

/-! ### C86 -/

/-- Sum of `f` over the points -/
noncomputable def sumOver (pts : List Pt) (f : Pt → ℝ) : ℝ := (pts.map f).sum

theorem sumOver_cons (p : Pt) (pts : List Pt) (f : Pt → ℝ) : sumOver (p :: pts) f = f p + sumOver pts f := by
  simp [sumOver]

theorem sumOver_nonneg {pts : List Pt} {f : Pt → ℝ} (h : ∀ p, 0 ≤ f p) : 0 ≤ sumOver pts f := by
  refine List.sum_nonneg ?_
  intro a ha
  obtain ⟨p, _, rfl⟩ := List.mem_map.1 ha
  exact h p

theorem sumOver_eq_zero {pts : List Pt} {f : Pt → ℝ} (h : ∀ p, 0 ≤ f p) (h0 : sumOver pts f = 0) : ∀ p ∈ pts, f p = 0 := by
  induction pts with
  | nil => simp
  | cons p pts ih =>
    rw [sumOver_cons] at h0
    have h1 := h p
    have h2 := sumOver_nonneg (pts := pts) h
    intro q hq
    rcases List.mem_cons.1 hq with rfl | hq
    · linarith
    · exact ih (by linarith) q hq

theorem sums_eq (pts : List Pt) (s : Sums) : pts.foldl Sums.next s =
    ⟨s.x + sumOver pts Pt.x, s.y + sumOver pts Pt.y, s.xx + sumOver pts (fun p => p.x * p.x), s.yy + sumOver pts (fun p => p.y * p.y), s.xy + sumOver pts (fun p => p.x * p.y)⟩ := by
  induction pts generalizing s with
  | nil => simp [sumOver]
  | cons p pts ih =>
    rw [List.foldl_cons, ih]
    simp only [sumOver_cons, Sums.next, Sums.mk.injEq]
    refine ⟨?_, ?_, ?_, ?_, ?_⟩ <;> ring

/-- Expansion of a sum of squares -/
theorem sumOver_sq (pts : List Pt) (a b c : ℝ) : sumOver pts (fun p => (a * p.x + b * p.y + c) ^ 2) =
    a ^ 2 * sumOver pts (fun p => p.x * p.x) + b ^ 2 * sumOver pts (fun p => p.y * p.y) + c ^ 2 * pts.length +
      2 * a * b * sumOver pts (fun p => p.x * p.y) + 2 * a * c * sumOver pts Pt.x + 2 * b * c * sumOver pts Pt.y := by
  induction pts with
  | nil => simp [sumOver]
  | cons p pts ih =>
    simp only [sumOver_cons, ih, List.length_cons]
    push_cast
    ring

/-- The mean of one coordinate -/
noncomputable def mean (pts : List Pt) (f : Pt → ℝ) : ℝ := sumOver pts f / pts.length

/-- Sum of the squares of the deviations from the mean -/
noncomputable def spread (pts : List Pt) (f : Pt → ℝ) : ℝ := sumOver pts fun p => (f p - mean pts f) ^ 2

theorem spread_x {pts : List Pt} (h : pts ≠ []) : spread pts Pt.x =
    pts.length * (sumOver pts (fun p => p.x * p.x) / pts.length - mean pts Pt.x * mean pts Pt.x) := by
  have hn : (pts.length : ℝ) ≠ 0 := by
    have := List.length_pos_of_ne_nil h
    positivity
  have := sumOver_sq pts 1 0 (-mean pts Pt.x)
  have e : spread pts Pt.x = sumOver pts (fun p => (1 * p.x + 0 * p.y + -mean pts Pt.x) ^ 2) := by
    rw [spread]
    congr 1
    funext p
    ring
  rw [e, this, mean]
  field_simp
  ring

theorem spread_y {pts : List Pt} (h : pts ≠ []) : spread pts Pt.y =
    pts.length * (sumOver pts (fun p => p.y * p.y) / pts.length - mean pts Pt.y * mean pts Pt.y) := by
  have hn : (pts.length : ℝ) ≠ 0 := by
    have := List.length_pos_of_ne_nil h
    positivity
  have := sumOver_sq pts 0 1 (-mean pts Pt.y)
  have e : spread pts Pt.y = sumOver pts (fun p => (0 * p.x + 1 * p.y + -mean pts Pt.y) ^ 2) := by
    rw [spread]
    congr 1
    funext p
    ring
  rw [e, this, mean]
  field_simp
  ring

theorem onLine_atAngle (p d q : Pt) (hd : d ≠ ⟨0, 0⟩) (t : ℝ) (h1 : q.x = p.x + t * d.x) (h2 : q.y = p.y + t * d.y) :
    OnLine (atAngle p (atan2 d.y d.x)) q := by
  have hz : (⟨d.x, d.y⟩ : ℂ) ≠ 0 := by
    intro hc
    have a1 := congrArg Complex.re hc
    have a2 := congrArg Complex.im hc
    simp only [Complex.zero_re, Complex.zero_im] at a1 a2
    refine hd ?_
    ext
    · exact a1
    · exact a2
  have hn : ‖(⟨d.x, d.y⟩ : ℂ)‖ ≠ 0 := norm_ne_zero_iff.2 hz
  refine ⟨t * ‖(⟨d.x, d.y⟩ : ℂ)‖, ?_, ?_⟩
  · rw [atAngle, atan2]
    dsimp only
    rw [Complex.cos_arg hz, h1]
    field_simp
  · rw [atAngle, atan2]
    dsimp only
    rw [Complex.sin_arg, h2]
    field_simp

/-- C86, points spread more in x than in y: the fitted line is y = k x + c, and no other such line has a smaller sum of squared
    vertical distances. -/
theorem C86_horizontal (pts : List Pt) (hn : 2 ≤ pts.length) (h : spread pts Pt.y < spread pts Pt.x) :
    ∃ k c : ℝ, (∀ x, OnLine (bestFittingLine pts) ⟨x, k * x + c⟩) ∧
      ∀ a b, sumOver pts (fun p => (p.y - (k * p.x + c)) ^ 2) ≤ sumOver pts (fun p => (p.y - (a * p.x + b)) ^ 2) := by
  have hne : pts ≠ [] := by
    rintro rfl
    simp at hn
  have hn0 : (0 : ℝ) < pts.length := by
    have := List.length_pos_of_ne_nil hne
    positivity
  have hy0 : 0 ≤ spread pts Pt.y := sumOver_nonneg fun _ => sq_nonneg _
  obtain ⟨N, hN⟩ : ∃ N : ℝ, (pts.length : ℝ) = N := ⟨_, rfl⟩
  obtain ⟨X, hX⟩ : ∃ X, sumOver pts Pt.x = X := ⟨_, rfl⟩
  obtain ⟨Y, hY⟩ : ∃ Y, sumOver pts Pt.y = Y := ⟨_, rfl⟩
  obtain ⟨XX, hXX⟩ : ∃ XX, sumOver pts (fun p => p.x * p.x) = XX := ⟨_, rfl⟩
  obtain ⟨YY, hYY⟩ : ∃ YY, sumOver pts (fun p => p.y * p.y) = YY := ⟨_, rfl⟩
  obtain ⟨XY, hXY⟩ : ∃ XY, sumOver pts (fun p => p.x * p.y) = XY := ⟨_, rfl⟩
  rw [spread_y hne] at h hy0
  rw [spread_x hne, mean, mean, hX, hY, hXX, hYY, hN] at h
  rw [mean, hY, hYY, hN] at hy0
  rw [hN] at hn0
  have hlt : YY / N - Y / N * (Y / N) < XX / N - X / N * (X / N) := lt_of_mul_lt_mul_left h hn0.le
  have h0 : 0 ≤ YY / N - Y / N * (Y / N) := nonneg_of_mul_nonneg_right hy0 hn0
  have hbest : bestFittingLine pts = atAngle ⟨X / N, Y / N⟩ (atan2 (XY / N - X / N * (Y / N)) (XX / N - X / N * (X / N))) := by
    rw [bestFittingLine, if_neg (by omega), sums_eq]
    simp only [zero_add, hX, hY, hXX, hYY, hXY, hN]
    rw [if_pos hlt]
  obtain ⟨S, hS⟩ : ∃ S, XX / N - X / N * (X / N) = S := ⟨_, rfl⟩
  obtain ⟨V, hV⟩ : ∃ V, XY / N - X / N * (Y / N) = V := ⟨_, rfl⟩
  rw [hS] at hlt
  have hSpos : 0 < S := lt_of_le_of_lt h0 hlt
  rw [hS, hV] at hbest
  have e1 : XX = N * S + X * X / N := by
    rw [← hS]
    field_simp
    ring
  have e2 : XY = N * V + X * Y / N := by
    rw [← hV]
    field_simp
    ring
  refine ⟨V / S, Y / N - V / S * (X / N), ?_, ?_⟩
  · intro x
    rw [hbest]
    refine onLine_atAngle ⟨X / N, Y / N⟩ ⟨S, V⟩ _ ?_ ((x - X / N) / S) ?_ ?_
    · intro hc
      have := congrArg Pt.x hc
      exact hSpos.ne' this
    · dsimp only
      field_simp
      ring
    · dsimp only
      field_simp
      ring
  · intro a b
    have q1 : ∀ a b : ℝ, sumOver pts (fun p => (p.y - (a * p.x + b)) ^ 2) = sumOver pts (fun p => ((-a) * p.x + 1 * p.y + (-b)) ^ 2) := by
      intro a b
      congr 1
      funext p
      ring
    have q2 := sumOver_nonneg (pts := pts) (f := fun p => ((a - V / S) * p.x + 0 * p.y + (b - (Y / N - V / S * (X / N)))) ^ 2) fun _ => sq_nonneg _
    rw [sumOver_sq, hX, hY, hXX, hYY, hXY, hN] at q2
    rw [q1, q1, sumOver_sq, sumOver_sq, hX, hY, hXX, hYY, hXY, hN]
    have q3 : V / S * (N * S + X * X / N) + (Y / N - V / S * (X / N)) * X = N * V + X * Y / N := by
      field_simp
      ring
    have q4 : V / S * X + N * (Y / N - V / S * (X / N)) = Y := by
      field_simp
      ring
    rw [e1] at q2 ⊢
    rw [e2] at q2 ⊢
    obtain ⟨k, hk⟩ : ∃ k, V / S = k := ⟨_, rfl⟩
    rw [hk] at q2 q3 q4 ⊢
    obtain ⟨c, hc⟩ : ∃ c, Y / N - k * (X / N) = c := ⟨_, rfl⟩
    rw [hc] at q2 q3 q4 ⊢
    obtain ⟨A, hA⟩ : ∃ A, N * S + X * X / N = A := ⟨_, rfl⟩
    rw [hA] at q2 q3 ⊢
    obtain ⟨B, hB⟩ : ∃ B, N * V + X * Y / N = B := ⟨_, rfl⟩
    rw [hB] at q2 q3 ⊢
    have : (-a) ^ 2 * A + 1 ^ 2 * YY + (-b) ^ 2 * N + 2 * -a * 1 * B + 2 * -a * -b * X + 2 * 1 * -b * Y -
        ((-k) ^ 2 * A + 1 ^ 2 * YY + (-c) ^ 2 * N + 2 * -k * 1 * B + 2 * -k * -c * X + 2 * 1 * -c * Y) =
        (a - k) ^ 2 * A + 0 ^ 2 * YY + (b - c) ^ 2 * N + 2 * (a - k) * 0 * B + 2 * (a - k) * (b - c) * X + 2 * 0 * (b - c) * Y := by
      linear_combination 2 * (a - k) * q3 + 2 * (b - c) * q4
    linarith

/-- The same with the roles of x and y exchanged -/
theorem C86_vertical (pts : List Pt) (hn : 2 ≤ pts.length) (h : spread pts Pt.x ≤ spread pts Pt.y) (hpos : 0 < spread pts Pt.y) :
    ∃ k c : ℝ, (∀ y, OnLine (bestFittingLine pts) ⟨k * y + c, y⟩) ∧
      ∀ a b, sumOver pts (fun p => (p.x - (k * p.y + c)) ^ 2) ≤ sumOver pts (fun p => (p.x - (a * p.y + b)) ^ 2) := by
  have hne : pts ≠ [] := by
    rintro rfl
    simp at hn
  have hn0 : (0 : ℝ) < pts.length := by
    have := List.length_pos_of_ne_nil hne
    positivity
  obtain ⟨N, hN⟩ : ∃ N : ℝ, (pts.length : ℝ) = N := ⟨_, rfl⟩
  obtain ⟨X, hX⟩ : ∃ X, sumOver pts Pt.x = X := ⟨_, rfl⟩
  obtain ⟨Y, hY⟩ : ∃ Y, sumOver pts Pt.y = Y := ⟨_, rfl⟩
  obtain ⟨XX, hXX⟩ : ∃ XX, sumOver pts (fun p => p.x * p.x) = XX := ⟨_, rfl⟩
  obtain ⟨YY, hYY⟩ : ∃ YY, sumOver pts (fun p => p.y * p.y) = YY := ⟨_, rfl⟩
  obtain ⟨XY, hXY⟩ : ∃ XY, sumOver pts (fun p => p.x * p.y) = XY := ⟨_, rfl⟩
  rw [spread_y hne] at h hpos
  rw [spread_x hne, mean, mean, hX, hY, hXX, hYY, hN] at h
  rw [mean, hY, hYY, hN] at hpos
  rw [hN] at hn0
  have hle : XX / N - X / N * (X / N) ≤ YY / N - Y / N * (Y / N) := le_of_mul_le_mul_left h hn0
  have h0 : 0 < YY / N - Y / N * (Y / N) := pos_of_mul_pos_right hpos hn0.le
  have hbest : bestFittingLine pts = atAngle ⟨X / N, Y / N⟩ (atan2 (YY / N - Y / N * (Y / N)) (XY / N - X / N * (Y / N))) := by
    rw [bestFittingLine, if_neg (by omega), sums_eq]
    simp only [zero_add, hX, hY, hXX, hYY, hXY, hN]
    rw [if_neg (not_lt.2 hle)]
  obtain ⟨S, hS⟩ : ∃ S, YY / N - Y / N * (Y / N) = S := ⟨_, rfl⟩
  obtain ⟨V, hV⟩ : ∃ V, XY / N - X / N * (Y / N) = V := ⟨_, rfl⟩
  rw [hS] at h0
  rw [hS, hV] at hbest
  have e1 : YY = N * S + Y * Y / N := by
    rw [← hS]
    field_simp
    ring
  have e2 : XY = N * V + X * Y / N := by
    rw [← hV]
    field_simp
    ring
  refine ⟨V / S, X / N - V / S * (Y / N), ?_, ?_⟩
  · intro y
    rw [hbest]
    refine onLine_atAngle ⟨X / N, Y / N⟩ ⟨V, S⟩ _ ?_ ((y - Y / N) / S) ?_ ?_
    · intro hc
      have := congrArg Pt.y hc
      exact h0.ne' this
    · dsimp only
      field_simp
      ring
    · dsimp only
      field_simp
      ring
  · intro a b
    have q1 : ∀ a b : ℝ, sumOver pts (fun p => (p.x - (a * p.y + b)) ^ 2) = sumOver pts (fun p => (1 * p.x + (-a) * p.y + (-b)) ^ 2) := by
      intro a b
      congr 1
      funext p
      ring
    have q2 := sumOver_nonneg (pts := pts) (f := fun p => (0 * p.x + (a - V / S) * p.y + (b - (X / N - V / S * (Y / N)))) ^ 2) fun _ => sq_nonneg _
    rw [sumOver_sq, hX, hY, hXX, hYY, hXY, hN] at q2
    rw [q1, q1, sumOver_sq, sumOver_sq, hX, hY, hXX, hYY, hXY, hN]
    have q3 : V / S * (N * S + Y * Y / N) + (X / N - V / S * (Y / N)) * Y = N * V + X * Y / N := by
      field_simp
      ring
    have q4 : V / S * Y + N * (X / N - V / S * (Y / N)) = X := by
      field_simp
      ring
    rw [e1] at q2 ⊢
    rw [e2] at q2 ⊢
    obtain ⟨k, hk⟩ : ∃ k, V / S = k := ⟨_, rfl⟩
    rw [hk] at q2 q3 q4 ⊢
    obtain ⟨c, hc⟩ : ∃ c, X / N - k * (Y / N) = c := ⟨_, rfl⟩
    rw [hc] at q2 q3 q4 ⊢
    obtain ⟨A, hA⟩ : ∃ A, N * S + Y * Y / N = A := ⟨_, rfl⟩
    rw [hA] at q2 q3 ⊢
    obtain ⟨B, hB⟩ : ∃ B, N * V + X * Y / N = B := ⟨_, rfl⟩
    rw [hB] at q2 q3 ⊢
    have : 1 ^ 2 * XX + (-a) ^ 2 * A + (-b) ^ 2 * N + 2 * 1 * -a * B + 2 * 1 * -b * X + 2 * -a * -b * Y -
        (1 ^ 2 * XX + (-k) ^ 2 * A + (-c) ^ 2 * N + 2 * 1 * -k * B + 2 * 1 * -c * X + 2 * -k * -c * Y) =
        0 ^ 2 * XX + (a - k) ^ 2 * A + (b - c) ^ 2 * N + 2 * 0 * (a - k) * B + 2 * 0 * (b - c) * X + 2 * (a - k) * (b - c) * Y := by
      linear_combination 2 * (a - k) * q3 + 2 * (b - c) * q4
    linarith

/-- C86, all points the same: the line contains the point. -/
theorem C86_point (pts : List Pt) (hn : 2 ≤ pts.length) (p : Pt) (h : ∀ q ∈ pts, q = p) : OnLine (bestFittingLine pts) p := by
  have hr : pts = List.replicate pts.length p := List.eq_replicate_of_mem h
  have ht : ∀ f, sumOver pts f = pts.length * f p := by
    intro f
    have : sumOver (List.replicate pts.length p) f = pts.length * f p := by
      rw [sumOver, List.map_replicate, List.sum_replicate, nsmul_eq_mul]
    rw [← this, ← hr]
  have hn0 : (pts.length : ℝ) ≠ 0 := by
    have : 0 < pts.length := by omega
    positivity
  rw [bestFittingLine, if_neg (by omega), sums_eq]
  simp only [zero_add, ht]
  refine ⟨0, ?_, ?_⟩
  · rw [zero_mul, add_zero, atAngle]
    dsimp only
    field_simp
  · rw [zero_mul, add_zero, atAngle]
    dsimp only
    field_simp

/-- The line fitted to less than two points has no direction. -/
theorem C86_too_few (pts : List Pt) (h : pts.length < 2) : bestFittingLine pts = defaultLine := by
  rw [bestFittingLine, if_pos h]

/-- Points (0, 0), (2, 1), (4, 5): spread 8 in x, 14 in y. -/
example : spread [⟨0, 0⟩, ⟨2, 1⟩, ⟨4, 5⟩] Pt.x = 8 ∧ spread [⟨0, 0⟩, ⟨2, 1⟩, ⟨4, 5⟩] Pt.y = 14 := by
  simp only [spread, mean, sumOver, List.map_cons, List.map_nil, List.sum_cons, List.sum_nil, List.length_cons, List.length_nil]
  norm_num

end PV.Props
