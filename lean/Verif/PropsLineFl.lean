import Mathlib.Tactic.Linarith
import Mathlib.Tactic.Ring
import Mathlib.Tactic.Positivity
import Mathlib.Tactic.FieldSimp
import Mathlib.Algebra.Order.Archimedean.Basic
import Verif.LineFl
import Verif.Rounding
import Verif.Rounding24
/-
  C177: lines with rounded arithmetic.
-/
namespace PV.Props

open PV.LineFl

/-! ### Roundings -/

/-- A rounding with relative error `u`, which is small: 2^-52 for `double`, 2^-23 for `float`. -/
structure RelErr (rnd : ℚ → ℚ) (u : ℚ) : Prop where
  nonneg : 0 ≤ u
  small : u ≤ 1 / 2 ^ 20
  err : ∀ a, |rnd a - a| ≤ u * |a|

theorem RelErr.double : RelErr PV.double (1 / 2 ^ 52) :=
  ⟨by norm_num, by norm_num, fun a => by have := Rounding.double.err a; linarith⟩

theorem RelErr.single : RelErr PV.single (1 / 2 ^ 23) :=
  ⟨by norm_num, by norm_num, fun a => by have := Rounding24.single.err a; linarith⟩

variable {rnd : ℚ → ℚ} {u : ℚ}

/-- A rounded value is near what the unrounded one is near to. -/
theorem RelErr.near (r : RelErr rnd u) {a b E : ℚ} (h : |a - b| ≤ E) : |rnd a - b| ≤ u * (|b| + E) + E := by
  have h1 := r.err a
  have h2 : |a| ≤ |b| + E := by
    have := abs_add_le (a - b) b
    rw [sub_add_cancel] at this
    linarith
  have h3 := mul_le_mul_of_nonneg_left h2 r.nonneg
  have h4 := abs_add_le (rnd a - a) (a - b)
  rw [sub_add_sub_cancel] at h4
  linarith

/-- ... with bounds -/
theorem RelErr.near_le (r : RelErr rnd u) {a b E V F : ℚ} (h : |a - b| ≤ E) (hb : |b| ≤ V) (hF : u * (V + E) + E ≤ F) : |rnd a - b| ≤ F := by
  have h1 := r.near h
  have h2 := mul_le_mul_of_nonneg_left (show |b| + E ≤ V + E by linarith) r.nonneg
  linarith

/-- A product of a number and a rounded difference -/
theorem RelErr.term (r : RelErr rnd u) (d a b : ℚ) : |rnd (d * rnd (a - b)) - d * (a - b)| ≤ 3 * u * (|d| * |a - b|) := by
  have h1 : |d * rnd (a - b) - d * (a - b)| ≤ u * (|d| * |a - b|) := by
    rw [← mul_sub, abs_mul]
    have := mul_le_mul_of_nonneg_left (r.err (a - b)) (abs_nonneg d)
    linarith
  have hT : 0 ≤ |d| * |a - b| := by positivity
  refine r.near_le (V := |d| * |a - b|) h1 (le_of_eq (abs_mul _ _)) ?_
  have h2 := mul_le_mul_of_nonneg_right r.small (mul_nonneg r.nonneg hT)
  have h3 := mul_nonneg r.nonneg hT
  linarith

/-- A sum of two such products -/
theorem RelErr.sum (r : RelErr rnd u) (d a b d' a' b' : ℚ) :
    |rnd (rnd (d * rnd (a - b)) + rnd (d' * rnd (a' - b'))) - (d * (a - b) + d' * (a' - b'))| ≤ 5 * u * (|d| * |a - b| + |d'| * |a' - b'|) := by
  have h1 := r.term d a b
  have h2 := r.term d' a' b'
  have h3 := abs_add_le (rnd (d * rnd (a - b)) - d * (a - b)) (rnd (d' * rnd (a' - b')) - d' * (a' - b'))
  have hS : 0 ≤ |d| * |a - b| + |d'| * |a' - b'| := by positivity
  have hv : |d * (a - b) + d' * (a' - b')| ≤ |d| * |a - b| + |d'| * |a' - b'| := by
    have := abs_add_le (d * (a - b)) (d' * (a' - b'))
    rwa [abs_mul, abs_mul] at this
  refine r.near_le (E := 3 * u * (|d| * |a - b| + |d'| * |a' - b'|)) (le_trans (le_of_eq (by congr 1; ring)) (le_trans h3 (by linarith))) hv ?_
  have h4 := mul_le_mul_of_nonneg_right r.small (mul_nonneg r.nonneg hS)
  have h5 := mul_nonneg r.nonneg hS
  linarith

/-! ### Specification -/

/-- The point of a line with parameter `t` -/
def onLine (l : Ln) (t : ℚ) : Pt := ⟨l.pos.x + t * l.dir.x, l.pos.y + t * l.dir.y⟩

/-- The square of the distance of two points -/
def sqDistFl (p q : Pt) : ℚ := (p.x - q.x) ^ 2 + (p.y - q.y) ^ 2

/-- The square of the length of the direction; one for lines in exact arithmetic -/
def sqLen (l : Ln) : ℚ := l.dir.x ^ 2 + l.dir.y ^ 2

/-- `d` is the distance of `p` to the nearest point of the line, times the length of the direction. -/
def IsDistance (l : Ln) (p : Pt) (d : ℚ) : Prop :=
  0 ≤ d ∧ (∀ t, d ^ 2 ≤ sqLen l * sqDistFl p (onLine l t)) ∧ (sqLen l ≠ 0 → ∃ t, d ^ 2 = sqLen l * sqDistFl p (onLine l t))

/-- A line and a point with coordinates up to `B`; the direction may be longer than one by rounding. -/
structure Moderate (l : Ln) (p : Pt) (B : ℚ) : Prop where
  posX : |l.pos.x| ≤ B
  posY : |l.pos.y| ≤ B
  dirX : |l.dir.x| ≤ 2
  dirY : |l.dir.y| ≤ 2
  x : |p.x| ≤ B
  y : |p.y| ≤ B

theorem Moderate.nonneg {l : Ln} {p : Pt} {B : ℚ} (h : Moderate l p B) : 0 ≤ B := le_trans (abs_nonneg _) h.x

theorem diff_le {a b B : ℚ} (ha : |a| ≤ B) (hb : |b| ≤ B) : |a - b| ≤ 2 * B := by
  have := abs_sub a b
  linarith

theorem prod_le {d a B : ℚ} (hd : |d| ≤ 2) (ha : |a| ≤ B) : |d| * |a| ≤ 2 * B :=
  mul_le_mul hd ha (abs_nonneg _) (by norm_num)

/-! ### Distance, projection, mirror image -/

theorem distance_abs (l : Ln) (p : Pt) :
    l.distance rnd p = |rnd (rnd (l.dir.y * rnd (p.x - l.pos.x)) + rnd (l.dir.x * rnd (l.pos.y - p.y)))| := by
  unfold Ln.distance
  simp only
  split
  · rename_i hlt
    rw [abs_of_neg hlt]
  · rename_i hge
    rw [abs_of_nonneg (not_lt.1 hge)]

/-- **C177** The distance of a point is right up to 40 rounding errors of the greatest coordinate. -/
theorem C177_distance (r : RelErr rnd u) {l : Ln} {p : Pt} {B : ℚ} (h : Moderate l p B) :
    ∃ d, IsDistance l p d ∧ |l.distance rnd p - d| ≤ 40 * u * B := by
  refine ⟨|l.dir.y * (p.x - l.pos.x) + l.dir.x * (l.pos.y - p.y)|, ⟨abs_nonneg _, fun t => ?_, fun hN => ?_⟩, ?_⟩
  · rw [sq_abs]
    unfold sqLen sqDistFl onLine
    simp only
    have := sq_nonneg (l.dir.x * (p.x - (l.pos.x + t * l.dir.x)) + l.dir.y * (p.y - (l.pos.y + t * l.dir.y)))
    nlinarith
  · refine ⟨(l.dir.x * (p.x - l.pos.x) + l.dir.y * (p.y - l.pos.y)) / sqLen l, ?_⟩
    rw [sq_abs]
    unfold sqDistFl onLine
    unfold sqLen at *
    simp only
    field_simp
    ring
  · have h1 := r.sum l.dir.y p.x l.pos.x l.dir.x l.pos.y p.y
    have h2 := prod_le h.dirY (diff_le h.x h.posX)
    have h3 := prod_le h.dirX (diff_le h.posY h.y)
    have h4 := mul_le_mul_of_nonneg_left (add_le_add h2 h3) (by linarith [r.nonneg] : 0 ≤ 5 * u)
    rw [distance_abs]
    refine le_trans (abs_abs_sub_abs_le _ _) (le_trans h1 (le_trans h4 (le_of_eq ?_)))
    ring

/-- The foot of the perpendicular for a direction of length one -/
def foot (l : Ln) (p : Pt) : Pt := onLine l (l.dir.x * (p.x - l.pos.x) + l.dir.y * (p.y - l.pos.y))

/-- The foot is the nearest point of the line. -/
theorem foot_nearest {l : Ln} (hN : sqLen l = 1) (p : Pt) (t : ℚ) : sqDistFl p (foot l p) ≤ sqDistFl p (onLine l t) := by
  unfold sqLen at hN
  have e : sqDistFl p (onLine l t) - sqDistFl p (foot l p) = (t - (l.dir.x * (p.x - l.pos.x) + l.dir.y * (p.y - l.pos.y))) ^ 2 := by
    unfold sqDistFl foot onLine
    simp only
    have e1 : l.dir.y ^ 2 = 1 - l.dir.x ^ 2 := by linarith
    ring_nf
    simp only [show l.dir.y ^ 3 = l.dir.y * l.dir.y ^ 2 by ring, show l.dir.y ^ 4 = l.dir.y ^ 2 * l.dir.y ^ 2 by ring, e1]
    ring
  have := sq_nonneg (t - (l.dir.x * (p.x - l.pos.x) + l.dir.y * (p.y - l.pos.y)))
  linarith

theorem dot_near (r : RelErr rnd u) {l : Ln} {p : Pt} {B : ℚ} (h : Moderate l p B) :
    |rnd (rnd (l.dir.x * rnd (p.x - l.pos.x)) + rnd (l.dir.y * rnd (p.y - l.pos.y))) - (l.dir.x * (p.x - l.pos.x) + l.dir.y * (p.y - l.pos.y))|
      ≤ 40 * u * B ∧ |l.dir.x * (p.x - l.pos.x) + l.dir.y * (p.y - l.pos.y)| ≤ 8 * B := by
  have h1 := r.sum l.dir.x p.x l.pos.x l.dir.y p.y l.pos.y
  have h2 := prod_le h.dirX (diff_le h.x h.posX)
  have h3 := prod_le h.dirY (diff_le h.y h.posY)
  have h4 := mul_le_mul_of_nonneg_left (add_le_add h2 h3) (by linarith [r.nonneg] : 0 ≤ 5 * u)
  refine ⟨le_trans h1 (le_trans h4 (le_of_eq (by ring))), ?_⟩
  have := abs_add_le (l.dir.x * (p.x - l.pos.x)) (l.dir.y * (p.y - l.pos.y))
  rw [abs_mul, abs_mul] at this
  linarith

/-- One coordinate of the projection -/
theorem coord_near (r : RelErr rnd u) {c d dot dot' B : ℚ} (hB : 0 ≤ B) (hc : |c| ≤ B) (hd : |d| ≤ 2) (h : |dot' - dot| ≤ 40 * u * B)
    (hv : |dot| ≤ 8 * B) : |rnd (c + rnd (d * dot')) - (c + dot * d)| ≤ 128 * u * B ∧ |c + dot * d| ≤ 17 * B := by
  have huB := mul_nonneg r.nonneg hB
  have huu := mul_le_mul_of_nonneg_right r.small huB
  have h1 : |d * dot' - dot * d| ≤ 80 * u * B := by
    rw [mul_comm dot, ← mul_sub, abs_mul]
    have := mul_le_mul hd h (abs_nonneg _) (by norm_num)
    linarith
  have hv1 : |dot * d| ≤ 16 * B := by
    rw [abs_mul]
    have := mul_le_mul hv hd (abs_nonneg _) (by linarith)
    linarith
  have h2 : |rnd (d * dot') - dot * d| ≤ 97 * u * B := r.near_le h1 hv1 (by linarith)
  have h3 : |c + rnd (d * dot') - (c + dot * d)| ≤ 97 * u * B := by
    rwa [add_sub_add_left_eq_sub]
  have hv2 : |c + dot * d| ≤ 17 * B := by
    have := abs_add_le c (dot * d)
    linarith
  exact ⟨r.near_le h3 hv2 (by linarith), hv2⟩

/-- **C177** The projection is the foot of the perpendicular up to 128 rounding errors of the greatest coordinate. -/
theorem C177_projection (r : RelErr rnd u) {l : Ln} {p : Pt} {B : ℚ} (h : Moderate l p B) :
    |(l.projection rnd p).x - (foot l p).x| ≤ 128 * u * B ∧ |(l.projection rnd p).y - (foot l p).y| ≤ 128 * u * B := by
  obtain ⟨h1, h2⟩ := dot_near r h
  exact ⟨(coord_near r h.nonneg h.posX h.dirX h1 h2).1, (coord_near r h.nonneg h.posY h.dirY h1 h2).1⟩

/-- The mirror image of a point -/
def mirrorPt (l : Ln) (p : Pt) : Pt := ⟨2 * (foot l p).x - p.x, 2 * (foot l p).y - p.y⟩

theorem mirror_near (r : RelErr rnd u) {a b c B : ℚ} (hB : 0 ≤ B) (h : |a - b| ≤ 128 * u * B) (hb : |b| ≤ 17 * B) (hc : |c| ≤ B) :
    |rnd (rnd (2 * a) - c) - (2 * b - c)| ≤ 512 * u * B := by
  have huB := mul_nonneg r.nonneg hB
  have huu := mul_le_mul_of_nonneg_right r.small huB
  have h1 : |2 * a - 2 * b| ≤ 256 * u * B := by
    rw [← mul_sub, abs_mul, abs_two]
    linarith
  have hv : |2 * b| ≤ 34 * B := by
    rw [abs_mul, abs_two]
    linarith
  have h2 : |rnd (2 * a) - 2 * b| ≤ 291 * u * B := r.near_le h1 hv (by linarith)
  refine r.near_le (E := 291 * u * B) (V := 35 * B) ?_ ?_ (by linarith)
  · rwa [sub_sub_sub_cancel_right]
  · have := abs_sub (2 * b) c
    linarith

/-- **C177** The opposite point is the mirror image up to 512 rounding errors of the greatest coordinate. -/
theorem C177_opposite (r : RelErr rnd u) {l : Ln} {p : Pt} {B : ℚ} (h : Moderate l p B) :
    |(l.opposite rnd p).x - (mirrorPt l p).x| ≤ 512 * u * B ∧ |(l.opposite rnd p).y - (mirrorPt l p).y| ≤ 512 * u * B := by
  obtain ⟨h1, h2⟩ := dot_near r h
  obtain ⟨x1, x2⟩ := coord_near r h.nonneg h.posX h.dirX h1 h2
  obtain ⟨y1, y2⟩ := coord_near r h.nonneg h.posY h.dirY h1 h2
  exact ⟨mirror_near r h.nonneg x1 x2 h.x, mirror_near r h.nonneg y1 y2 h.y⟩

/-! ### The line through two points -/

/-- A square root with a relative error of its square up to three roundings -/
structure SqrtErr (sqrt : ℚ → ℚ) (u : ℚ) : Prop where
  pos : ∀ a, 0 < a → 0 < sqrt a
  err : ∀ a, 0 < a → |sqrt a * sqrt a - a| ≤ 3 * u * a

theorem RelErr.zero (r : RelErr rnd u) : rnd 0 = 0 := by
  have := r.err 0
  rw [abs_zero, mul_zero, sub_zero] at this
  exact abs_eq_zero.1 (le_antisymm this (abs_nonneg _))

theorem RelErr.ne_zero (r : RelErr rnd u) {a : ℚ} (h : rnd a ≠ 0) : a ≠ 0 := fun e => h (by rw [e, r.zero])

theorem RelErr.rnd_ne_zero (r : RelErr rnd u) {a : ℚ} (h : a ≠ 0) : rnd a ≠ 0 := by
  intro e
  have h1 := r.err a
  rw [e, zero_sub, abs_neg] at h1
  have h2 := abs_pos.2 h
  have h3 := mul_le_mul_of_nonneg_right r.small h2.le
  linarith

/-- The square of a rounded number -/
theorem RelErr.sq (r : RelErr rnd u) (a : ℚ) : |rnd a ^ 2 - a ^ 2| ≤ 3 * u * a ^ 2 := by
  have h1 := r.err a
  have h2 : |rnd a + a| ≤ (2 + u) * |a| := by
    have := abs_add_le (rnd a - a) (2 * a)
    rw [abs_mul, abs_two, show rnd a - a + 2 * a = rnd a + a by ring] at this
    linarith
  have e : rnd a ^ 2 - a ^ 2 = (rnd a - a) * (rnd a + a) := by ring
  rw [e, abs_mul]
  have h3 := mul_le_mul h1 h2 (abs_nonneg _) (mul_nonneg r.nonneg (abs_nonneg a))
  refine le_trans h3 ?_
  rw [show u * |a| * ((2 + u) * |a|) = u * (2 + u) * |a| ^ 2 by ring, sq_abs]
  refine mul_le_mul_of_nonneg_right ?_ (sq_nonneg a)
  have := mul_le_mul_of_nonneg_left r.small r.nonneg
  linarith [r.nonneg]

/-- The square of the length of the difference, as the square of what the code divides by -/
theorem length_near (r : RelErr rnd u) {sqrt : ℚ → ℚ} (q : SqrtErr sqrt u) {x y : ℚ} (h : 0 < x ^ 2 + y ^ 2) :
    0 < sqrt (rnd (rnd (x * x) + rnd (y * y)))
      ∧ |sqrt (rnd (rnd (x * x) + rnd (y * y))) ^ 2 - (x ^ 2 + y ^ 2)| ≤ 7 * u * (x ^ 2 + y ^ 2) := by
  have hx := r.err (x * x)
  have hy := r.err (y * y)
  rw [abs_mul_self] at hx hy
  have hu := r.nonneg
  have hS := mul_nonneg hu h.le
  have huu := mul_le_mul_of_nonneg_right r.small hS
  have h1 := abs_add_le (rnd (x * x) - x * x) (rnd (y * y) - y * y)
  have h2 : |rnd (x * x) + rnd (y * y) - (x ^ 2 + y ^ 2)| ≤ u * (x ^ 2 + y ^ 2) := by
    rw [show rnd (x * x) + rnd (y * y) - (x ^ 2 + y ^ 2) = rnd (x * x) - x * x + (rnd (y * y) - y * y) by ring]
    linarith
  have h3 : |rnd (rnd (x * x) + rnd (y * y)) - (x ^ 2 + y ^ 2)| ≤ 3 * u * (x ^ 2 + y ^ 2) :=
    r.near_le h2 (le_of_eq (abs_of_pos h)) (by linarith)
  generalize rnd (rnd (x * x) + rnd (y * y)) = w at *
  have hw := abs_le.1 h3
  have hp : 0 < w := by linarith [mul_le_mul_of_nonneg_right r.small h.le]
  refine ⟨q.pos w hp, ?_⟩
  have h4 := q.err w hp
  have h5 := abs_add_le (sqrt w * sqrt w - w) (w - (x ^ 2 + y ^ 2))
  rw [show sqrt w * sqrt w - w + (w - (x ^ 2 + y ^ 2)) = sqrt w ^ 2 - (x ^ 2 + y ^ 2) by ring] at h5
  have h6 := mul_le_mul_of_nonneg_left hw.2 hu
  linarith

/-- There are such square roots. -/
theorem SqrtErr.exists {u : ℚ} (hu : 0 < u) : ∃ sqrt, SqrtErr sqrt u := by
  have key : ∀ a : ℚ, 0 < a → ∃ s, 0 < s ∧ |s * s - a| ≤ 3 * u * a := by
    intro a ha
    have hua := mul_pos hu ha
    obtain ⟨s, s0, s1, s2⟩ := exists_pow_btwn (K := ℚ) (n := 2) (by norm_num) (show a - u * a < a + u * a by linarith) (by linarith)
    refine ⟨s, s0, ?_⟩
    rw [← sq, abs_le]
    constructor <;> linarith
  choose! g g1 g2 using key
  exact ⟨g, g1, g2⟩

/-- The second point satisfies the equation of the line, with the rounded direction. -/
theorem cross_near (r : RelErr rnd u) {a b len B : ℚ} (ha : |a| ≤ 2 * B) (hb : |b| ≤ 2 * B) (hl : 0 < len) (hx : |rnd a| ≤ 2 * len)
    (hy : |rnd b| ≤ 2 * len) : |rnd (rnd b / len) * a + rnd (rnd a / len) * -b| ≤ 24 * u * B := by
  have hu := r.nonneg
  have q : ∀ z w : ℚ, |z| ≤ 2 * len → |w| ≤ 2 * B → |(rnd (z / len) - z / len) * w| ≤ 4 * u * B := by
    intro z w hz hw
    have h1 := r.err (z / len)
    have h2 : |z / len| ≤ 2 := by
      rw [abs_div, abs_of_pos hl, div_le_iff₀ hl]
      exact hz
    have h3 := mul_le_mul_of_nonneg_left h2 hu
    rw [abs_mul]
    have := mul_le_mul (le_trans h1 h3) hw (abs_nonneg _) (by linarith)
    linarith
  have p1 := q (rnd b) a hy ha
  have p2 := q (rnd a) b hx hb
  have hb2 : |b| ≤ 4 * len := by
    have h1 := r.err b
    have h2 := abs_sub_abs_le_abs_sub b (rnd b)
    rw [abs_sub_comm] at h2
    have h3 := mul_le_mul_of_nonneg_right r.small (abs_nonneg b)
    linarith
  have p3 : |(rnd b * a - rnd a * b) / len| ≤ 16 * u * B := by
    rw [abs_div, abs_of_pos hl, div_le_iff₀ hl, show rnd b * a - rnd a * b = (rnd b - b) * a - (rnd a - a) * b by ring]
    have h0 := abs_sub ((rnd b - b) * a) ((rnd a - a) * b)
    rw [abs_mul, abs_mul] at h0
    have h1 := mul_le_mul_of_nonneg_right (r.err b) (abs_nonneg a)
    have h2 := mul_le_mul_of_nonneg_right (r.err a) (abs_nonneg b)
    have h3 := mul_le_mul hb2 ha (abs_nonneg _) (by linarith)
    have h4 := mul_le_mul_of_nonneg_left h3 hu
    linarith
  have e : rnd (rnd b / len) * a + rnd (rnd a / len) * -b
      = (rnd (rnd b / len) - rnd b / len) * a - (rnd (rnd a / len) - rnd a / len) * b + (rnd b * a - rnd a * b) / len := by ring
  rw [e]
  have h5 := abs_add_le ((rnd (rnd b / len) - rnd b / len) * a - (rnd (rnd a / len) - rnd a / len) * b) ((rnd b * a - rnd a * b) / len)
  have h6 := abs_sub ((rnd (rnd b / len) - rnd b / len) * a) ((rnd (rnd a / len) - rnd a / len) * b)
  linarith

/-- Two points which are not taken as the same -/
theorem diff_pos (r : RelErr rnd u) {eps : ℚ} (heps : 0 < eps) {s e : Pt} (hne : ¬ s.same rnd eps e = true) :
    0 < rnd (e.x - s.x) ^ 2 + rnd (e.y - s.y) ^ 2 := by
  unfold Pt.same LineFl.isEqual at hne
  rw [Bool.and_eq_true, decide_eq_true_eq, decide_eq_true_eq, not_and_or, not_lt, not_lt] at hne
  rcases hne with hne | hne
  · have h1 := r.ne_zero (abs_pos.1 (lt_of_lt_of_le heps hne))
    have h2 := r.rnd_ne_zero (a := e.x - s.x) (fun e' => h1 (by linarith))
    have := sq_nonneg (rnd (e.y - s.y))
    have := pow_pos (abs_pos.2 h2) 2
    rw [sq_abs] at this
    linarith
  · have h1 := r.ne_zero (abs_pos.1 (lt_of_lt_of_le heps hne))
    have h2 := r.rnd_ne_zero (a := e.y - s.y) (fun e' => h1 (by linarith))
    have := sq_nonneg (rnd (e.x - s.x))
    have := pow_pos (abs_pos.2 h2) 2
    rw [sq_abs] at this
    linarith

/-- **C177** The direction of a line through two points has length one up to rounding, and the line starts at the first point. -/
theorem C177_through (r : RelErr rnd u) {sqrt : ℚ → ℚ} (q : SqrtErr sqrt u) {eps : ℚ} (heps : 0 < eps) (s e : Pt) :
    (through rnd sqrt eps s e).pos = s ∧ |sqLen (through rnd sqrt eps s e) - 1| ≤ 16 * u := by
  have hu := r.nonneg
  unfold through
  split
  · refine ⟨rfl, ?_⟩
    unfold sqLen
    norm_num
    exact hu
  · rename_i hne
    refine ⟨rfl, ?_⟩
    have hpos := diff_pos r heps hne
    unfold sqLen
    simp only
    generalize rnd (e.x - s.x) = x at *
    generalize rnd (e.y - s.y) = y at *
    obtain ⟨hl, hn⟩ := length_near r q hpos
    generalize sqrt (rnd (rnd (x * x) + rnd (y * y))) = len at *
    have hx := r.sq (x / len)
    have hy := r.sq (y / len)
    have hl2 : 0 < len ^ 2 := by positivity
    -- the quotient of the two squares
    obtain ⟨n1, n2⟩ := abs_le.1 hn
    have huu := mul_le_mul_of_nonneg_right r.small hu
    have k0 : (x / len) ^ 2 + (y / len) ^ 2 = (x ^ 2 + y ^ 2) / len ^ 2 := by
      rw [div_pow, div_pow, add_div]
    generalize hS : x ^ 2 + y ^ 2 = S at *
    have hSu := mul_nonneg hu hpos.le
    have hSuu := mul_le_mul_of_nonneg_right r.small hSu
    have k1 : S / len ^ 2 ≤ 1 + 8 * u := by
      rw [div_le_iff₀ hl2]
      have := mul_le_mul_of_nonneg_left (show S - 7 * u * S ≤ len ^ 2 by linarith) (by linarith : 0 ≤ 1 + 8 * u)
      linarith
    have k2 : 1 - 8 * u ≤ S / len ^ 2 := by
      rw [le_div_iff₀ hl2]
      have := mul_le_mul_of_nonneg_left (show len ^ 2 ≤ S + 7 * u * S by linarith) (by linarith [r.small] : 0 ≤ 1 - 8 * u)
      linarith [mul_nonneg hu hSu]
    have h1 := abs_add_le (rnd (x / len) ^ 2 - (x / len) ^ 2) (rnd (y / len) ^ 2 - (y / len) ^ 2)
    have h2 := abs_le.1 (le_trans h1 (add_le_add hx hy))
    have h3 : 3 * u * (x / len) ^ 2 + 3 * u * (y / len) ^ 2 = 3 * u * (S / len ^ 2) := by rw [← k0]; ring
    have h4 := mul_le_mul_of_nonneg_left k1 (by linarith : 0 ≤ 3 * u)
    rw [abs_le]
    constructor <;> linarith [h2.1, h2.2]

/-- **C177** Hence distances and projections are right for a line through two points. -/
theorem C177_through_moderate (r : RelErr rnd u) {sqrt : ℚ → ℚ} (q : SqrtErr sqrt u) {eps : ℚ} (heps : 0 < eps) {s e p : Pt} {B : ℚ}
    (sx : |s.x| ≤ B) (sy : |s.y| ≤ B) (px : |p.x| ≤ B) (py : |p.y| ≤ B) : Moderate (through rnd sqrt eps s e) p B := by
  obtain ⟨h1, h2⟩ := C177_through r q heps s e
  have h3 := (abs_le.1 h2).2
  have h4 : sqLen (through rnd sqrt eps s e) ≤ 2 ^ 2 := by linarith [r.small]
  unfold sqLen at h4
  refine ⟨by rwa [h1], by rwa [h1], ?_, ?_, px, py⟩
  · exact abs_le_of_sq_le_sq (by linarith [sq_nonneg (through rnd sqrt eps s e).dir.y]) (by norm_num)
  · exact abs_le_of_sq_le_sq (by linarith [sq_nonneg (through rnd sqrt eps s e).dir.x]) (by norm_num)

/-- **C177** The line through two points contains the second one, up to 64 rounding errors of the greatest coordinate. -/
theorem C177_through_end (r : RelErr rnd u) {sqrt : ℚ → ℚ} (q : SqrtErr sqrt u) {eps : ℚ} (heps : 0 < eps) {s e : Pt} {B : ℚ}
    (sx : |s.x| ≤ B) (sy : |s.y| ≤ B) (ex : |e.x| ≤ B) (ey : |e.y| ≤ B) (hne : ¬ s.same rnd eps e = true) :
    (through rnd sqrt eps s e).distance rnd e ≤ 64 * u * B := by
  have hpos := diff_pos r heps hne
  have hm := C177_through_moderate r q heps (e := e) sx sy ex ey
  have h1 := r.sum (through rnd sqrt eps s e).dir.y e.x (through rnd sqrt eps s e).pos.x (through rnd sqrt eps s e).dir.x
    (through rnd sqrt eps s e).pos.y e.y
  have h2 := prod_le hm.dirY (diff_le hm.x hm.posX)
  have h3 := prod_le hm.dirX (diff_le hm.posY hm.y)
  have h4 := mul_le_mul_of_nonneg_left (add_le_add h2 h3) (by linarith [r.nonneg] : 0 ≤ 5 * u)
  obtain ⟨hl, hn⟩ := length_near r q hpos
  have n1 := (abs_le.1 hn).1
  have hs := mul_le_mul_of_nonneg_right r.small hpos.le
  have hx : |rnd (e.x - s.x)| ≤ 2 * sqrt (rnd (rnd (rnd (e.x - s.x) * rnd (e.x - s.x)) + rnd (rnd (e.y - s.y) * rnd (e.y - s.y)))) := by
    refine abs_le_of_sq_le_sq ?_ (by linarith)
    rw [mul_pow]
    linarith [sq_nonneg (rnd (e.y - s.y)), sq_nonneg (rnd (e.x - s.x))]
  have hy : |rnd (e.y - s.y)| ≤ 2 * sqrt (rnd (rnd (rnd (e.x - s.x) * rnd (e.x - s.x)) + rnd (rnd (e.y - s.y) * rnd (e.y - s.y)))) := by
    refine abs_le_of_sq_le_sq ?_ (by linarith)
    rw [mul_pow]
    linarith [sq_nonneg (rnd (e.y - s.y)), sq_nonneg (rnd (e.x - s.x))]
  have hc := cross_near r (diff_le ex sx) (diff_le ey sy) hl hx hy
  have hp : (through rnd sqrt eps s e).pos = s := (C177_through r q heps s e).1
  have hc' : |(through rnd sqrt eps s e).dir.y * (e.x - s.x) + (through rnd sqrt eps s e).dir.x * (s.y - e.y)| ≤ 24 * u * B := by
    unfold through
    rw [if_neg hne]
    rw [neg_sub] at hc
    exact hc
  rw [hp] at h1 h4
  rw [distance_abs, hp]
  have h5 := abs_sub_abs_le_abs_sub (rnd (rnd ((through rnd sqrt eps s e).dir.y * rnd (e.x - s.x)) + rnd ((through rnd sqrt eps s e).dir.x * rnd (s.y - e.y))))
    ((through rnd sqrt eps s e).dir.y * (e.x - s.x) + (through rnd sqrt eps s e).dir.x * (s.y - e.y))
  linarith

/-! ### Intersection -/

/-- A difference of two products with rounded differences -/
theorem RelErr.minus (r : RelErr rnd u) (d a b d' a' b' : ℚ) :
    |rnd (rnd (d * rnd (a - b)) - rnd (d' * rnd (a' - b'))) - (d * (a - b) - d' * (a' - b'))| ≤ 5 * u * (|d| * |a - b| + |d'| * |a' - b'|) := by
  have h1 := r.term d a b
  have h2 := r.term d' a' b'
  have h3 := abs_sub (rnd (d * rnd (a - b)) - d * (a - b)) (rnd (d' * rnd (a' - b')) - d' * (a' - b'))
  have hS : 0 ≤ |d| * |a - b| + |d'| * |a' - b'| := by positivity
  have hv : |d * (a - b) - d' * (a' - b')| ≤ |d| * |a - b| + |d'| * |a' - b'| := by
    have := abs_sub (d * (a - b)) (d' * (a' - b'))
    rwa [abs_mul, abs_mul] at this
  refine r.near_le (E := 3 * u * (|d| * |a - b| + |d'| * |a' - b'|)) (le_trans (le_of_eq (by congr 1; ring)) (le_trans h3 (by linarith))) hv ?_
  have h4 := mul_le_mul_of_nonneg_right r.small (mul_nonneg r.nonneg hS)
  have h5 := mul_nonneg r.nonneg hS
  linarith

/-- The sine of the angle between two directions of length one -/
def dirCross (l k : Ln) : ℚ := l.dir.y * k.dir.x - l.dir.x * k.dir.y

theorem denominator_near (r : RelErr rnd u) {l k : Ln} (lx : |l.dir.x| ≤ 2) (ly : |l.dir.y| ≤ 2) (kx : |k.dir.x| ≤ 2) (ky : |k.dir.y| ≤ 2) :
    |l.denominator rnd k - dirCross l k| ≤ 17 * u := by
  have hu := r.nonneg
  have huu := mul_le_mul_of_nonneg_right r.small hu
  have q : ∀ a b : ℚ, |a| ≤ 2 → |b| ≤ 2 → |a * b| ≤ 4 := by
    intro a b ha hb
    rw [abs_mul]
    have := mul_le_mul ha hb (abs_nonneg _) (by norm_num)
    linarith
  have p : ∀ a b : ℚ, |a| ≤ 2 → |b| ≤ 2 → |rnd (a * b) - a * b| ≤ 4 * u := by
    intro a b ha hb
    have h1 := r.err (a * b)
    have h2 := mul_le_mul_of_nonneg_left (q a b ha hb) hu
    linarith
  have h1 := p _ _ ly kx
  have h2 := p _ _ lx ky
  have h3 := abs_sub (rnd (l.dir.y * k.dir.x) - l.dir.y * k.dir.x) (rnd (l.dir.x * k.dir.y) - l.dir.x * k.dir.y)
  have h4 := abs_sub (l.dir.y * k.dir.x) (l.dir.x * k.dir.y)
  have h5 := q _ _ ly kx
  have h6 := q _ _ lx ky
  unfold Ln.denominator dirCross
  refine r.near_le (E := 8 * u) (V := 8) ?_ (by linarith) (by linarith)
  rw [sub_sub_sub_comm]
  linarith

/-- One coordinate of the result -/
theorem hit_near (r : RelErr rnd u) {c d na B : ℚ} (hc : |c| ≤ B) (hd : |d| ≤ 2) :
    |rnd (c + rnd (d * na)) - (c + d * na)| ≤ u * (B + 5 * |na|) := by
  have hu := r.nonneg
  have hN := abs_nonneg na
  have huN := mul_nonneg hu hN
  have huu := mul_le_mul_of_nonneg_right r.small huN
  have h1 : |d * na| ≤ 2 * |na| := by
    rw [abs_mul]
    exact mul_le_mul_of_nonneg_right hd hN
  have h2 := r.err (d * na)
  have h3 := mul_le_mul_of_nonneg_left h1 hu
  have h4 := abs_add_le c (d * na)
  refine r.near_le (E := 2 * u * |na|) (V := B + 2 * |na|) ?_ (by linarith) (by linarith)
  rw [add_sub_add_left_eq_sub]
  linarith

theorem mul_err {d e E : ℚ} (hd : |d| ≤ 2) (he : |e| ≤ E) : |d * e| ≤ 2 * E := by
  rw [abs_mul]
  exact mul_le_mul hd he (abs_nonneg _) (by norm_num)

/-- The computed distance is near the value of the equation of the line. -/
theorem distance_le (r : RelErr rnd u) {l : Ln} {p : Pt} {B C : ℚ} (h : Moderate l p B)
    (hc : |l.dir.y * (p.x - l.pos.x) + l.dir.x * (l.pos.y - p.y)| ≤ C) : l.distance rnd p ≤ C + 40 * u * B := by
  have h1 := r.sum l.dir.y p.x l.pos.x l.dir.x l.pos.y p.y
  have h2 := prod_le h.dirY (diff_le h.x h.posX)
  have h3 := prod_le h.dirX (diff_le h.posY h.y)
  have h4 := mul_le_mul_of_nonneg_left (add_le_add h2 h3) (by linarith [r.nonneg] : 0 ≤ 5 * u)
  rw [distance_abs]
  have h5 := abs_sub_abs_le_abs_sub (rnd (rnd (l.dir.y * rnd (p.x - l.pos.x)) + rnd (l.dir.x * rnd (l.pos.y - p.y))))
    (l.dir.y * (p.x - l.pos.x) + l.dir.x * (l.pos.y - p.y))
  linarith

/-- **C177** The intersection point is on both lines up to 150 and 300 rounding errors of the greatest coordinate, the point's own ones included. -/
theorem C177_intersection (r : RelErr rnd u) {limit : ℚ} (hlim : 0 < limit) {l k : Ln} {p : Pt} {B : ℚ} (hl : Moderate l p B) (hk : Moderate k p B)
    (hN : 1 / 2 ≤ sqLen l) (h : l.intersection rnd limit k = some p) : l.distance rnd p ≤ 150 * u * B ∧ k.distance rnd p ≤ 300 * u * B := by
  have hu := r.nonneg
  have hB := hl.nonneg
  have huB := mul_nonneg hu hB
  have huuB := mul_le_mul_of_nonneg_right r.small huB
  unfold Ln.intersection at h
  split at h
  · cases h
  rename_i hne
  have hden : l.denominator rnd k ≠ 0 := by
    intro e
    apply hne
    unfold isNear
    rw [e, sub_zero, r.zero, abs_zero, decide_eq_true_eq]
    exact hlim
  have hp := Option.some.inj h
  simp only [Pt.sub] at hp
  have hnum := r.minus k.dir.y l.pos.x k.pos.x k.dir.x l.pos.y k.pos.y
  have n2 := prod_le hk.dirY (diff_le hl.posX hk.posX)
  have n3 := prod_le hk.dirX (diff_le hl.posY hk.posY)
  have n4 := mul_le_mul_of_nonneg_left (add_le_add n2 n3) (by linarith : 0 ≤ 5 * u)
  have n5 : |k.dir.y * (l.pos.x - k.pos.x) - k.dir.x * (l.pos.y - k.pos.y)| ≤ 8 * B := by
    have := abs_sub (k.dir.y * (l.pos.x - k.pos.x)) (k.dir.x * (l.pos.y - k.pos.y))
    rw [abs_mul, abs_mul] at this
    linarith
  have hdn := denominator_near r hl.dirX hl.dirY hk.dirX hk.dirY
  generalize rnd (rnd (k.dir.y * rnd (l.pos.x - k.pos.x)) - rnd (k.dir.x * rnd (l.pos.y - k.pos.y))) = num at *
  generalize l.denominator rnd k = den at *
  have hna := r.err (num / den)
  generalize rnd (num / den) = na at *
  -- the quotient times the denominator
  have hq : |na * den - num| ≤ 9 * u * B := by
    have e : na * den - num = (na - num / den) * den := by
      field_simp
    rw [e, abs_mul]
    have h1 := mul_le_mul_of_nonneg_right hna (abs_nonneg den)
    rw [mul_assoc u, ← abs_mul (num / den), div_mul_cancel₀ num hden] at h1
    have h2 : |num| ≤ 9 * B := by
      have := abs_add_le (num - (k.dir.y * (l.pos.x - k.pos.x) - k.dir.x * (l.pos.y - k.pos.y)))
        (k.dir.y * (l.pos.x - k.pos.x) - k.dir.x * (l.pos.y - k.pos.y))
      rw [sub_add_cancel] at this
      have := mul_le_mul_of_nonneg_right r.small hB
      linarith
    have h3 := mul_le_mul_of_nonneg_left h2 hu
    linarith
  have hx := hit_near r (na := na) hl.posX hl.dirX
  have hy := hit_near r (na := na) hl.posY hl.dirY
  have px : p.x = rnd (l.pos.x + rnd (l.dir.x * na)) := by rw [← hp]; rfl
  have py : p.y = rnd (l.pos.y + rnd (l.dir.y * na)) := by rw [← hp]; rfl
  rw [← px] at hx
  rw [← py] at hy
  -- the size of the parameter
  have hsize : |na| ≤ 5 * B := by
    have key : ∀ d c z : ℚ, 1 / 2 ≤ |d| → |c| ≤ B → |z| ≤ B → |z - (c + d * na)| ≤ u * (B + 5 * |na|) → |na| ≤ 5 * B := by
      intro d c z hd hc hz hh
      have h1 := mul_le_mul_of_nonneg_right hd (abs_nonneg na)
      rw [← abs_mul] at h1
      have h2 := abs_sub (z - c) (z - (c + d * na))
      rw [show z - c - (z - (c + d * na)) = d * na by ring] at h2
      have h3 := diff_le hz hc
      have h4 := mul_le_mul_of_nonneg_right r.small (by positivity : 0 ≤ B + 5 * |na|)
      linarith
    by_cases hd : 1 / 2 ≤ |l.dir.x|
    · exact key _ _ _ hd hl.posX hl.x hx
    · refine key _ _ _ ?_ hl.posY hl.y hy
      by_contra hd2
      have a1 := mul_lt_mul'' (not_le.1 hd) (not_le.1 hd) (abs_nonneg _) (abs_nonneg _)
      have a2 := mul_lt_mul'' (not_le.1 hd2) (not_le.1 hd2) (abs_nonneg _) (abs_nonneg _)
      rw [abs_mul_abs_self] at a1 a2
      unfold sqLen at hN
      linarith
  have huN := mul_le_mul_of_nonneg_left hsize hu
  have hx' : |p.x - (l.pos.x + l.dir.x * na)| ≤ 26 * u * B := by linarith
  have hy' : |p.y - (l.pos.y + l.dir.y * na)| ≤ 26 * u * B := by linarith
  constructor
  · have := distance_le r (C := 104 * u * B) hl (by
      rw [show l.dir.y * (p.x - l.pos.x) + l.dir.x * (l.pos.y - p.y)
        = l.dir.y * (p.x - (l.pos.x + l.dir.x * na)) - l.dir.x * (p.y - (l.pos.y + l.dir.y * na)) by ring]
      have h1 := abs_sub (l.dir.y * (p.x - (l.pos.x + l.dir.x * na))) (l.dir.x * (p.y - (l.pos.y + l.dir.y * na)))
      have h2 := mul_err hl.dirY hx'
      have h3 := mul_err hl.dirX hy'
      linarith)
    linarith
  · have := distance_le r (C := 238 * u * B) hk (by
      rw [show k.dir.y * (p.x - k.pos.x) + k.dir.x * (k.pos.y - p.y)
        = (k.dir.y * (p.x - (l.pos.x + l.dir.x * na)) - k.dir.x * (p.y - (l.pos.y + l.dir.y * na)))
          - (num - (k.dir.y * (l.pos.x - k.pos.x) - k.dir.x * (l.pos.y - k.pos.y))) - (na * den - num) + na * (den - dirCross l k) by
          unfold dirCross
          ring]
      have h1 := abs_sub (k.dir.y * (p.x - (l.pos.x + l.dir.x * na))) (k.dir.x * (p.y - (l.pos.y + l.dir.y * na)))
      have h2 := mul_err hk.dirY hx'
      have h3 := mul_err hk.dirX hy'
      have h4 : |na * (den - dirCross l k)| ≤ 85 * u * B := by
        rw [abs_mul]
        have := mul_le_mul hsize hdn (abs_nonneg _) (by linarith)
        linarith
      refine le_trans (abs_add_le _ _) ?_
      have h5 := abs_sub (k.dir.y * (p.x - (l.pos.x + l.dir.x * na)) - k.dir.x * (p.y - (l.pos.y + l.dir.y * na))
          - (num - (k.dir.y * (l.pos.x - k.pos.x) - k.dir.x * (l.pos.y - k.pos.y)))) (na * den - num)
      have h6 := abs_sub (k.dir.y * (p.x - (l.pos.x + l.dir.x * na)) - k.dir.x * (p.y - (l.pos.y + l.dir.y * na)))
          (num - (k.dir.y * (l.pos.x - k.pos.x) - k.dir.x * (l.pos.y - k.pos.y)))
      linarith)
    linarith

/-- **C177** There is no intersection point exactly for the lines called parallel, and these have directions with a small sine of the angle between them;
    others do not. -/
theorem C177_parallel (r : RelErr rnd u) {limit : ℚ} (hlim : 0 < limit) {l k : Ln} (lx : |l.dir.x| ≤ 2) (ly : |l.dir.y| ≤ 2) (kx : |k.dir.x| ≤ 2)
    (ky : |k.dir.y| ≤ 2) : (l.intersection rnd limit k = none ↔ l.isParallel rnd limit k = true)
      ∧ (l.isParallel rnd limit k = true → |dirCross l k| ≤ 2 * limit + 17 * u) ∧ (l.isParallel rnd limit k = false → limit / 2 - 17 * u ≤ |dirCross l k|) := by
  have hdn := denominator_near r lx ly kx ky
  have e1 := r.err (l.denominator rnd k)
  have e4 := mul_le_mul_of_nonneg_right r.small (abs_nonneg (l.denominator rnd k))
  have e5 := abs_sub_abs_le_abs_sub (rnd (l.denominator rnd k)) (l.denominator rnd k)
  have e6 := abs_sub_abs_le_abs_sub (l.denominator rnd k) (rnd (l.denominator rnd k))
  rw [abs_sub_comm] at e6
  have e7 := abs_sub_abs_le_abs_sub (l.denominator rnd k) (dirCross l k)
  have e8 := abs_sub_abs_le_abs_sub (dirCross l k) (l.denominator rnd k)
  rw [abs_sub_comm] at e8
  unfold Ln.intersection Ln.isParallel isNear
  rw [sub_zero]
  refine ⟨?_, fun h => ?_, fun h => ?_⟩
  · split <;> simp_all
  · rw [decide_eq_true_eq] at h
    linarith
  · rw [decide_eq_false_iff_not, not_lt] at h
    linarith

/-! ### The best fitting line -/

/-- The direction is turned into a unit vector at the end. -/
theorem fit_unit {rnd : ℚ → ℚ} {unit : ℚ → ℚ → Pt} {l : List Pt} {m d : Pt} (h : bestFittingLine rnd (fun y x => ⟨y, x⟩) l = ⟨m, d⟩)
    (hl : 2 ≤ l.length := by decide) : bestFittingLine rnd unit l = ⟨m, unit d.x d.y⟩ := by
  unfold bestFittingLine at *
  rw [if_neg (not_lt.2 hl)] at *
  simp only [Ln.mk.injEq] at h
  obtain ⟨h1, h2⟩ := h
  subst h1 h2
  rfl

/-- **C177** Two points of the line `y = x`, one pixel apart: in double precision the best fitting line is horizontal, half a pixel away
    from both.  Cosine and sine of `atan2( 0, 0 )` are one and zero. -/
theorem C177_fit_wrong (unit : ℚ → ℚ → Pt) (h0 : unit 0 0 = ⟨1, 0⟩) :
    bestFittingLine double unit [⟨100000000, 100000000⟩, ⟨100000001, 100000001⟩] = ⟨⟨200000001 / 2, 200000001 / 2⟩, ⟨1, 0⟩⟩
      ∧ (bestFittingLine double unit [⟨100000000, 100000000⟩, ⟨100000001, 100000001⟩]).distance double ⟨100000000, 100000000⟩ = 1 / 2 := by
  have e : bestFittingLine double unit [⟨100000000, 100000000⟩, ⟨100000001, 100000001⟩] = ⟨⟨200000001 / 2, 200000001 / 2⟩, unit 0 0⟩ := by
    have k : bestFittingLine double (fun y x => ⟨y, x⟩) [⟨100000000, 100000000⟩, ⟨100000001, 100000001⟩]
        = ⟨⟨200000001 / 2, 200000001 / 2⟩, ⟨0, 0⟩⟩ := by decide +kernel
    exact fit_unit k
  rw [e, h0]
  exact ⟨rfl, by decide +kernel⟩

/-- **C177** In single precision this happens at coordinates of ordinary images. -/
theorem C177_fit_single_wrong (unit : ℚ → ℚ → Pt) (h0 : unit 0 0 = ⟨1, 0⟩) :
    bestFittingLine single unit [⟨5000, 5000⟩, ⟨5001, 5001⟩] = ⟨⟨10001 / 2, 10001 / 2⟩, ⟨1, 0⟩⟩
      ∧ (bestFittingLine single unit [⟨5000, 5000⟩, ⟨5001, 5001⟩]).distance single ⟨5000, 5000⟩ = 1 / 2 := by
  have e : bestFittingLine single unit [⟨5000, 5000⟩, ⟨5001, 5001⟩] = ⟨⟨10001 / 2, 10001 / 2⟩, unit 0 0⟩ := by
    have k : bestFittingLine single (fun y x => ⟨y, x⟩) [⟨5000, 5000⟩, ⟨5001, 5001⟩] = ⟨⟨10001 / 2, 10001 / 2⟩, ⟨0, 0⟩⟩ := by decide +kernel
    exact fit_unit k
  rw [e, h0]
  exact ⟨rfl, by decide +kernel⟩

/-- In exact arithmetic the direction of the same points is that of the line. -/
example : bestFittingLine (fun x => x) (fun y x => ⟨x, y⟩) [⟨100000000, 100000000⟩, ⟨100000001, 100000001⟩]
    = ⟨⟨200000001 / 2, 200000001 / 2⟩, ⟨1 / 4, 1 / 4⟩⟩ := by decide +kernel

/-- The limits of the code are about 1e-8 and 1e-4. -/
example : 0 < limitDouble ∧ |limitDouble - 1 / 10 ^ 8| < 1 / 10 ^ 20 ∧ 0 < limitFloat ∧ |limitFloat - 1 / 10 ^ 4| < 1 / 10 ^ 10 := by decide +kernel

/-- Two lines which meet, with rounded directions; the exact point is (37/25, 66/25). -/
example : ((Ln.mk ⟨1, 2⟩ ⟨double (3 / 5), double (4 / 5)⟩).intersection double limitDouble ⟨⟨5, 0⟩, ⟨double (-4 / 5), double (3 / 5)⟩⟩).isSome = true := by
  decide +kernel

/-- A line with direction (3/5, 4/5), rounded: the distance of a point. -/
example : Moderate ⟨⟨1, 2⟩, ⟨double (3 / 5), double (4 / 5)⟩⟩ ⟨10, -7⟩ 10 := by
  constructor <;> decide +kernel

example : (Ln.mk ⟨1, 2⟩ ⟨double (3 / 5), double (4 / 5)⟩).distance double ⟨10, -7⟩ ≠ 63 / 5 := by decide +kernel

end PV.Props
