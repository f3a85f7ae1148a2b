import Verif.Points
import Mathlib.Tactic.FieldSimp
/-
  C163: points and angles.
-/
namespace PV.Props

open PV PV.Points

/-! ### Comparison -/

/-- **C163**: a point equals itself, for every rounding. -/
theorem C163_self {rnd : ℚ → ℚ} (r : Rounding rnd) {eps : ℚ} (he : 0 < eps) (p : P3 ℚ) :
    p.toP2.eq (real rnd eps) p.toP2 = true ∧ p.eq (real rnd eps) p = true := by
  have h0 : rnd 0 = 0 := by simpa using r.int 0 (by norm_num)
  simp [P2.eq, P3.eq, real, h0, he]

theorem rne_neg (q : ℚ) : rne (-q) = -rne q := by
  have h1 := Int.floor_le q
  have h2 := Int.lt_floor_add_one q
  by_cases hq : q = ⌊q⌋
  · rw [hq, rne_int, show -((⌊q⌋ : ℤ) : ℚ) = ((-⌊q⌋ : ℤ) : ℚ) by push_cast; rfl, rne_int]
  · have hlt : (⌊q⌋ : ℚ) < q := lt_of_le_of_ne h1 (Ne.symm hq)
    have hf : ⌊-q⌋ = -⌊q⌋ - 1 := by
      rw [Int.floor_eq_iff]
      push_cast
      constructor <;> linarith
    unfold rne
    rw [hf]
    push_cast
    by_cases a1 : q - ⌊q⌋ < 1 / 2
    · rw [if_pos a1, if_neg (by linarith), if_pos (by linarith)]
      omega
    · rw [if_neg a1]
      by_cases a2 : 1 / 2 < q - ⌊q⌋
      · rw [if_pos a2, if_pos (by linarith)]
        omega
      · rw [if_neg a2, if_neg (by linarith), if_neg (by linarith)]
        split <;> split <;> omega

theorem double_neg (a : ℚ) : double (-a) = -double a := by
  unfold double
  rw [abs_neg, neg_div, rne_neg]
  push_cast
  ring

/-- **C163**: with rounding to the nearest number it does not matter which point is on the left. -/
theorem C163_symmetric (eps : ℚ) (p q : P3 ℚ) : p.toP2.eq (real double eps) q.toP2 = q.toP2.eq (real double eps) p.toP2 ∧
    p.eq (real double eps) q = q.eq (real double eps) p := by
  have h : ∀ a b : ℚ, |double (a - b)| = |double (b - a)| := fun a b => by
    rw [show b - a = -(a - b) by ring, double_neg, abs_neg]
  constructor
  · simp only [P2.eq, real, h p.x q.x, h p.y q.y]
  · simp only [P3.eq, P2.eq, real, h p.x q.x, h p.y q.y, h p.z q.z]

/-- **C163**: points whose coordinates are nearer than the tolerance (but for rounding) are equal, equal points are that near. -/
theorem C163_near {rnd : ℚ → ℚ} (r : Rounding rnd) {eps : ℚ} (he : 0 < eps) (p q : P3 ℚ) :
    (|p.x - q.x| * (1 + 1 / 2 ^ 52) < eps → |p.y - q.y| * (1 + 1 / 2 ^ 52) < eps → p.toP2.eq (real rnd eps) q.toP2 = true) ∧
      (p.toP2.eq (real rnd eps) q.toP2 = true → |p.x - q.x| * (1 - 1 / 2 ^ 52) < eps ∧ |p.y - q.y| * (1 - 1 / 2 ^ 52) < eps) ∧
      (p.eq (real rnd eps) q = true ↔ p.toP2.eq (real rnd eps) q.toP2 = true ∧ (real rnd eps).eq p.z q.z = true) := by
  have near : ∀ a : ℚ, |a| * (1 + 1 / 2 ^ 52) < eps → |rnd a| < eps := fun a h => by
    have e := r.err a
    have : |rnd a| ≤ |rnd a - a| + |a| := by simpa using abs_add_le (rnd a - a) a
    linarith
  have far : ∀ a : ℚ, |rnd a| < eps → |a| * (1 - 1 / 2 ^ 52) < eps := fun a h => by
    have e := r.err a
    have : |a| ≤ |rnd a - a| + |rnd a| := by
      have := abs_add_le (a - rnd a) (rnd a)
      rw [abs_sub_comm] at this
      simpa using this
    linarith
  refine ⟨fun h1 h2 => ?_, fun h => ?_, ?_⟩
  · simp only [P2.eq, real, Bool.and_eq_true, decide_eq_true_eq]
    exact ⟨near _ h1, near _ h2⟩
  · simp only [P2.eq, real, Bool.and_eq_true, decide_eq_true_eq] at h
    exact ⟨far _ h.1, far _ h.2⟩
  · simp only [P3.eq, Bool.and_eq_true]

/-- **C163**: for `uint32_t` equal points are the same points. -/
theorem C163_exact (p q : P3 UInt32) : (p.toP2.eq uint32 q.toP2 = true ↔ p.toP2 = q.toP2) ∧ (p.eq uint32 q = true ↔ p = q) := by
  constructor
  · simp only [P2.eq, uint32, Bool.and_eq_true, beq_iff_eq]
    exact P2.ext_iff.symm
  · simp only [P3.eq, P2.eq, uint32, Bool.and_eq_true, beq_iff_eq]
    rw [P3.ext_iff]
    tauto

/-- **C163** is false for equality of floating-point points: it is not transitive. -/
theorem C163_transitive_wrong {rnd : ℚ → ℚ} (r : Rounding rnd) {eps : ℚ} (h1 : 9 / 10 ^ 10 < eps) (h2 : eps < 11 / 10 ^ 10) :
    ∃ a b c : P2 ℚ, a.eq (real rnd eps) b = true ∧ b.eq (real rnd eps) c = true ∧ a.eq (real rnd eps) c = false := by
  have near := fun a b c : ℚ => (C163_near r (eps := eps) (by linarith) ⟨⟨a, 0⟩, 0⟩ ⟨⟨b, 0⟩, c⟩)
  refine ⟨⟨0, 0⟩, ⟨7 / 10 ^ 10, 0⟩, ⟨14 / 10 ^ 10, 0⟩, (near 0 (7 / 10 ^ 10) 0).1 ?_ ?_, (near (7 / 10 ^ 10) (14 / 10 ^ 10) 0).1 ?_ ?_, ?_⟩
  · norm_num [abs_of_nonneg]
    linarith
  · norm_num
    linarith
  · norm_num [abs_of_nonneg]
    linarith
  · norm_num
    linarith
  · rw [← Bool.not_eq_true]
    intro h
    have := ((near 0 (14 / 10 ^ 10) 0).2.1 h).1
    norm_num [abs_of_nonneg] at this
    linarith

/-- **C163**: of `p == q` and `p != q` exactly one holds for 2D points; for 3D points exactly when they do not differ in the third
    coordinate alone. -/
theorem C163_opposite_exact {T : Type} (k : Kind T) (p q : P3 T) :
    (p.toP2.ne k q.toP2 = true ↔ ¬ p.toP2.eq k q.toP2 = true) ∧
      ((p.ne k q = true ↔ ¬ p.eq k q = true) ↔ (p.toP2.eq k q.toP2 = true → k.eq p.z q.z = true)) := by
  simp only [P3.ne, P2.ne, P3.eq]
  cases p.toP2.eq k q.toP2 <;> cases k.eq p.z q.z <;> decide

/-- **C163** is false for 3D points: two of them can be neither `==` nor `!=`. -/
theorem C163_opposite_wrong : ∃ p q : P3 UInt32, p.eq uint32 q = false ∧ p.ne uint32 q = false :=
  ⟨⟨⟨1, 2⟩, 3⟩, ⟨⟨1, 2⟩, 4⟩, by decide, by decide⟩

/-! ### Addition and subtraction -/

/-- What the calls add to a coordinate. -/
def gain {T : Type} (c : P3 T → ℤ) : List (Step T) → ℤ
  | [] => 0
  | .plus q :: l => c q + gain c l
  | .minus q :: l => -c q + gain c l

/-- **C163**: after any history of `+=` and `-=` a point of `uint32_t` has the sums modulo 2^32 as coordinates. -/
theorem C163_history (steps : List (Step UInt32)) (p : P3 UInt32) :
    ((run uint32 steps p).x.toNat : ℤ) = (p.x.toNat + gain (fun q => q.x.toNat) steps) % 2 ^ 32 ∧
      ((run uint32 steps p).y.toNat : ℤ) = (p.y.toNat + gain (fun q => q.y.toNat) steps) % 2 ^ 32 ∧
      ((run uint32 steps p).z.toNat : ℤ) = (p.z.toNat + gain (fun q => q.z.toNat) steps) % 2 ^ 32 := by
  induction steps generalizing p with
  | nil =>
    have hx := p.x.toNat_lt
    have hy := p.y.toNat_lt
    have hz := p.z.toNat_lt
    simp only [run, List.foldl_nil, gain]
    omega
  | cons s l ih =>
    have h := ih (s.exec uint32 p)
    rw [show run uint32 (s :: l) p = run uint32 l (s.exec uint32 p) from rfl]
    obtain ⟨h1, h2, h3⟩ := h
    rw [h1, h2, h3]
    cases s with
    | plus q =>
      simp only [Step.exec, P3.addAssign, P2.addAssign, uint32, gain, UInt32.toNat_add]
      omega
    | minus q =>
      have hx := q.x.toNat_lt
      have hy := q.y.toNat_lt
      have hz := q.z.toNat_lt
      simp only [Step.exec, P3.subAssign, P2.subAssign, uint32, gain, UInt32.toNat_sub]
      omega

/-- **C163**: the order of the calls does not matter for `uint32_t`, and `-=` undoes `+=`. -/
theorem C163_order {steps steps' : List (Step UInt32)} (h : steps.Perm steps') (p q : P3 UInt32) :
    run uint32 steps p = run uint32 steps' p ∧ run uint32 (.plus q :: (steps ++ [.minus q])) p = run uint32 steps p := by
  have perm : ∀ (c : P3 UInt32 → ℤ), gain c steps = gain c steps' := fun c => by
    induction h with
    | nil => rfl
    | cons s _ ih => cases s <;> simp only [gain, ih]
    | swap s t l => cases s <;> cases t <;> simp only [gain] <;> ring
    | trans _ _ ih1 ih2 => exact ih1.trans ih2
  have app : ∀ (c : P3 UInt32 → ℤ) (l : List (Step UInt32)), gain c (.plus q :: (l ++ [.minus q])) = gain c l := fun c l => by
    simp only [gain]
    induction l with
    | nil => simp [gain]
    | cons s l ih => cases s <;> simp only [List.cons_append, gain] <;> linarith
  have ext : ∀ {a b : P3 UInt32}, (a.x.toNat : ℤ) = b.x.toNat → (a.y.toNat : ℤ) = b.y.toNat → (a.z.toNat : ℤ) = b.z.toNat → a = b := by
    intro a b h1 h2 h3
    exact P3.ext (UInt32.toNat_inj.mp (by exact_mod_cast h1)) (UInt32.toNat_inj.mp (by exact_mod_cast h2))
      (UInt32.toNat_inj.mp (by exact_mod_cast h3))
  obtain ⟨a1, a2, a3⟩ := C163_history steps p
  obtain ⟨b1, b2, b3⟩ := C163_history steps' p
  obtain ⟨c1, c2, c3⟩ := C163_history (.plus q :: (steps ++ [.minus q])) p
  constructor
  · exact ext (by rw [a1, b1, perm]) (by rw [a2, b2, perm]) (by rw [a3, b3, perm])
  · exact ext (by rw [a1, c1, app]) (by rw [a2, c2, app]) (by rw [a3, c3, app])

/-- One coordinate of floating-point points with whole coordinates. -/
theorem whole_step {rnd : ℚ → ℚ} (r : Rounding rnd) {a b : ℤ} (h : |a| + |b| < 2 ^ 53) :
    rnd ((a : ℚ) + b) = ((a + b : ℤ) : ℚ) ∧ rnd ((a : ℚ) - b) = ((a - b : ℤ) : ℚ) := by
  have h1 := abs_add_le a b
  have h2 := abs_sub a b
  constructor
  · rw [← r.int (a + b) (by omega)]
    push_cast
    rfl
  · rw [← r.int (a - b) (by omega)]
    push_cast
    rfl

/-- A 3D point with whole coordinates -/
def whole3 (a b c : ℤ) : P3 ℚ := ⟨⟨a, b⟩, c⟩

/-- Calls with whole coordinates -/
def wholeSteps : List (Bool × ℤ × ℤ × ℤ) → List (Step ℚ)
  | [] => []
  | (s, a, b, c) :: l => (if s then .plus (whole3 a b c) else .minus (whole3 a b c)) :: wholeSteps l

/-- What signed numbers come to. -/
def sumSigned : List (Bool × ℤ) → ℤ
  | [] => 0
  | (s, a) :: l => (if s then a else -a) + sumSigned l

def sumAbs : List (Bool × ℤ) → ℤ
  | [] => 0
  | (_, a) :: l => |a| + sumAbs l

theorem sumAbs_nonneg (l : List (Bool × ℤ)) : 0 ≤ sumAbs l := by
  induction l with
  | nil => exact le_refl _
  | cons s l ih =>
    obtain ⟨s, a⟩ := s
    simp only [sumAbs]
    positivity

/-- **C163, partial.**  Floating-point points with whole coordinates are added and subtracted exactly by any history of calls, while
    all numbers together are smaller than 2^53.  Missing: other numbers, for which the property is false. -/
theorem C163_whole_partial {rnd : ℚ → ℚ} (r : Rounding rnd) (eps : ℚ) (steps : List (Bool × ℤ × ℤ × ℤ)) (a b c : ℤ)
    (hx : |a| + sumAbs (steps.map fun s => (s.1, s.2.1)) < 2 ^ 53)
    (hy : |b| + sumAbs (steps.map fun s => (s.1, s.2.2.1)) < 2 ^ 53)
    (hz : |c| + sumAbs (steps.map fun s => (s.1, s.2.2.2)) < 2 ^ 53) :
    run (real rnd eps) (wholeSteps steps) (whole3 a b c)
      = whole3 (a + sumSigned (steps.map fun s => (s.1, s.2.1))) (b + sumSigned (steps.map fun s => (s.1, s.2.2.1)))
        (c + sumSigned (steps.map fun s => (s.1, s.2.2.2))) := by
  induction steps generalizing a b c with
  | nil => simp [wholeSteps, run, sumSigned]
  | cons s l ih =>
    obtain ⟨s, a', b', c'⟩ := s
    simp only [List.map_cons, sumAbs, sumSigned] at hx hy hz ⊢
    have nx := sumAbs_nonneg (l.map fun s => (s.1, s.2.1))
    have ny := sumAbs_nonneg (l.map fun s => (s.1, s.2.2.1))
    have nz := sumAbs_nonneg (l.map fun s => (s.1, s.2.2.2))
    have wx := whole_step r (a := a) (b := a') (by linarith)
    have wy := whole_step r (a := b) (b := b') (by linarith)
    have wz := whole_step r (a := c) (b := c') (by linarith)
    have tri : ∀ u v : ℤ, |u + v| ≤ |u| + |v| ∧ |u - v| ≤ |u| + |v| := fun u v => ⟨abs_add_le u v, abs_sub u v⟩
    cases s
    · rw [show run (real rnd eps) (wholeSteps ((false, a', b', c') :: l)) (whole3 a b c)
          = run (real rnd eps) (wholeSteps l) (whole3 (a - a') (b - b') (c - c')) by
        show run _ _ (Step.exec _ _ _) = _
        simp only [Step.exec, P3.subAssign, P2.subAssign, real, whole3, Bool.false_eq_true, ↓reduceIte, wx.2, wy.2, wz.2]]
      rw [ih _ _ _ (by linarith [(tri a a').2]) (by linarith [(tri b b').2]) (by linarith [(tri c c').2])]
      simp only [Bool.false_eq_true, ↓reduceIte]
      congr 1 <;> ring
    · rw [show run (real rnd eps) (wholeSteps ((true, a', b', c') :: l)) (whole3 a b c)
          = run (real rnd eps) (wholeSteps l) (whole3 (a + a') (b + b') (c + c')) by
        show run _ _ (Step.exec _ _ _) = _
        simp only [Step.exec, P3.addAssign, P2.addAssign, real, whole3, ↓reduceIte, wx.1, wy.1, wz.1]]
      rw [ih _ _ _ (by linarith [(tri a a').1]) (by linarith [(tri b b').1]) (by linarith [(tri c c').1])]
      simp only [↓reduceIte]
      congr 1 <;> ring

example : run (real double (1 / 10 ^ 9)) (wholeSteps [(true, 5, 7, 2 ^ 40), (false, 9, 9, 1)]) (whole3 1 2 3)
    = whole3 (-3) 0 (2 ^ 40 + 2) := by
  rw [C163_whole_partial Rounding.double]
  · simp [sumSigned]
  · simp [sumAbs]
  · simp [sumAbs]
  · simp [sumAbs]

/-- **C163** is false for other floating-point numbers: `-=` does not undo `+=`. -/
theorem C163_undo_wrong : ∃ p q : P3 ℚ, run (real double (1 / 10 ^ 9)) [.plus q, .minus q] p ≠ p ∧
    (run (real double (1 / 10 ^ 9)) [.plus q, .minus q] p).eq (real double (1 / 10 ^ 9)) p = false :=
  ⟨⟨⟨1, 0⟩, 0⟩, ⟨⟨2 ^ 53, 0⟩, 0⟩, by decide +kernel, by decide +kernel⟩

/-- **C163**: `a += b` and `a -= b` leave in `a` what `a + b` and `a - b` return; the factor of a point can be on either side. -/
theorem C163_operators {T S : Type} (k : Kind T) (cast : S → T) (v : S) (p q : P3 T) :
    p.addAssign k q = p.add k q ∧ p.subAssign k q = p.sub k q ∧
      (p.add k q).toP2 = p.toP2.add k q.toP2 ∧ (p.sub k q).toP2 = p.toP2.sub k q.toP2 ∧
      p.toP2.addAssign k q.toP2 = p.toP2.add k q.toP2 ∧ p.toP2.subAssign k q.toP2 = p.toP2.sub k q.toP2 ∧
      scale k cast v p.toP2 = p.toP2.times k (cast v) :=
  ⟨rfl, rfl, rfl, rfl, rfl, rfl, rfl⟩

/-- **C163**: multiplication by a number distributes over addition for `uint32_t`. -/
theorem C163_times (v : UInt32) (p q : P2 UInt32) :
    (p.add uint32 q).times uint32 v = (p.times uint32 v).add uint32 (q.times uint32 v) ∧
      (p.sub uint32 q).times uint32 v = (p.times uint32 v).sub uint32 (q.times uint32 v) := by
  constructor <;> apply P2.ext <;> simp only [P2.add, P2.sub, P2.times, uint32]
  · exact UInt32.mul_add
  · exact UInt32.mul_add
  · exact UInt32.mul_sub
  · exact UInt32.mul_sub

/-! ### Angles -/

/-- Rounding multiplies by a number near 1. -/
theorem rounding_factor {rnd : ℚ → ℚ} (r : Rounding rnd) (a : ℚ) : ∃ e : ℚ, |e| ≤ 1 / 2 ^ 52 ∧ rnd a = a * (1 + e) := by
  by_cases h : a = 0
  · subst h
    exact ⟨0, by norm_num, by simpa using r.int 0 (by norm_num)⟩
  · refine ⟨(rnd a - a) / a, ?_, by field_simp; ring⟩
    rw [abs_div, div_le_iff₀ (abs_pos.mpr h)]
    have := r.err a
    linarith

theorem factors {e1 e2 e3 e4 : ℚ} (h1 : |e1| ≤ 1 / 2 ^ 52) (h2 : |e2| ≤ 1 / 2 ^ 52) (h3 : |e3| ≤ 1 / 2 ^ 52) (h4 : |e4| ≤ 1 / 2 ^ 52) :
    |(1 + e1) * (1 + e2) * (1 + e3) * (1 + e4) - 1| ≤ 1 / 2 ^ 49 := by
  have two : ∀ {a b x y : ℚ}, |a| ≤ x → |b| ≤ y → x ≤ 1 → y ≤ 1 → |(1 + a) * (1 + b) - 1| ≤ x + y + x * y := by
    intro a b x y ha hb hx hy
    have e : (1 + a) * (1 + b) - 1 = a + b + a * b := by ring
    have h0 : |a * b| ≤ x * y := by
      rw [abs_mul]
      exact mul_le_mul ha hb (abs_nonneg b) ((abs_nonneg a).trans ha)
    rw [e]
    have := abs_add_le (a + b) (a * b)
    have := abs_add_le a b
    linarith
  have a := two h1 h2 (by norm_num) (by norm_num)
  have b := two h3 h4 (by norm_num) (by norm_num)
  have c := two a b (by norm_num) (by norm_num)
  have e : (1 + e1) * (1 + e2) * (1 + e3) * (1 + e4) - 1
      = (1 + ((1 + e1) * (1 + e2) - 1)) * (1 + ((1 + e3) * (1 + e4) - 1)) - 1 := by ring
  rw [e]
  refine c.trans (by norm_num)

/-- **C163**: conversion of an angle to radians and back gives the angle, to a relative error of 2^-49, and the other way round. -/
theorem C163_angles {rnd : ℚ → ℚ} (r : Rounding rnd) {pi : ℚ} (hp : 0 < pi) (a : ℚ) :
    |toDegrees rnd pi (toRadians rnd pi a) - a| ≤ |a| / 2 ^ 49 ∧ |toRadians rnd pi (toDegrees rnd pi a) - a| ≤ |a| / 2 ^ 49 := by
  have key : ∀ x e1 e2 e3 e4 : ℚ, |e1| ≤ 1 / 2 ^ 52 → |e2| ≤ 1 / 2 ^ 52 → |e3| ≤ 1 / 2 ^ 52 → |e4| ≤ 1 / 2 ^ 52 →
      x = a * ((1 + e1) * (1 + e2) * (1 + e3) * (1 + e4)) → |x - a| ≤ |a| / 2 ^ 49 := by
    intro x e1 e2 e3 e4 h1 h2 h3 h4 hx
    have := factors h1 h2 h3 h4
    rw [show x - a = a * ((1 + e1) * (1 + e2) * (1 + e3) * (1 + e4) - 1) by rw [hx]; ring, abs_mul]
    have := mul_le_mul_of_nonneg_left this (abs_nonneg a)
    linarith
  have hp' := hp.ne'
  constructor
  · obtain ⟨e1, h1, q1⟩ := rounding_factor r (a * pi)
    obtain ⟨e2, h2, q2⟩ := rounding_factor r (rnd (a * pi) / 180)
    obtain ⟨e3, h3, q3⟩ := rounding_factor r (rnd (rnd (a * pi) / 180) * 180)
    obtain ⟨e4, h4, q4⟩ := rounding_factor r (rnd (rnd (rnd (a * pi) / 180) * 180) / pi)
    refine key _ e1 e2 e3 e4 h1 h2 h3 h4 ?_
    rw [toDegrees, toRadians, q4, q3, q2, q1]
    field_simp
  · obtain ⟨e1, h1, q1⟩ := rounding_factor r (a * 180)
    obtain ⟨e2, h2, q2⟩ := rounding_factor r (rnd (a * 180) / pi)
    obtain ⟨e3, h3, q3⟩ := rounding_factor r (rnd (rnd (a * 180) / pi) * pi)
    obtain ⟨e4, h4, q4⟩ := rounding_factor r (rnd (rnd (rnd (a * 180) / pi) * pi) / 180)
    refine key _ e1 e2 e3 e4 h1 h2 h3 h4 ?_
    rw [toRadians, toDegrees, q4, q3, q2, q1]
    field_simp

/-- **C163**: the sign of an angle and the order of angles are kept. -/
theorem C163_angles_mono {rnd : ℚ → ℚ} (r : Rounding rnd) {pi : ℚ} (hp : 0 < pi) {a b : ℚ} (h : a ≤ b) :
    toRadians rnd pi a ≤ toRadians rnd pi b ∧ toDegrees rnd pi a ≤ toDegrees rnd pi b ∧
      toRadians rnd pi 0 = 0 ∧ toDegrees rnd pi 0 = 0 := by
  have h0 : rnd 0 = 0 := by simpa using r.int 0 (by norm_num)
  refine ⟨r.mono _ _ ?_, r.mono _ _ ?_, by simp [toRadians, h0], by simp [toDegrees, h0]⟩
  · have := r.mono _ _ (mul_le_mul_of_nonneg_right h hp.le)
    linarith
  · exact div_le_div_of_nonneg_right (r.mono _ _ (by linarith)) hp.le

/-- **C163**: the factor and the tolerance: a comparison with a factor of at least 1 (and without rounding of the tolerance)
    accepts what the comparison without accepts. -/
theorem C163_multiplier {rnd : ℚ → ℚ} {eps mult a b : ℚ} (hm : eps ≤ rnd (eps * mult)) (h : (real rnd eps).eq a b = true) :
    isEqualTimes rnd eps mult a b = true := by
  simp only [real, isEqualTimes, decide_eq_true_eq] at h ⊢
  linarith

example : toDegrees double (884279719003555 / 281474976710656) (toRadians double (884279719003555 / 281474976710656) 90) = 90 := by
  decide +kernel
example : (P3.eq (real double (1 / 10 ^ 9)) ⟨⟨1, 1 / 3⟩, 2⟩ ⟨⟨1, 1 / 3 + 1 / 10 ^ 10⟩, 2⟩) = true := by decide +kernel
example : isEqualTimes double (1 / 10 ^ 9) 10 1 (1 + 5 / 10 ^ 9) = true := by decide +kernel

end PV.Props
