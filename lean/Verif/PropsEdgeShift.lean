import Verif.PropsEdgeFl
/-
  C188: a change of the brightness of the whole image does not move edges.
-/
namespace PV.Props

open PV.Edge

/-- All pixels of the ROI of the second image are brighter by `c` than the ones of the first image; no pixel leaves the range of a byte. -/
structure Brighter (m m' : BMem) (v v' : View) (w h c : Nat) : Prop where
  x : v'.x = v.x
  y : v'.y = v.y
  pixel : ∀ x y, x < w → y < h → (v'.get m' x y 0).toNat = (v.get m x y 0).toNat + c

/-- Integers below 2^24 are not changed by `fl`, quotients of integers below 2^53 and powers of two are not changed by `rnd`. -/
structure Dyadic (rnd fl : ℚ → ℚ) : Prop where
  rnd : ∀ (z : ℤ) (k : ℕ), |z| < 2 ^ 53 → rnd ((z : ℚ) / 2 ^ k) = z / 2 ^ k
  fl : ∀ z : ℤ, |z| < 2 ^ 24 → fl z = z

/-- Both sides have as many pixels as a power of two and their sums are below 2^24. -/
structure EvenSides (P : Params) : Prop where
  group : 0 < P.group
  left : ∃ a : ℕ, P.left + 1 = 2 ^ a
  right : ∃ b : ℕ, P.right = 2 ^ b
  leftSum : 255 * P.group * (P.left + 1) < 2 ^ 24
  rightSum : 255 * P.group * P.right < 2 ^ 24

/-- The means of both sides of a place are not asked for or they are exact. -/
def Unrounded (rnd fl : ℚ → ℚ) (P : Params) : Prop :=
  P.left = 0 ∨ P.right = 0 ∨ (rnd = id ∧ fl = id) ∨ (Dyadic rnd fl ∧ EvenSides P)

/-- Numbers of type `double` and `float` -/
theorem double_dyadic (n : ℤ) (a : ℕ) (h : |n| < 2 ^ 53) : double ((n : ℚ) / 2 ^ a) = n / 2 ^ a := by
  by_cases h0 : n = 0
  · rw [h0, Int.cast_zero, zero_div, double_zero]
  have hpos : (0 : ℚ) < |(n : ℚ) / 2 ^ a| := abs_pos.mpr (by
    have : (n : ℚ) ≠ 0 := by exact_mod_cast h0
    exact div_ne_zero this (by positivity))
  have hlog : Int.log 2 |(n : ℚ) / 2 ^ a| < 53 - (a : ℤ) := by
    rw [← Int.lt_zpow_iff_log_lt (by norm_num) hpos]
    have h1 : ((|n| : ℤ) : ℚ) < 2 ^ 53 := by exact_mod_cast h
    push_cast at h1 ⊢
    rw [abs_div, abs_of_pos (show (0 : ℚ) < 2 ^ a by positivity), zpow_sub₀ (by norm_num), zpow_natCast]
    exact (div_lt_div_iff_of_pos_right (by positivity)).2 (by exact_mod_cast h1)
  obtain ⟨k, hk⟩ : ∃ k : ℕ, Int.log 2 |(n : ℚ) / 2 ^ a| - 52 = -((k + a : ℕ) : ℤ) := ⟨(52 - a - Int.log 2 |(n : ℚ) / 2 ^ a|).toNat, by omega⟩
  unfold double
  rw [hk, zpow_neg, zpow_natCast]
  have e : (n : ℚ) / 2 ^ a / ((2 : ℚ) ^ (k + a))⁻¹ = ((n * 2 ^ k : ℤ) : ℚ) := by
    push_cast
    rw [pow_add]
    field_simp
  rw [e, rne_int]
  push_cast
  rw [pow_add]
  field_simp

theorem dyadic_ieee : Dyadic double single := ⟨double_dyadic, Rounding24.single.int⟩

/-- The sum of some values -/
def sumZ (D : Nat → Int) (b : Nat) : Nat → Int
  | 0 => 0
  | c + 1 => sumZ D b c + D (b + c)

theorem sumZ_bound {D : Nat → Int} {B : Nat} {b n : Nat} (hD : Within n D B) : ∀ c, b + c ≤ n → 0 ≤ sumZ D b c ∧ sumZ D b c ≤ B * c
  | 0, _ => ⟨le_refl _, by simp [sumZ]⟩
  | c + 1, h => by
    obtain ⟨h1, h2⟩ := sumZ_bound (b := b) hD c (by omega)
    obtain ⟨h3, h4⟩ := hD (b + c) (by omega)
    rw [sumZ]
    push_cast
    constructor
    · omega
    · linarith

theorem sumOf_exact {fl : ℚ → ℚ} (hf : ∀ z : ℤ, |z| < 2 ^ 24 → fl z = z) {D : Nat → Int} {B : Nat} {b n : Nat} (hD : Within n D B) : ∀ c, b + c ≤ n →
    B * c < 2 ^ 24 → sumOf fl D b c = sumZ D b c
  | 0, _, _ => by simp [sumOf, sumZ]
  | c + 1, h, hB => by
    obtain ⟨h1, h2⟩ := sumZ_bound (b := b) hD (c + 1) h
    obtain ⟨h3, h4⟩ := hD (b + c) (by omega)
    have hB' : ((B : Int) * (c + 1 : Nat)) < 2 ^ 24 := by exact_mod_cast hB
    have hc : B * c ≤ B * (c + 1) := Nat.mul_le_mul_left _ (by omega)
    have hb : B ≤ B * (c + 1) := Nat.le_mul_of_pos_right _ (by omega)
    have hb' : (B : Int) < 2 ^ 24 := by exact_mod_cast (by omega : B < 2 ^ 24)
    rw [sumOf, sumOf_exact hf hD c (by omega) (by omega), hf (D (b + c)) (by rw [abs_lt]; constructor <;> omega)]
    rw [sumZ] at h1 h2 ⊢
    rw [← Int.cast_add]
    exact hf _ (by rw [abs_lt]; constructor <;> omega)

theorem contrasts_exact {rnd fl : ℚ → ℚ} (R : Dyadic rnd fl) {P : Params} (hE : EvenSides P) {n : Nat} {D : Nat → Int} (hD : Within n D (255 * P.group : Nat))
    (minC : Int) (i : Nat) : Contrasts rnd fl D minC P.left P.right i n ↔ Contrasts id id D minC P.left P.right i n := by
  obtain ⟨a, ha⟩ := hE.left
  obtain ⟨b, hb⟩ := hE.right
  have hl := hE.leftSum
  have hr := hE.rightSum
  rw [Contrasts, Contrasts]
  refine and_congr_right fun h1 => and_congr_right fun h2 => ?_
  rw [sumOf_exact R.fl hD P.right (by omega) hr, sumOf_exact R.fl hD (P.left + 1) (by omega) hl,
    sumOf_exact (fl := id) (fun _ _ => rfl) hD P.right (by omega) hr, sumOf_exact (fl := id) (fun _ _ => rfl) hD (P.left + 1) (by omega) hl]
  obtain ⟨w1, w2⟩ := sumZ_bound (b := i + 1) hD P.right (by omega)
  obtain ⟨b1, b2⟩ := sumZ_bound (b := i - P.left) hD (P.left + 1) (by omega)
  have hr' : (((255 * P.group : Nat) : Int) * (P.right : Nat)) < 2 ^ 24 := by exact_mod_cast hr
  have hl' : (((255 * P.group : Nat) : Int) * (P.left + 1 : Nat)) < 2 ^ 24 := by exact_mod_cast hl
  generalize sumZ D (i + 1) P.right = W at *
  generalize sumZ D (i - P.left) (P.left + 1) = K at *
  have hg := hE.group
  have hb24 : b < 24 := by
    refine (Nat.pow_lt_pow_iff_right (by norm_num : 1 < 2)).1 ?_
    rw [← hb]
    exact Nat.lt_of_le_of_lt (Nat.le_mul_of_pos_left _ (by omega)) hr
  have ha24 : a < 24 := by
    refine (Nat.pow_lt_pow_iff_right (by norm_num : 1 < 2)).1 ?_
    rw [← ha]
    exact Nat.lt_of_le_of_lt (Nat.le_mul_of_pos_left _ (by omega)) hl
  have ea : ((P.left : ℚ) + 1) = 2 ^ a := by exact_mod_cast ha
  have eb : (P.right : ℚ) = 2 ^ b := by exact_mod_cast hb
  simp only [id]
  rw [ea, eb, R.rnd W b (by rw [abs_lt]; constructor <;> omega), R.rnd K a (by rw [abs_lt]; constructor <;> omega)]
  have e : (W : ℚ) / 2 ^ b - (K : ℚ) / 2 ^ a = ((W * 2 ^ a - K * 2 ^ b : ℤ) : ℚ) / 2 ^ (a + b) := by
    push_cast
    rw [pow_add]
    field_simp
  rw [e, R.rnd]
  have pa : (2 : ℤ) ^ a ≤ 2 ^ 24 := pow_le_pow_right₀ (by norm_num) (by omega)
  have pb : (2 : ℤ) ^ b ≤ 2 ^ 24 := pow_le_pow_right₀ (by norm_num) (by omega)
  have pa0 : (0 : ℤ) < 2 ^ a := by positivity
  have pb0 : (0 : ℤ) < 2 ^ b := by positivity
  have q1 : W * 2 ^ a ≤ 2 ^ 24 * 2 ^ 24 := mul_le_mul (by omega) pa pa0.le (by norm_num)
  have q2 : K * 2 ^ b ≤ 2 ^ 24 * 2 ^ 24 := mul_le_mul (by omega) pb pb0.le (by norm_num)
  have q3 : 0 ≤ W * 2 ^ a := mul_nonneg w1 pa0.le
  have q4 : 0 ≤ K * 2 ^ b := mul_nonneg b1 pb0.le
  rw [abs_lt]
  constructor <;> linarith

theorem sumOf_shift (D : Nat → Int) (c : Int) (b : Nat) : ∀ k, sumOf id (fun j => D j + c) b k = sumOf id D b k + k * c
  | 0 => by simp [sumOf]
  | k + 1 => by
    rw [sumOf, sumOf, sumOf_shift D c b k]
    simp only [id]
    push_cast
    ring

theorem contrasts_shift (D : Nat → Int) (c minC : Int) (left right pos n : Nat) (hr : 0 < right) :
    Contrasts id id (fun j => D j + c) minC left right pos n ↔ Contrasts id id D minC left right pos n := by
  rw [Contrasts, Contrasts, sumOf_shift, sumOf_shift]
  have h1 : (right : ℚ) ≠ 0 := by
    have : (0 : ℚ) < right := by exact_mod_cast hr
    exact ne_of_gt this
  have h2 : ((left : ℚ) + 1) ≠ 0 := by positivity
  have e : (sumOf id D (pos + 1) right + (right : ℚ) * c) / right - (sumOf id D (pos - left) (left + 1) + ((left + 1 : Nat) : ℚ) * c) / ((left : ℚ) + 1) =
      sumOf id D (pos + 1) right / right - sumOf id D (pos - left) (left + 1) / ((left : ℚ) + 1) := by
    push_cast
    field_simp
    ring
  simp only [id]
  rw [e]

theorem firstOf_shift (D : Nat → Int) (c : Int) : firstOf (fun j => D j + c) = firstOf D := by
  funext k
  rw [firstOf, firstOf]
  ring

theorem secondOf_shift (D : Nat → Int) (c : Int) : secondOf (fun j => D j + c) = secondOf D := by
  funext k
  rw [secondOf, secondOf, firstOf_shift]

theorem spread_shift (D : Nat → Int) (c minC : Int) (l r : Nat) : Spread (fun j => D j + c) minC l r ↔ Spread D minC l r := by
  have e : ∀ a b, D a + c - (D b + c) = D a - D b := fun a b => by ring
  rw [Spread, Spread]
  simp only [e]

theorem pairAt_shift {rnd fl : ℚ → ℚ} {P : Params} (u : Unrounded rnd fl P) {n : Nat} {D : Nat → Int} {c : Int} (hD : Within n D (255 * P.group : Nat))
    (hD' : Within n (fun j => D j + c) (255 * P.group : Nat)) (f : Nat → Int) (bound top : Int) (i : Nat) :
    PairAt rnd fl P n (fun j => D j + c) f bound top i ↔ PairAt rnd fl P n D f bound top i := by
  rw [PairAt, PairAt]
  have e : (0 < P.left → 0 < P.right → Contrasts rnd fl (fun j => D j + c) (P.contrast * P.group : Nat) P.left P.right i n) ↔
      (0 < P.left → 0 < P.right → Contrasts rnd fl D (P.contrast * P.group : Nat) P.left P.right i n) := by
    rcases u with h | h | ⟨h1, h2⟩ | ⟨h1, h2⟩
    · exact ⟨fun _ q => by omega, fun _ q => by omega⟩
    · exact ⟨fun _ _ q => by omega, fun _ _ q => by omega⟩
    · subst h1 h2
      exact ⟨fun q a b => (contrasts_shift D c _ _ _ i n b).1 (q a b), fun q a b => (contrasts_shift D c _ _ _ i n b).2 (q a b)⟩
    · rw [contrasts_exact h1 h2 hD, contrasts_exact h1 h2 hD']
      exact ⟨fun q a b => (contrasts_shift D c _ _ _ i n b).1 (q a b), fun q a b => (contrasts_shift D c _ _ _ i n b).2 (q a b)⟩
  simp only [spread_shift, e]

theorem edgeAt_shift {rnd fl : ℚ → ℚ} {P : Params} (u : Unrounded rnd fl P) {n : Nat} {D : Nat → Int} {c : Int} (hD : Within n D (255 * P.group : Nat))
    (hD' : Within n (fun j => D j + c) (255 * P.group : Nat)) (i : Nat) : EdgeAt rnd fl P n (fun j => D j + c) i ↔ EdgeAt rnd fl P n D i := by
  constructor
  · rintro ⟨a1, a2, a3, a4⟩
    rw [secondOf_shift] at a1 a2
    rw [firstOf_shift] at a3
    simp only [firstOf_shift, pairAt_shift u hD hD'] at a4
    exact ⟨a1, a2, a3, a4⟩
  · rintro ⟨a1, a2, a3, a4⟩
    refine ⟨?_, ?_, ?_, ?_⟩
    · rw [secondOf_shift]; exact a1
    · rw [secondOf_shift]; exact a2
    · rw [firstOf_shift]; exact a3
    · simp only [firstOf_shift, pairAt_shift u hD hD']; exact a4

theorem allEdges_shift {rnd fl : ℚ → ℚ} {P : Params} (u : Unrounded rnd fl P) {n : Nat} {D : Nat → Int} {c : Int} (hD : Within n D (255 * P.group : Nat))
    (hD' : Within n (fun j => D j + c) (255 * P.group : Nat)) :
    allEdges rnd fl P n (fun j => D j + c) = allEdges rnd fl P n D := by
  rw [allEdges, allEdges, secondOf_shift]
  congr 1
  refine List.filter_congr fun i _ => ?_
  exact decide_eq_decide.2 (edgeAt_shift u hD hD' i)

theorem lineEdges_shift {rnd fl : ℚ → ℚ} {P : Params} (u : Unrounded rnd fl P) (forward : Bool) {n : Nat} {D : Nat → Int} {c : Int}
    (hD : Within n D (255 * P.group : Nat)) (hD' : Within n (fun j => D j + c) (255 * P.group : Nat)) :
    lineEdges rnd fl P forward n (fun j => D j + c) = lineEdges rnd fl P forward n D := by
  rw [lineEdges, lineEdges, allEdges_shift u hD hD', show backwards n (fun j => D j + c) = fun j => backwards n D j + c from rfl,
    allEdges_shift u (D := backwards n D) (c := c) (fun k hk => hD (n - 1 - k) (by omega)) (fun k hk => hD' (n - 1 - k) (by omega))]

theorem edgeLine_shift {m m' : BMem} {v v' : View} {w h c : Nat} {P : Params} (b : Brighter m m' v v' w h c) {r : Nat} (hr : r ∈ edgeLines P w h) (k : Nat)
    (hk : k < edgeLength P w h) : edgeLine P v' m' r k = edgeLine P v m r k + (P.group : Int) * c := by
  rw [edgeLines, List.mem_filter, List.mem_range] at hr
  have hr := hr.1
  rw [edgeLine, edgeLine]
  rw [edgeLength] at hk
  rw [edgeCount] at hr
  cases ha : edgeAcross P
  · rw [ha, if_neg Bool.false_ne_true] at hk hr
    rw [if_neg Bool.false_ne_true, if_neg Bool.false_ne_true, edgeColumn, edgeColumn]
    have hs : ∀ j ∈ Finset.range P.group, ((v'.get m' (r + j) k 0).toNat : Int) = ((v.get m (r + j) k 0).toNat : Int) + (c : Int) := fun j hj => by
      rw [b.pixel _ _ (by have : j < P.group := Finset.mem_range.1 hj; omega) hk, Nat.cast_add]
    rw [Finset.sum_congr rfl hs, Finset.sum_add_distrib, Finset.sum_const, Finset.card_range, nsmul_eq_mul]
  · rw [ha, if_pos rfl] at hk hr
    rw [if_pos rfl, if_pos rfl, edgeRow, edgeRow]
    have hs : ∀ j ∈ Finset.range P.group, ((v'.get m' k (r + j) 0).toNat : Int) = ((v.get m k (r + j) 0).toNat : Int) + (c : Int) := fun j hj => by
      rw [b.pixel _ _ hk (by have : j < P.group := Finset.mem_range.1 hj; omega), Nat.cast_add]
    rw [Finset.sum_congr rfl hs, Finset.sum_add_distrib, Finset.sum_const, Finset.card_range, nsmul_eq_mul]

/-- C188: the same points are found in an image and in a brighter one: at any rounding if the contrast of both sides is not asked for, with the rounding
    of the code if both sides have as many pixels as a power of two, and with exact numbers in any case. -/
theorem C188_brighter_partial {rnd fl : ℚ → ℚ} {m m' : BMem} {v v' : View} {w h c : Nat} {P : Params} (e : EdgeCall m v w h P) (e' : EdgeCall m' v' w h P)
    (b : Brighter m m' v v' w h c) (u : Unrounded rnd fl P) :
    ∃ pos neg, find rnd fl v w h P m = .ok (pos, neg) m ∧ find rnd fl v' w h P m' = .ok (pos, neg) m' := by
  by_cases h4 : 4 ≤ edgeLength P w h
  · refine ⟨_, _, find_ok e h4, ?_⟩
    rw [find_ok e' h4]
    have hE : ∀ r ∈ edgeLines P w h, edgesOf rnd fl P v' m' w h r = edgesOf rnd fl P v m w h r := by
      intro r hr
      rw [edgesOf, edgesOf]
      have hB : ((255 * P.group : Nat) : Int) = 255 * (P.group : Int) := by push_cast; rfl
      have hL := edgeLine_shift b hr
      refine Eq.trans (lineEdges_congr (E := fun k => edgeLine P v m r k + (P.group : Int) * c) hL) (lineEdges_shift u _ ?_ ?_)
      · rw [hB]
        exact edgeLine_within P v m _ r
      · rw [hB]
        intro k hk
        dsimp only
        rw [← hL k hk]
        exact edgeLine_within P v' m' _ r k hk
    have hco : ∀ r, edgeCoordinate rnd P v' r = edgeCoordinate rnd P v r := by
      intro r
      rw [edgeCoordinate, edgeCoordinate, b.x, b.y]
    have hu : upPoints rnd P v' w h (edgesOf rnd fl P v' m' w h) = upPoints rnd P v w h (edgesOf rnd fl P v m w h) := by
      rw [upPoints, upPoints]
      refine flatMap_congr' fun r hr => ?_
      rw [hE r hr]
      exact List.map_congr_left fun e _ => by rw [placeUp, placeUp, hco, b.x, b.y]
    have hd : downPoints rnd P v' w h (edgesOf rnd fl P v' m' w h) = downPoints rnd P v w h (edgesOf rnd fl P v m w h) := by
      rw [downPoints, downPoints]
      refine flatMap_congr' fun r hr => ?_
      rw [hE r hr]
      exact List.map_congr_left fun e _ => by rw [placeDown, placeDown, hco, b.x, b.y]
    rw [positivePoints, negativePoints, positivePoints, negativePoints, hu, hd]
  · exact ⟨[], [], C57_short e (by omega), C57_short e' (by omega)⟩

/-! ### Points of type `float` -/

open Classical in
theorem fl_allEdges_same {rnd fl : ℚ → ℚ} {P : Params} {n : Nat} {D E : Nat → Int} {c : Int} (u : Unrounded rnd fl P) (hD : Within n D (255 * P.group : Nat))
    (hE : Within n E (255 * P.group : Nat)) (h : ∀ k, k < n → E k = D k + c) : EdgeFl.allEdges rnd fl P n E = EdgeFl.allEdges rnd fl P n D := by
  have hD' : Within n (fun j => D j + c) (255 * P.group : Nat) := fun k hk => by
    dsimp only
    rw [← h k hk]
    exact hE k hk
  rw [EdgeFl.allEdges, EdgeFl.allEdges]
  have e : (List.range' 1 (n - 3)).filter (fun i => decide (EdgeAt rnd fl P n E i)) = (List.range' 1 (n - 3)).filter fun i => decide (EdgeAt rnd fl P n D i) := by
    refine List.filter_congr fun i hi => ?_
    rw [List.mem_range'_1] at hi
    refine decide_eq_decide.2 (Iff.trans ⟨edgeAt_congr h (by omega), edgeAt_congr (fun k hk => (h k hk).symm) (by omega)⟩ (edgeAt_shift u hD hD' i))
  rw [e]
  refine List.map_congr_left fun i hi => ?_
  have hi := (List.mem_filter.1 hi).1
  rw [List.mem_range'_1] at hi
  have q : ∀ k, k + 1 < n → secondOf E k = secondOf D k := fun k hk => by
    rw [← secondOf_shift D c]
    exact secondOf_congr h hk
  exact EdgeFl.positionOf_congr (q _ (by omega)) (q _ (by omega))

/-- C188 for the detector with points of type `float` -/
theorem C188_float_partial {rnd fl : ℚ → ℚ} {m m' : BMem} {v v' : View} {w h c : Nat} {P : Params} (e : EdgeCall m v w h P) (e' : EdgeCall m' v' w h P)
    (b : Brighter m m' v v' w h c) (u : Unrounded rnd fl P) :
    ∃ pos neg, EdgeFl.find rnd fl v w h P m = .ok (pos, neg) m ∧ EdgeFl.find rnd fl v' w h P m' = .ok (pos, neg) m' := by
  by_cases h4 : 4 ≤ edgeLength P w h
  · refine ⟨_, _, EdgeFl.find_ok e h4, ?_⟩
    rw [EdgeFl.find_ok e' h4]
    have hE : ∀ r ∈ edgeLines P w h, EdgeFl.edgesOf rnd fl P v' m' w h r = EdgeFl.edgesOf rnd fl P v m w h r := by
      intro r hr
      have hB : ((255 * P.group : Nat) : Int) = 255 * (P.group : Int) := by push_cast; rfl
      have hL := edgeLine_shift b hr
      have h1 : Within (edgeLength P w h) (edgeLine P v m r) (255 * P.group : Nat) := by
        rw [hB]
        exact edgeLine_within P v m _ r
      have h2 : Within (edgeLength P w h) (edgeLine P v' m' r) (255 * P.group : Nat) := by
        rw [hB]
        exact edgeLine_within P v' m' _ r
      rw [EdgeFl.edgesOf, EdgeFl.edgesOf, EdgeFl.lineEdges, EdgeFl.lineEdges, fl_allEdges_same u h1 h2 hL,
        fl_allEdges_same u (D := backwards (edgeLength P w h) (edgeLine P v m r)) (E := backwards (edgeLength P w h) (edgeLine P v' m' r))
          (fun k hk => h1 _ (by omega)) (fun k hk => h2 _ (by omega)) (fun k hk => hL _ (by omega))]
    have hco : ∀ r, edgeCoordinate rnd P v' r = edgeCoordinate rnd P v r := by
      intro r
      rw [edgeCoordinate, edgeCoordinate, b.x, b.y]
    have hu : EdgeFl.upPoints rnd fl P v' w h (EdgeFl.edgesOf rnd fl P v' m' w h) = EdgeFl.upPoints rnd fl P v w h (EdgeFl.edgesOf rnd fl P v m w h) := by
      rw [EdgeFl.upPoints, EdgeFl.upPoints]
      refine flatMap_congr' fun r hr => ?_
      rw [hE r hr]
      exact List.map_congr_left fun e _ => by rw [EdgeFl.placeUp, EdgeFl.placeUp, hco, b.x, b.y]
    have hd : EdgeFl.downPoints rnd fl P v' w h (EdgeFl.edgesOf rnd fl P v' m' w h) = EdgeFl.downPoints rnd fl P v w h (EdgeFl.edgesOf rnd fl P v m w h) := by
      rw [EdgeFl.downPoints, EdgeFl.downPoints]
      refine flatMap_congr' fun r hr => ?_
      rw [hE r hr]
      exact List.map_congr_left fun e _ => by rw [EdgeFl.placeDown, EdgeFl.placeDown, hco, b.x, b.y]
    rw [EdgeFl.positivePoints, EdgeFl.negativePoints, EdgeFl.positivePoints, EdgeFl.negativePoints, hu, hd]
  · exact ⟨[], [], fl_short e (by omega), fl_short e' (by omega)⟩

/-! ### Cases -/

/-- Rows of eight pixels; the values of the second block are larger by 8. -/
def shadeMem : BMem := ⟨fun b => if b = 1 ∨ b = 2 then 8 else 0, fun b i =>
  if b = 1 then [0, 0, 0, 1, 9, 8, 8, 8].getD i 0 else [8, 8, 8, 9, 17, 16, 16, 16].getD i 0⟩
def shadeImg (b : Nat) : View := ⟨⟨b, 8, 1, 1, 8⟩, 0, 0⟩

/-- The calls below -/
theorem shadeCall (b : Nat) (hb : b = 1 ∨ b = 2) (P : Params) (h : P = { edgeParams with contrast := 8 } ∨
    P = { edgeParams with contrast := 8, left := 1, right := 2 } ∨ P = { edgeParams with contrast := 8, left := 2, right := 3 }) :
    EdgeCall shadeMem (shadeImg b) 8 1 P := by
  rcases hb with rfl | rfl <;> rcases h with rfl | rfl | rfl <;>
    exact ⟨⟨by decide, by decide, by decide⟩, ⟨by decide, by decide, by decide, by decide, by decide, by decide⟩, rfl, by decide, by decide, by decide,
      by decide, by decide, by decide, by decide, by decide⟩

theorem shadeImg_pixel : ∀ x, x < 8 → ∀ y, y < 1 → ((shadeImg 2).get shadeMem x y 0).toNat = ((shadeImg 1).get shadeMem x y 0).toNat + 8 := by decide

theorem shade_brighter : Brighter shadeMem shadeMem (shadeImg 1) (shadeImg 2) 8 1 8 := ⟨rfl, rfl, fun x y hx hy => shadeImg_pixel x hx y hy⟩

example : ∃ pos neg, find double single (shadeImg 1) 8 1 { edgeParams with contrast := 8 } shadeMem = .ok (pos, neg) shadeMem ∧
    find double single (shadeImg 2) 8 1 { edgeParams with contrast := 8 } shadeMem = .ok (pos, neg) shadeMem :=
  C188_brighter_partial (shadeCall 1 (Or.inl rfl) _ (Or.inl rfl)) (shadeCall 2 (Or.inr rfl) _ (Or.inl rfl)) shade_brighter (Or.inl rfl)
example : edgesFound (find double single (shadeImg 2) 8 1 { edgeParams with contrast := 8 } shadeMem) = some ([(55 / 16, 0)], []) := by decide +kernel
example : edgesFound (find id id (shadeImg 2) 8 1 { edgeParams with contrast := 8, left := 2, right := 3 } shadeMem) = some ([(55 / 16, 0)], []) := by
  decide +kernel

example : ∃ pos neg, find double single (shadeImg 1) 8 1 { edgeParams with contrast := 8, left := 1, right := 2 } shadeMem = .ok (pos, neg) shadeMem ∧
    find double single (shadeImg 2) 8 1 { edgeParams with contrast := 8, left := 1, right := 2 } shadeMem = .ok (pos, neg) shadeMem :=
  C188_brighter_partial (shadeCall 1 (Or.inl rfl) _ (Or.inr (Or.inl rfl))) (shadeCall 2 (Or.inr rfl) _ (Or.inr (Or.inl rfl))) shade_brighter
    (Or.inr (Or.inr (Or.inr ⟨dyadic_ieee, ⟨by decide, ⟨1, rfl⟩, ⟨1, rfl⟩, by decide, by decide⟩⟩)))
example : edgesFound (find double single (shadeImg 2) 8 1 { edgeParams with contrast := 8, left := 1, right := 2 } shadeMem) = some ([(55 / 16, 0)], []) := by
  decide +kernel

/-- With the rounding of `double` and `float` an edge is lost if all pixels become brighter by 8: the difference of the means is 8, the contrast asked
    for, but the rounded means differ by less. src/edge_detection.cpp 97-104. -/
theorem C188_wrong :
    edgesFound (find double single (shadeImg 1) 8 1 { edgeParams with contrast := 8, left := 2, right := 3 } shadeMem) = some ([(55 / 16, 0)], []) ∧
      edgesFound (find double single (shadeImg 2) 8 1 { edgeParams with contrast := 8, left := 2, right := 3 } shadeMem) = some ([], []) := by
  decide +kernel

example : ∃ pos neg, EdgeFl.find double single (shadeImg 1) 8 1 { edgeParams with contrast := 8, left := 1, right := 2 } shadeMem = .ok (pos, neg) shadeMem ∧
    EdgeFl.find double single (shadeImg 2) 8 1 { edgeParams with contrast := 8, left := 1, right := 2 } shadeMem = .ok (pos, neg) shadeMem :=
  C188_float_partial (shadeCall 1 (Or.inl rfl) _ (Or.inr (Or.inl rfl))) (shadeCall 2 (Or.inr rfl) _ (Or.inr (Or.inl rfl))) shade_brighter
    (Or.inr (Or.inr (Or.inr ⟨dyadic_ieee, ⟨by decide, ⟨1, rfl⟩, ⟨1, rfl⟩, by decide, by decide⟩⟩)))

end PV.Props
