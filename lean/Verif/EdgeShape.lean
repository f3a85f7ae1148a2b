import Verif.EdgeFind
/-
  Edges of lines of a known shape: steps and lines that never rise; lines that agree have the same edges.
-/
namespace PV.Edge

/-- Halves of integers below 2^53 are numbers of type `double`. -/
theorem double_half (n : ℤ) (h : |n| < 2 ^ 53) : double ((n : ℚ) / 2) = n / 2 := by
  by_cases h0 : n = 0
  · rw [h0, Int.cast_zero, zero_div, double_zero]
  have hpos : (0 : ℚ) < |(n : ℚ) / 2| := abs_pos.mpr (by
    have : (n : ℚ) ≠ 0 := by exact_mod_cast h0
    exact div_ne_zero this (by norm_num))
  have hlog : Int.log 2 |(n : ℚ) / 2| < 52 := by
    rw [← Int.lt_zpow_iff_log_lt (by norm_num) hpos]
    have : ((|n| : ℤ) : ℚ) < 2 ^ 53 := by exact_mod_cast h
    push_cast at this ⊢
    rw [abs_div, abs_of_pos (show (0 : ℚ) < 2 by norm_num)]
    norm_num at this ⊢
    linarith
  obtain ⟨k, hk⟩ : ∃ k : ℕ, Int.log 2 |(n : ℚ) / 2| - 52 = -((k : ℤ) + 1) := ⟨(51 - Int.log 2 |(n : ℚ) / 2|).toNat, by omega⟩
  unfold double
  rw [hk, zpow_neg, show ((k : ℤ) + 1) = ((k + 1 : ℕ) : ℤ) by push_cast; rfl, zpow_natCast]
  have e : (n : ℚ) / 2 / ((2 : ℚ) ^ (k + 1))⁻¹ = ((n * 2 ^ k : ℤ) : ℚ) := by
    push_cast
    rw [pow_succ]
    field_simp
  rw [e, rne_int]
  push_cast
  rw [pow_succ]
  field_simp

/-! ### Lines that agree -/

theorem firstOf_congr {n : Nat} {D E : Nat → Int} (h : ∀ k, k < n → D k = E k) {k : Nat} (hk : k + 1 < n) : firstOf D k = firstOf E k := by
  rw [firstOf, firstOf, h k (by omega), h (k + 1) hk]

theorem secondOf_congr {n : Nat} {D E : Nat → Int} (h : ∀ k, k < n → D k = E k) {k : Nat} (hk : k + 1 < n) : secondOf D k = secondOf E k := by
  rw [secondOf, secondOf, firstOf_congr h hk, firstOf_congr h (by omega : k - 1 + 1 < n)]

theorem pairAt_congr {rnd fl : ℚ → ℚ} {P : Params} {n : Nat} {D E : Nat → Int} (h : ∀ k, k < n → D k = E k) {bound top : Int} {i : Nat} (hi : i + 2 < n)
    (hp : PairAt rnd fl P n D (firstOf D) bound top i) : PairAt rnd fl P n E (firstOf E) bound top i := by
  obtain ⟨l, r, h1, h2, h3, h4⟩ := hp
  refine ⟨l, r, ?_, ?_, ?_, ?_⟩
  · rwa [← leftSide_congr fun k hk => firstOf_congr h (by omega : k + 1 < n)]
  · rwa [← rightSide_congr fun k hk => firstOf_congr h (by omega : k + 1 < n)]
  · have := h2.2.1
    rwa [← spread_congr (n := n) (by omega) h]
  · intro a b
    rw [← contrasts_congr h]
    exact h4 a b

theorem edgeAt_congr {rnd fl : ℚ → ℚ} {P : Params} {n : Nat} {D E : Nat → Int} (h : ∀ k, k < n → D k = E k) {i : Nat} (hi : i + 2 < n)
    (e : EdgeAt rnd fl P n D i) : EdgeAt rnd fl P n E i := by
  have f1 := firstOf_congr h (by omega : i + 1 < n)
  have f2 := firstOf_congr h (by omega : i + 1 + 1 < n)
  refine ⟨?_, ?_, ?_, ?_⟩
  · rw [← secondOf_congr h (by omega : i + 1 < n)]
    exact e.before
  · rw [← secondOf_congr h (by omega : i + 1 + 1 < n)]
    exact e.after
  · rw [← f1, ← f2]
    exact e.rises
  · rw [← f1, ← f2]
    exact e.pair.imp (pairAt_congr h hi) (pairAt_congr h hi)

theorem allEdges_congr {rnd fl : ℚ → ℚ} {P : Params} {n : Nat} {D E : Nat → Int} (h : ∀ k, k < n → D k = E k) :
    allEdges rnd fl P n D = allEdges rnd fl P n E := by
  classical
  rw [allEdges, allEdges]
  have e : (List.range' 1 (n - 3)).filter (fun i => decide (EdgeAt rnd fl P n D i)) = (List.range' 1 (n - 3)).filter fun i => decide (EdgeAt rnd fl P n E i) := by
    refine List.filter_congr fun i hi => ?_
    rw [List.mem_range'_1] at hi
    exact decide_eq_decide.2 ⟨edgeAt_congr h (by omega), edgeAt_congr (fun k hk => (h k hk).symm) (by omega)⟩
  convert congrArg (List.map (positionOf rnd (secondOf D))) e using 1
  refine List.map_congr_left fun i hi => ?_
  have hi := (List.mem_filter.1 hi).1
  rw [List.mem_range'_1] at hi
  exact (positionOf_congr (secondOf_congr h (by omega)) (secondOf_congr h (by omega))).symm

theorem lineEdges_congr {rnd fl : ℚ → ℚ} {P : Params} {forward : Bool} {n : Nat} {D E : Nat → Int} (h : ∀ k, k < n → D k = E k) :
    lineEdges rnd fl P forward n D = lineEdges rnd fl P forward n E := by
  rw [lineEdges, lineEdges, allEdges_congr h, allEdges_congr (D := backwards n D) (E := backwards n E)]
  intro k hk
  exact h _ (by omega)

/-- Only the contrast, the size of the groups and the additional check matter for the edges of a line. -/
theorem allEdges_params {rnd fl : ℚ → ℚ} {P Q : Params} {n : Nat} {D : Nat → Int} (hc : Q.contrast = P.contrast) (hg : Q.group = P.group)
    (hl : Q.left = P.left) (hr : Q.right = P.right) : allEdges rnd fl Q n D = allEdges rnd fl P n D := by
  have key : ∀ i, EdgeAt rnd fl Q n D i = EdgeAt rnd fl P n D i := by
    intro i
    have e : ∀ bound top, PairAt rnd fl Q n D (firstOf D) bound top i = PairAt rnd fl P n D (firstOf D) bound top i := by
      intro bound top
      rw [PairAt, PairAt, hc, hg, hl, hr]
    refine propext ⟨fun h => ⟨h.before, h.after, h.rises, ?_⟩, fun h => ⟨h.before, h.after, h.rises, ?_⟩⟩
    · rw [← e, ← e]
      exact h.pair
    · rw [e, e]
      exact h.pair
  have key' : EdgeAt rnd fl Q n D = EdgeAt rnd fl P n D := funext key
  rw [allEdges, allEdges, key']

/-! ### Steps -/

/-- A line without a rise has no edge. -/
theorem allEdges_fall {rnd fl : ℚ → ℚ} {P : Params} {n : Nat} {D : Nat → Int} (h : ∀ k, k + 1 < n → D (k + 1) ≤ D k) : allEdges rnd fl P n D = [] := by
  classical
  rw [allEdges, List.map_eq_nil_iff, List.filter_eq_nil_iff]
  intro i hi he
  rw [List.mem_range'_1] at hi
  have e : EdgeAt rnd fl P n D i := by simpa using he
  have h1 := e.rises
  have h2 := h i (by omega)
  have h3 := h (i + 1) (by omega)
  have f1 : firstOf D i = D (i + 1) - D i := rfl
  have f2 : firstOf D (i + 1) = D (i + 1 + 1) - D (i + 1) := rfl
  omega

theorem filter_single {l : List Nat} (hl : l.Nodup) {p : Nat → Bool} {j : Nat} (hj : j ∈ l) (hp : ∀ i ∈ l, p i = true ↔ i = j) : l.filter p = [j] := by
  have e : l.filter p = l.filter (· == j) := List.filter_congr fun i hi => by
    rw [Bool.eq_iff_iff, hp i hi, beq_iff_eq]
  rw [e, List.filter_beq, List.count_eq_one_of_mem hl hj]
  rfl

theorem sumOf_const {fl : ℚ → ℚ} (F : ∀ z : ℤ, |z| < 2 ^ 24 → fl z = z) {D : Nat → Int} {b : Nat} {a : Int} (ha : 0 ≤ a) (c : Nat)
    (h : ∀ k, b ≤ k → k < b + c → D k = a) (hs : a * c < 2 ^ 24) : sumOf fl D b c = ((a * c : ℤ) : ℚ) := by
  induction c with
  | zero => simp [sumOf]
  | succ c ih =>
    have h1 : 0 ≤ a * c := mul_nonneg ha (by positivity)
    have h2 : a * ((c + 1 : Nat) : Int) = a * c + a := by push_cast; ring
    rw [h2] at hs
    rw [sumOf, h (b + c) (by omega) (by omega), F a (by rw [abs_of_nonneg ha]; omega), ih (fun k k1 k2 => h k k1 (by omega)) (by omega), h2, ← Int.cast_add,
      F _ (by rw [abs_of_nonneg (by omega)]; omega)]

/-- The additional contrast check passes at a step behind pixel `c - 1`: it is switched off, or the numbers of pixels to compare are on the line and
    their sums are exact. Not in the code: for statements and proofs. -/
def StepChecked (fl : ℚ → ℚ) (P : Params) (n c : Nat) : Prop :=
  P.left = 0 ∨ P.right = 0 ∨ (P.left + 1 ≤ c ∧ c + P.right ≤ n ∧ (∀ z : ℤ, |z| < 2 ^ 24 → fl z = z) ∧
    255 * P.group * (P.left + 1) < 2 ^ 24 ∧ 255 * P.group * P.right < 2 ^ 24)

theorem step_contrasts {rnd fl : ℚ → ℚ} (I : ∀ z : ℤ, |z| < 2 ^ 53 → rnd z = z) {P : Params} {n c : Nat} {D : Nat → Int} {a b : Int} (h2 : 2 ≤ c)
    (hD : ∀ k, k < n → D k = if k < c then a else b) (ha : 0 ≤ a) (hab : a < b) (hb : b ≤ 255 * P.group) (hcon : (P.contrast * P.group : Nat) ≤ b - a)
    (hs : StepChecked fl P n c) (hl : 0 < P.left) (hr : 0 < P.right) : Contrasts rnd fl D (P.contrast * P.group : Nat) P.left P.right (c - 1) n := by
  rcases hs with hs | hs | ⟨h3, h4, F, h5, h6⟩
  · omega
  · omega
  have h5' : (255 * P.group * ((P.left : Int) + 1) : Int) < 2 ^ 24 := by exact_mod_cast h5
  have h6' : (255 * P.group * (P.right : Int) : Int) < 2 ^ 24 := by exact_mod_cast h6
  have m1 : a * ((P.left + 1 : Nat) : Int) ≤ 255 * P.group * ((P.left : Int) + 1) := by
    push_cast
    exact mul_le_mul_of_nonneg_right (by omega) (by positivity)
  have m2 : b * (P.right : Int) ≤ 255 * P.group * (P.right : Int) := mul_le_mul_of_nonneg_right hb (by positivity)
  have m3 : b ≤ b * (P.right : Int) := le_mul_of_one_le_right (by omega) (by omega)
  refine ⟨by omega, by omega, ?_⟩
  rw [show c - 1 + 1 = c by omega]
  rw [sumOf_const F (a := b) (by omega) P.right (fun k k1 k2 => by rw [hD k (by omega), if_neg (by omega)]) (by omega)]
  rw [sumOf_const F (a := a) ha (P.left + 1) (fun k k1 k2 => by rw [hD k (by omega), if_pos (by omega)]) (by omega)]
  have q1 : ((b * (P.right : Int) : Int) : ℚ) / (P.right : ℚ) = b := by
    have : (P.right : ℚ) ≠ 0 := by exact_mod_cast hr.ne'
    push_cast
    field_simp
  have q2 : ((a * ((P.left + 1 : Nat) : Int) : Int) : ℚ) / ((P.left : ℚ) + 1) = a := by
    have : (P.left : ℚ) + 1 ≠ 0 := by positivity
    push_cast
    field_simp
  rw [q1, q2, I b (by rw [abs_of_nonneg (by omega)]; omega), I a (by rw [abs_of_nonneg ha]; omega), ← Int.cast_sub,
    I _ (by rw [abs_of_nonneg (by omega)]; omega)]
  exact_mod_cast hcon

/-- A line with one step has one edge. -/
theorem allEdges_step {rnd fl : ℚ → ℚ} (H : ∀ z : ℤ, |z| < 2 ^ 53 → rnd ((z : ℚ) / 2) = z / 2) (I : ∀ z : ℤ, |z| < 2 ^ 53 → rnd z = z) {P : Params}
    {n c : Nat} {D : Nat → Int} {a b : Int} (h2 : 2 ≤ c) (hc : c + 2 ≤ n) (hn : n < 4294967296) (hD : ∀ k, k < n → D k = if k < c then a else b)
    (ha : 0 ≤ a) (hab : a < b) (hb : b ≤ 255 * P.group) (hcon : (P.contrast * P.group : Nat) ≤ b - a) (hs : StepChecked fl P n c) :
    allEdges rnd fl P n D = [(c : ℚ) - 1 / 2] := by
  classical
  have f : ∀ k, k + 1 < n → firstOf D k = if k + 1 = c then b - a else 0 := by
    intro k hk
    rw [firstOf, hD k (by omega), hD (k + 1) hk]
    by_cases h1 : k + 1 = c
    · rw [if_pos h1, if_neg (by omega), if_pos (by omega)]
    · rw [if_neg h1]
      by_cases h3 : k < c
      · rw [if_pos h3, if_pos (by omega), sub_self]
      · rw [if_neg h3, if_neg (by omega), sub_self]
  have s : ∀ k, 1 ≤ k → k + 1 < n → secondOf D k = (if k + 1 = c then b - a else 0) - if k = c then b - a else 0 := by
    intro k h0 hk
    rw [secondOf, f k hk, f (k - 1) (by omega), Nat.sub_add_cancel h0]
  have s1 : secondOf D (c - 1) = b - a := by
    rw [s _ (by omega) (by omega), if_pos (by omega), if_neg (by omega), sub_zero]
  have s2 : secondOf D (c - 1 + 1) = -(b - a) := by
    rw [s _ (by omega) (by omega), if_neg (by omega), if_pos (by omega), zero_sub]
  have hedge : EdgeAt rnd fl P n D (c - 1) := by
    have t : max (firstOf D (c - 1)) (firstOf D (c - 1 + 1)) = b - a := by
      rw [f _ (by omega), f _ (by omega), if_pos (by omega), if_neg (by omega)]
      omega
    refine ⟨by omega, by omega, by omega, Or.inl ?_⟩
    rw [t]
    obtain ⟨b1, b2, b3⟩ := bounds_ok (top := b - a) (by omega)
    refine ⟨c - 2, c, ⟨by omega, ?_, fun k k1 k2 => ?_⟩, ⟨by omega, by omega, ?_, fun k k1 k2 => by omega⟩, ?_, fun l r =>
      step_contrasts I h2 hD ha hab hb hcon hs l r⟩
    · rw [f _ (by omega), if_neg (by omega)]
      omega
    · rw [f _ (by omega), if_pos (by omega)]
      omega
    · rw [f _ (by omega), if_neg (by omega)]
      omega
    · refine ⟨c, c - 2, by omega, by omega, by omega, by omega, ?_⟩
      rw [hD _ (by omega), hD _ (by omega), if_neg (by omega), if_pos (by omega)]
      exact hcon
  have e : (List.range' 1 (n - 3)).filter (fun i => decide (EdgeAt rnd fl P n D i)) = [c - 1] := by
    refine filter_single (List.nodup_range' ..) (by rw [List.mem_range'_1]; omega) fun i hi => ?_
    rw [List.mem_range'_1] at hi
    rw [decide_eq_true_iff]
    constructor
    · intro h
      have h1 := h.after
      have h3 := h.rises
      have h4 := h.before
      rw [f i (by omega), f (i + 1) (by omega)] at h3
      rw [s i (by omega) (by omega)] at h4
      rw [s (i + 1) (by omega) (by omega)] at h1
      by_contra hne
      rw [if_neg (by omega : ¬ i + 1 = c)] at h3
      by_cases h5 : i + 1 + 1 = c
      · rw [if_pos h5, if_neg (by omega)] at h1
        omega
      · rw [if_neg h5] at h3
        omega
    · rintro rfl
      exact hedge
  have p : positionOf rnd (secondOf D) (c - 1) = (c : ℚ) - 1 / 2 := by
    rw [positionOf, s1, s2, if_pos (by omega)]
    have hba : ((b - a : Int) : ℚ) ≠ 0 := by
      have : b - a ≠ 0 := by omega
      exact_mod_cast this
    have e1 : ((b - a : Int) : ℚ) / ((b - a - -(b - a) : Int) : ℚ) = ((1 : ℤ) : ℚ) / 2 := by
      rw [show b - a - -(b - a) = (b - a) * 2 by ring]
      push_cast at hba ⊢
      field_simp
    have e2 : ((c - 1 : Nat) : ℚ) + ((1 : ℤ) : ℚ) / 2 = ((2 * (c : ℤ) - 1 : ℤ) : ℚ) / 2 := by
      rw [Nat.cast_sub (by omega)]
      push_cast
      ring
    rw [e1, H 1 (by norm_num), e2, H _ (by rw [abs_of_nonneg (by omega)]; omega)]
    push_cast
    ring
  rw [allEdges]
  rw [show ((List.range' 1 (n - 3)).filter fun i => EdgeAt rnd fl P n D i) = [c - 1] by convert e, List.map_singleton, p]

theorem choose_single (P : Params) (forward : Bool) (e : List ℚ × List ℚ) (h1 : e.1.length ≤ 1) (h2 : e.2.length ≤ 1) : choose P forward e = e := by
  have a1 : ∀ l : List ℚ, l.length ≤ 1 → leaveFirst l = l := fun l h => if_neg (by omega)
  have a2 : ∀ l : List ℚ, l.length ≤ 1 → leaveLast l = l := fun l h => if_neg (by omega)
  rw [choose, a1 _ h1, a1 _ h2, a2 _ h1, a2 _ h2]
  split
  · rfl
  · split <;> rfl

/-- The edges of a line with a rising step -/
theorem lineEdges_rise {rnd fl : ℚ → ℚ} (H : ∀ z : ℤ, |z| < 2 ^ 53 → rnd ((z : ℚ) / 2) = z / 2) (I : ∀ z : ℤ, |z| < 2 ^ 53 → rnd z = z) {P : Params}
    {forward : Bool} {n c : Nat} {D : Nat → Int} {a b : Int} (h2 : 2 ≤ c) (hc : c + 2 ≤ n) (hn : n < 4294967296)
    (hD : ∀ k, k < n → D k = if k < c then a else b) (ha : 0 ≤ a) (hab : a < b) (hb : b ≤ 255 * P.group)
    (hcon : (P.contrast * P.group : Nat) ≤ b - a) (hs : StepChecked fl P n c) : lineEdges rnd fl P forward n D = ([(c : ℚ) - 1 / 2], []) := by
  rw [lineEdges, allEdges_step H I h2 hc hn hD ha hab hb hcon hs, allEdges_fall (D := backwards n D)]
  · exact choose_single P forward _ (by simp [removeSimilarPoints, removeSimilar]) (by simp [removeSimilarPoints])
  · intro k hk
    rw [backwards, backwards, hD _ (by omega), hD _ (by omega)]
    split <;> split <;> omega

/-- The edges of a line with a falling step -/
theorem lineEdges_fall {rnd fl : ℚ → ℚ} (H : ∀ z : ℤ, |z| < 2 ^ 53 → rnd ((z : ℚ) / 2) = z / 2) (I : ∀ z : ℤ, |z| < 2 ^ 53 → rnd z = z) {P : Params}
    {forward : Bool} {n c : Nat} {D : Nat → Int} {a b : Int} (h2 : 2 ≤ c) (hc : c + 2 ≤ n) (hn : n < 4294967296)
    (hD : ∀ k, k < n → D k = if k < c then a else b) (ha : a ≤ 255 * P.group) (hab : b < a) (hb : 0 ≤ b)
    (hcon : (P.contrast * P.group : Nat) ≤ a - b) (hs : StepChecked fl P n (n - c)) :
    lineEdges rnd fl P forward n D = ([], [((n - c : Nat) : ℚ) - 1 / 2]) := by
  rw [lineEdges, allEdges_fall (D := D), allEdges_step (D := backwards n D) (c := n - c) H I (by omega) (by omega) hn (a := b) (b := a) ?_ hb hab ha hcon hs]
  · exact choose_single P forward _ (by simp [removeSimilarPoints]) (by simp [removeSimilarPoints, removeSimilar])
  · intro k hk
    rw [backwards, hD _ (by omega)]
    by_cases h : k < n - c
    · rw [if_pos h, if_neg (by omega)]
    · rw [if_neg h, if_pos (by omega)]
  · intro k hk
    rw [hD _ (by omega), hD _ (by omega)]
    split <;> split <;> omega

/-! ### Directions -/

/-- Scanning backwards with first and last exchanged chooses the same edges. -/
theorem choose_back {P Q : Params} {forward : Bool} (hf : P.edge = .first ↔ Q.edge = .last) (hl : P.edge = .last ↔ Q.edge = .first) (e : List ℚ × List ℚ) :
    choose Q (!forward) e = choose P forward e := by
  rw [choose, choose]
  cases forward <;> simp [hf, hl]

end PV.Edge
