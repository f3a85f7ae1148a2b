import Verif.EdgeFlLemmas
import Verif.PropsEdgeFind
import Verif.Rounding24
/-
  C179: edge detection with points of type `float` finds the edges found with points of type `double`.
-/
namespace PV.Props

open PV.Edge

/-! ### Roundings -/

/-- Halves of integers below 2^24 are numbers of type `float`. -/
theorem single_half (n : ℤ) (h : |n| < 2 ^ 24) : single ((n : ℚ) / 2) = n / 2 := by
  by_cases h0 : n = 0
  · rw [h0, Int.cast_zero, zero_div, single_zero]
  have hpos : (0 : ℚ) < |(n : ℚ) / 2| := abs_pos.mpr (by
    have : (n : ℚ) ≠ 0 := by exact_mod_cast h0
    exact div_ne_zero this (by norm_num))
  have hlog : Int.log 2 |(n : ℚ) / 2| < 23 := by
    rw [← Int.lt_zpow_iff_log_lt (by norm_num) hpos]
    have : ((|n| : ℤ) : ℚ) < 2 ^ 24 := by exact_mod_cast h
    push_cast at this ⊢
    rw [abs_div, abs_of_pos (show (0 : ℚ) < 2 by norm_num)]
    norm_num at this ⊢
    linarith
  obtain ⟨k, hk⟩ : ∃ k : ℕ, Int.log 2 |(n : ℚ) / 2| - 23 = -((k : ℤ) + 1) := ⟨(22 - Int.log 2 |(n : ℚ) / 2|).toNat, by omega⟩
  unfold single
  rw [hk, zpow_neg, show ((k : ℤ) + 1) = ((k + 1 : ℕ) : ℤ) by push_cast; rfl, zpow_natCast]
  have e : (n : ℚ) / 2 / ((2 : ℚ) ^ (k + 1))⁻¹ = ((n * 2 ^ k : ℤ) : ℚ) := by
    push_cast
    rw [pow_succ]
    field_simp
  rw [e, rne_int]
  push_cast
  rw [pow_succ]
  field_simp

/-- What is used of the roundings of `double` (`rnd`) and `float` (`fl`): they are monotonous, their relative error is small, and halves of integers which
    are not too large are not changed. -/
structure Roundings (rnd fl : ℚ → ℚ) : Prop where
  d : Rounding rnd
  f : Rounding24 fl
  dh : ∀ z : ℤ, |z| < 2 ^ 53 → rnd ((z : ℚ) / 2) = z / 2
  fh : ∀ z : ℤ, |z| < 2 ^ 24 → fl ((z : ℚ) / 2) = z / 2

variable {rnd fl : ℚ → ℚ}

theorem Roundings.natD (R : Roundings rnd fl) (n : Nat) (h : n < 2 ^ 53) : rnd (n : ℚ) = n := rnd_int R.d n h

theorem Roundings.natF (R : Roundings rnd fl) (n : Nat) (h : n < 2 ^ 24) : fl (n : ℚ) = n := by
  have := R.f.int (n : ℤ) (by rw [abs_of_nonneg (by omega)]; exact_mod_cast h)
  simpa using this

theorem Roundings.halfD (R : Roundings rnd fl) (n : Nat) (h : n < 2 ^ 53) : rnd ((n : ℚ) / 2) = n / 2 := by
  have := R.dh (n : ℤ) (by rw [abs_of_nonneg (by omega)]; exact_mod_cast h)
  simpa using this

theorem Roundings.halfF (R : Roundings rnd fl) (n : Nat) (h : n < 2 ^ 24) : fl ((n : ℚ) / 2) = n / 2 := by
  have := R.fh (n : ℤ) (by rw [abs_of_nonneg (by omega)]; exact_mod_cast h)
  simpa using this

/-! ### Positions in a line -/

theorem fl_position (R : Roundings rnd fl) {S : Nat → Int} {i : Nat} (hi : i + 1 < 2 ^ 23) (h1 : 0 ≤ S i) (h2 : S (i + 1) ≤ 0) :
    EdgeFl.positionOf rnd fl S i = fl (positionOf rnd S i) := by
  rw [EdgeFl.positionOf, positionOf]
  split
  · rfl
  · have e : ((i : ℚ) + 1 / 2) = ((2 * i + 1 : Nat) : ℚ) / 2 := by push_cast; ring
    rw [R.natF i (by omega), e, R.halfD _ (by omega)]

theorem fl_position_bounds (R : Roundings rnd fl) {S : Nat → Int} {i : Nat} (hi : i + 1 < 2 ^ 23) (h1 : 0 ≤ S i) (h2 : S (i + 1) ≤ 0) :
    (i : ℚ) ≤ EdgeFl.positionOf rnd fl S i ∧ EdgeFl.positionOf rnd fl S i ≤ i + 1 := by
  rw [fl_position R hi h1 h2]
  obtain ⟨b1, b2⟩ := positionOf_bounds R.d (S := S) (i := i) (by omega) h1 h2
  have e1 := R.natF i (by omega)
  have e2 := R.natF (i + 1) (by omega)
  push_cast at e2
  have a1 := R.f.mono _ _ b1
  have a2 := R.f.mono _ _ b2
  rw [e1] at a1
  rw [e2] at a2
  exact ⟨a1, a2⟩

theorem fl_position_near (R : Roundings rnd fl) {S : Nat → Int} {i : Nat} (hi : i + 1 < 2 ^ 23) (h1 : 0 ≤ S i) (h2 : S (i + 1) ≤ 0) :
    |EdgeFl.positionOf rnd fl S i - positionOf rnd S i| ≤ ((i : ℚ) + 1) / 2 ^ 23 := by
  rw [fl_position R hi h1 h2]
  obtain ⟨b1, b2⟩ := positionOf_bounds R.d (S := S) (i := i) (by omega) h1 h2
  refine (R.f.err _).trans (div_le_div_of_nonneg_right ?_ (by norm_num))
  rw [abs_of_nonneg (le_trans (Nat.cast_nonneg _) b1)]
  exact b2

/-- A position next to a pixel without curvature is a half of an integer. -/
theorem position_zero (R : Roundings rnd fl) {S : Nat → Int} {i : Nat} (hi : i + 1 < 2 ^ 23) (h : S i = 0 ∨ S (i + 1) = 0) :
    ∃ z : Nat, z ≤ 2 * i + 2 ∧ positionOf rnd S i = (z : ℚ) / 2 := by
  rw [positionOf]
  split
  · rename_i hne
    rcases h with h | h
    · refine ⟨2 * i, by omega, ?_⟩
      have r0 := R.natD 0 (by norm_num)
      rw [Nat.cast_zero] at r0
      rw [h, Int.cast_zero, zero_div, r0, add_zero, R.natD i (by omega)]
      push_cast
      ring
    · refine ⟨2 * i + 2, by omega, ?_⟩
      have r1 := R.natD 1 (by norm_num)
      rw [Nat.cast_one] at r1
      have r2 := R.natD (i + 1) (by omega)
      push_cast at r2
      have h0 : (S i : ℚ) ≠ 0 := by
        rw [h] at hne
        exact_mod_cast hne
      rw [h, sub_zero, div_self h0, r1, r2]
      push_cast
      ring
  · refine ⟨2 * i + 1, by omega, ?_⟩
    rw [show ((i : ℚ) + 1 / 2) = ((2 * i + 1 : Nat) : ℚ) / 2 by push_cast; ring, R.halfD _ (by omega)]

/-- Whether two edges are too near to each other does not depend on the rounding. -/
theorem similar_iff (R : Roundings rnd fl) {S : Nat → Int} {i j : Nat} (hij : i < j) (hj : j + 1 < 2 ^ 23) (i1 : 0 ≤ S i) (i2 : S (i + 1) ≤ 0)
    (j1 : 0 ≤ S j) (j2 : S (j + 1) ≤ 0) :
    rnd (positionOf rnd S j - positionOf rnd S i) < 1 ↔ fl (EdgeFl.positionOf rnd fl S j - EdgeFl.positionOf rnd fl S i) < 1 := by
  by_cases h : j = i + 1
  · subst h
    have h0 : S (i + 1) = 0 := by omega
    obtain ⟨a, a1, a2⟩ := position_zero R (S := S) (i := i) (by omega) (Or.inr h0)
    obtain ⟨b, b1, b2⟩ := position_zero R (S := S) (i := i + 1) (by omega) (Or.inl h0)
    rw [fl_position R (by omega) i1 i2, fl_position R (by omega) j1 j2, a2, b2, R.halfF a (by omega), R.halfF b (by omega)]
    have e : (b : ℚ) / 2 - (a : ℚ) / 2 = (((b : ℤ) - a : ℤ) : ℚ) / 2 := by
      push_cast
      ring
    have hz : |(b : ℤ) - a| < 2 ^ 24 := by
      rw [abs_lt]
      constructor <;> omega
    rw [e, R.fh _ hz, R.dh _ (lt_trans hz (by norm_num))]
  · have far : ∀ {x y : ℚ}, x ≤ i + 1 → (j : ℚ) ≤ y → 1 ≤ y - x := by
      intro x y hx hy
      have : (i : ℚ) + 2 ≤ j := by exact_mod_cast (show i + 2 ≤ j by omega)
      linarith
    have d1 := far (positionOf_bounds R.d (S := S) (i := i) (by omega) i1 i2).2 (positionOf_bounds R.d (S := S) (i := j) (by omega) j1 j2).1
    have d2 := far (fl_position_bounds R (S := S) (i := i) (by omega) i1 i2).2 (fl_position_bounds R (S := S) (i := j) (by omega) j1 j2).1
    have r1 := R.natD 1 (by norm_num)
    have r2 := R.natF 1 (by norm_num)
    rw [Nat.cast_one] at r1 r2
    have m1 := R.d.mono _ _ d1
    have m2 := R.f.mono _ _ d2
    rw [r1] at m1
    rw [r2] at m2
    exact ⟨fun h => absurd h (not_lt.2 m1), fun h => absurd h (not_lt.2 m2)⟩

theorem similar_same {r1 r2 : ℚ → ℚ} {Q1 Q2 : Nat → ℚ} (l : List Nat) :
    ∀ a, (a :: l).Pairwise (fun i j => r1 (Q1 j - Q1 i) < 1 ↔ r2 (Q2 j - Q2 i) < 1) →
      ∃ K : List Nat, K.Sublist (a :: l) ∧ removeSimilar r1 (Q1 a) (l.map Q1) = K.map Q1 ∧ removeSimilar r2 (Q2 a) (l.map Q2) = K.map Q2 := by
  induction l with
  | nil => exact fun a _ => ⟨[a], List.Sublist.refl _, rfl, rfl⟩
  | cons b l ih =>
    intro a h
    rw [List.pairwise_cons] at h
    have hb := h.1 b (by simp)
    by_cases hs : r1 (Q1 b - Q1 a) < 1
    · obtain ⟨K, k1, k2, k3⟩ := ih a (List.pairwise_cons.2 ⟨fun c hc => h.1 c (List.mem_cons_of_mem _ hc), (List.pairwise_cons.1 h.2).2⟩)
      refine ⟨K, k1.trans ((List.sublist_cons_self b l).cons₂ a), ?_, ?_⟩
      · rw [List.map_cons, removeSimilar, if_pos hs, k2]
      · rw [List.map_cons, removeSimilar, if_pos (hb.1 hs), k3]
    · obtain ⟨K, k1, k2, k3⟩ := ih b h.2
      refine ⟨a :: K, k1.cons₂ a, ?_, ?_⟩
      · rw [List.map_cons, removeSimilar, if_neg hs, k2, List.map_cons]
      · rw [List.map_cons, removeSimilar, if_neg (fun h => hs (hb.2 h)), k3, List.map_cons]

theorem similarPoints_same {r1 r2 : ℚ → ℚ} {Q1 Q2 : Nat → ℚ} {l : List Nat} (h : l.Pairwise (fun i j => r1 (Q1 j - Q1 i) < 1 ↔ r2 (Q2 j - Q2 i) < 1)) :
    ∃ K : List Nat, K.Sublist l ∧ removeSimilarPoints r1 (l.map Q1) = K.map Q1 ∧ removeSimilarPoints r2 (l.map Q2) = K.map Q2 := by
  cases l with
  | nil => exact ⟨[], List.Sublist.refl _, rfl, rfl⟩
  | cons a l => exact similar_same l a h

/-- What is known about the indices of edges -/
def EdgeIndex (n : Nat) (D : Nat → Int) (i : Nat) : Prop := i + 2 < n ∧ 1 ≤ i ∧ 0 ≤ secondOf D i ∧ secondOf D (i + 1) ≤ 0

/-- The same edges are left. -/
theorem allEdges_same (R : Roundings rnd fl) {P : Params} {n : Nat} {D : Nat → Int} (hn : n ≤ 2 ^ 23) :
    ∃ K : List Nat, (∀ i ∈ K, EdgeIndex n D i) ∧
      removeSimilarPoints rnd (allEdges rnd fl P n D) = K.map (positionOf rnd (secondOf D)) ∧
      removeSimilarPoints fl (EdgeFl.allEdges rnd fl P n D) = K.map (EdgeFl.positionOf rnd fl (secondOf D)) := by
  classical
  rw [allEdges, EdgeFl.allEdges]
  obtain ⟨L, hL⟩ : ∃ L, L = (List.range' 1 (n - 3)).filter fun i => EdgeAt rnd fl P n D i := ⟨_, rfl⟩
  have mem : ∀ i ∈ L, EdgeIndex n D i := by
    intro i hi
    rw [hL, List.mem_filter, List.mem_range'_1] at hi
    have e : EdgeAt rnd fl P n D i := by simpa using hi.2
    exact ⟨by omega, hi.1.1, e.before, e.after⟩
  have lt : L.Pairwise (· < ·) := by
    rw [hL]
    exact (List.pairwise_lt_range' (s := 1) (n := n - 3)).sublist List.filter_sublist
  obtain ⟨K, k1, k2, k3⟩ := similarPoints_same (r1 := rnd) (r2 := fl) (Q1 := positionOf rnd (secondOf D)) (Q2 := EdgeFl.positionOf rnd fl (secondOf D))
    (l := L) (List.Pairwise.imp_of_mem (fun {i j} hi hj hij => by
      obtain ⟨_, _, i1, i2⟩ := mem i hi
      obtain ⟨j0, _, j1, j2⟩ := mem j hj
      exact similar_iff R hij (by omega) i1 i2 j1 j2) lt)
  rw [← hL]
  exact ⟨K, fun i hi => mem i (k1.subset hi), k2, k3⟩

theorem leaveFirst_map {α : Type} (Q : α → ℚ) (K : List α) : leaveFirst (K.map Q) = (K.take 1).map Q := by
  match K with
  | [] => rfl
  | [a] => rfl
  | a :: b :: l => simp [leaveFirst]

theorem leaveLast_map {α : Type} (Q : α → ℚ) (K : List α) : leaveLast (K.map Q) = (K.drop (K.length - 1)).map Q := by
  match K with
  | [] => rfl
  | [a] => rfl
  | a :: b :: l => simp [leaveLast]

/-- The same edges are chosen. -/
theorem lineEdges_same (R : Roundings rnd fl) {P : Params} {forward : Bool} {n : Nat} {D : Nat → Int} (hn : n ≤ 2 ^ 23) :
    ∃ K1 K2 : List Nat, (∀ i ∈ K1, EdgeIndex n D i) ∧ (∀ i ∈ K2, EdgeIndex n (backwards n D) i) ∧
      lineEdges rnd fl P forward n D = (K1.map (positionOf rnd (secondOf D)), K2.map (positionOf rnd (secondOf (backwards n D)))) ∧
      EdgeFl.lineEdges rnd fl P forward n D =
        (K1.map (EdgeFl.positionOf rnd fl (secondOf D)), K2.map (EdgeFl.positionOf rnd fl (secondOf (backwards n D)))) := by
  obtain ⟨A, a1, a2, a3⟩ := allEdges_same R (P := P) (D := D) hn
  obtain ⟨B, b1, b2, b3⟩ := allEdges_same R (P := P) (D := backwards n D) hn
  rw [lineEdges, EdgeFl.lineEdges, a2, a3, b2, b3, choose, choose]
  simp only [leaveFirst_map, leaveLast_map]
  split
  · exact ⟨_, _, fun i hi => a1 i (List.mem_of_mem_take hi), fun i hi => b1 i (List.mem_of_mem_drop hi), rfl, rfl⟩
  · split
    · exact ⟨_, _, fun i hi => a1 i (List.mem_of_mem_drop hi), fun i hi => b1 i (List.mem_of_mem_take hi), rfl, rfl⟩
    · exact ⟨_, _, a1, b1, rfl, rfl⟩

/-! ### Points -/

/-- Rounding in `float` and in `double` of numbers near to each other -/
theorem rounded_near (R : Roundings rnd fl) {p q T E : ℚ} (hp0 : 0 ≤ p) (hp : p ≤ T) (hq0 : 0 ≤ q) (hq : q ≤ T) (hE : |q - p| ≤ E) :
    |fl q - rnd p| ≤ E + T / 2 ^ 23 + T / 2 ^ 52 := by
  have h1 := R.f.err q
  have h2 := R.d.err p
  rw [abs_of_nonneg hq0] at h1
  rw [abs_of_nonneg hp0] at h2
  have h3 : q / 2 ^ 23 ≤ T / 2 ^ 23 := div_le_div_of_nonneg_right hq (by norm_num)
  have h4 : p / 2 ^ 52 ≤ T / 2 ^ 52 := div_le_div_of_nonneg_right hp (by norm_num)
  rw [abs_le] at *
  constructor <;> linarith [h1.1, h1.2, h2.1, h2.2, hE.1, hE.2]

/-- The total error: positions up to `T - 2` -/
theorem total_near {T e x : ℚ} (hT0 : 0 ≤ T) (hT : T ≤ 2 ^ 23) (he : e ≤ (T - 2) / 2 ^ 23) (h : x ≤ e + (T - 2) / 2 ^ 23 + (T - 2) / 2 ^ 52) :
    x ≤ T / 2 ^ 22 := by
  have h1 : (T - 2) / 2 ^ 23 + (T - 2) / 2 ^ 23 + (T - 2) / 2 ^ 52 ≤ T / 2 ^ 22 := by
    have : (T - 2) / 2 ^ 52 ≤ 2 ^ 23 / 2 ^ 52 := div_le_div_of_nonneg_right (by linarith) (by norm_num)
    norm_num at *
    linarith
  linarith

theorem up_near (R : Roundings rnd fl) {S : Nat → Int} {i x n : Nat} (hi : i + 2 < n) (hn : x + n ≤ 2 ^ 23) (h1 : 0 ≤ S i) (h2 : S (i + 1) ≤ 0) :
    |fl (fl x + EdgeFl.positionOf rnd fl S i) - rnd (x + positionOf rnd S i)| ≤ ((x + n : Nat) : ℚ) / 2 ^ 22 := by
  obtain ⟨a1, a2⟩ := positionOf_bounds R.d (S := S) (i := i) (by omega) h1 h2
  obtain ⟨b1, b2⟩ := fl_position_bounds R (S := S) (i := i) (by omega) h1 h2
  have he := fl_position_near R (S := S) (i := i) (by omega) h1 h2
  have hx : (0 : ℚ) ≤ x := Nat.cast_nonneg _
  have hi0 : (0 : ℚ) ≤ i := Nat.cast_nonneg _
  have hin : (i : ℚ) + 3 ≤ n := by exact_mod_cast hi
  have hT : ((x + n : Nat) : ℚ) ≤ 2 ^ 23 := by exact_mod_cast (show x + n ≤ 2 ^ 23 by omega)
  push_cast at hT ⊢
  rw [R.natF x (by omega)]
  have key := rounded_near R (p := x + positionOf rnd S i) (q := x + EdgeFl.positionOf rnd fl S i) (T := x + n - 2) (E := ((i : ℚ) + 1) / 2 ^ 23)
    (by linarith) (by linarith) (by linarith) (by linarith) (by rw [add_sub_add_left_eq_sub]; exact he)
  exact total_near (by linarith) hT (div_le_div_of_nonneg_right (by linarith) (by norm_num)) key

theorem down_near (R : Roundings rnd fl) {S : Nat → Int} {i x n : Nat} (hi : i + 2 < n) (hi1 : 1 ≤ i) (hn : x + n ≤ 2 ^ 23) (h1 : 0 ≤ S i)
    (h2 : S (i + 1) ≤ 0) :
    |fl (fl ((x + n - 1 : Nat) : ℚ) - EdgeFl.positionOf rnd fl S i) - rnd (((x + n - 1 : Nat) : ℚ) - positionOf rnd S i)| ≤
      ((x + n : Nat) : ℚ) / 2 ^ 22 := by
  obtain ⟨a1, a2⟩ := positionOf_bounds R.d (S := S) (i := i) (by omega) h1 h2
  obtain ⟨b1, b2⟩ := fl_position_bounds R (S := S) (i := i) (by omega) h1 h2
  have he := fl_position_near R (S := S) (i := i) (by omega) h1 h2
  have hx : (0 : ℚ) ≤ x := Nat.cast_nonneg _
  have hi0 : (1 : ℚ) ≤ i := by exact_mod_cast hi1
  have hin : (i : ℚ) + 3 ≤ n := by exact_mod_cast hi
  have hT : ((x + n : Nat) : ℚ) ≤ 2 ^ 23 := by exact_mod_cast (show x + n ≤ 2 ^ 23 by omega)
  have hc : ((x + n - 1 : Nat) : ℚ) = x + n - 1 := by
    rw [Nat.cast_sub (by omega)]
    push_cast
    ring
  rw [R.natF (x + n - 1) (by omega), hc]
  push_cast at hT ⊢
  have key := rounded_near R (p := x + n - 1 - positionOf rnd S i) (q := x + n - 1 - EdgeFl.positionOf rnd fl S i) (T := x + n - 2)
    (E := ((i : ℚ) + 1) / 2 ^ 23) (by linarith) (by linarith) (by linarith) (by linarith)
    (by rw [show ∀ a b c : ℚ, a - b - (a - c) = -(b - c) from fun a b c => by ring, abs_neg]; exact he)
  exact total_near (by linarith) hT (div_le_div_of_nonneg_right (by linarith) (by norm_num)) key

/-- Coordinates of lines are the same. -/
theorem coordinate_same (R : Roundings rnd fl) {P : Params} {v : View} {w h r : Nat} (hg : 0 < P.group) (hr : r ∈ edgeLines P w h)
    (hx : v.x + w ≤ 2 ^ 23) (hy : v.y + h ≤ 2 ^ 23) : fl (edgeCoordinate rnd P v r) = edgeCoordinate rnd P v r := by
  rw [edgeLines, List.mem_filter, List.mem_range] at hr
  have hr1 : (if edgeAcross P then v.y else v.x) + r + P.group ≤ 2 ^ 23 := by
    have := hr.1
    rw [edgeCount] at this
    split at this <;> rename_i ha
    · rw [if_pos ha]; omega
    · rw [if_neg ha]; omega
  rw [edgeCoordinate]
  obtain ⟨c, hc⟩ : ∃ c, c = (if edgeAcross P then v.y else v.x) + r := ⟨_, rfl⟩
  rw [← hc] at hr1 ⊢
  have e1 : ((P.group : ℚ) - 1) / 2 = ((P.group - 1 : Nat) : ℚ) / 2 := by
    rw [Nat.cast_sub (by omega), Nat.cast_one]
  have e2 : (c : ℚ) + ((P.group - 1 : Nat) : ℚ) / 2 = ((2 * c + (P.group - 1) : Nat) : ℚ) / 2 := by
    push_cast
    ring
  rw [e1, R.halfD _ (by omega), e2, R.halfD _ (by omega), R.halfF _ (by omega)]

/-- The points `p` of type `double` and `q` of type `float` are on the same line and, along it, not farther from each other than 2^-22 times the farthest
    coordinate of the region. -/
def SamePoint (P : Params) (v : View) (w h : Nat) (p q : ℚ × ℚ) : Prop :=
  if edgeAcross P then |q.1 - p.1| ≤ ((v.x + w : Nat) : ℚ) / 2 ^ 22 ∧ q.2 = p.2
  else q.1 = p.1 ∧ |q.2 - p.2| ≤ ((v.y + h : Nat) : ℚ) / 2 ^ 22

theorem placeUp_same (R : Roundings rnd fl) {P : Params} {v : View} {w h r : Nat} (hg : 0 < P.group) (hr : r ∈ edgeLines P w h)
    (hx : v.x + w ≤ 2 ^ 23) (hy : v.y + h ≤ 2 ^ 23) {D : Nat → Int} {i : Nat} (hi : EdgeIndex (edgeLength P w h) D i) :
    SamePoint P v w h (placeUp rnd P v r (positionOf rnd (secondOf D) i)) (EdgeFl.placeUp rnd fl P v r (EdgeFl.positionOf rnd fl (secondOf D) i)) := by
  obtain ⟨i0, _, i1, i2⟩ := hi
  rw [edgeLength] at i0
  rw [SamePoint, placeUp, EdgeFl.placeUp, coordinate_same R hg hr hx hy]
  split <;> rename_i ha
  · rw [if_pos ha] at i0
    exact ⟨up_near R i0 hx i1 i2, rfl⟩
  · rw [if_neg ha] at i0
    exact ⟨rfl, up_near R i0 hy i1 i2⟩

theorem placeDown_same (R : Roundings rnd fl) {P : Params} {v : View} {w h r : Nat} (hg : 0 < P.group) (hr : r ∈ edgeLines P w h)
    (hx : v.x + w ≤ 2 ^ 23) (hy : v.y + h ≤ 2 ^ 23) {D : Nat → Int} {i : Nat} (hi : EdgeIndex (edgeLength P w h) D i) :
    SamePoint P v w h (placeDown rnd P v w h r (positionOf rnd (secondOf D) i))
      (EdgeFl.placeDown rnd fl P v w h r (EdgeFl.positionOf rnd fl (secondOf D) i)) := by
  obtain ⟨i0, i3, i1, i2⟩ := hi
  rw [edgeLength] at i0
  rw [SamePoint, placeDown, EdgeFl.placeDown, coordinate_same R hg hr hx hy]
  split <;> rename_i ha
  · rw [if_pos ha] at i0
    exact ⟨down_near R i0 i3 hx i1 i2, rfl⟩
  · rw [if_neg ha] at i0
    exact ⟨rfl, down_near R i0 i3 hy i1 i2⟩

theorem forall₂_flatMap {α β γ : Type} {r : β → γ → Prop} {f : α → List β} {g : α → List γ} {l : List α} (h : ∀ a ∈ l, List.Forall₂ r (f a) (g a)) :
    List.Forall₂ r (l.flatMap f) (l.flatMap g) := by
  induction l with
  | nil => exact List.Forall₂.nil
  | cons a l ih =>
    rw [List.flatMap_cons, List.flatMap_cons]
    exact List.rel_append (h a (by simp)) (ih fun b hb => h b (List.mem_cons_of_mem _ hb))

theorem forall₂_map {α β γ : Type} {r : β → γ → Prop} {f : α → β} {g : α → γ} {l : List α} (h : ∀ a ∈ l, r (f a) (g a)) :
    List.Forall₂ r (l.map f) (l.map g) := by
  induction l with
  | nil => exact List.Forall₂.nil
  | cons a l ih => exact List.Forall₂.cons (h a (by simp)) (ih fun b hb => h b (List.mem_cons_of_mem _ hb))

/-! ### C179 -/

theorem fl_short {m : BMem} {v : View} {w h : Nat} {P : Params} (c : EdgeCall m v w h P) (h4 : edgeLength P w h < 4) :
    EdgeFl.find rnd fl v w h P m = .ok ([], []) m := by
  obtain ⟨c1, c2, c3⟩ := find_checks c
  rw [EdgeFl.find, bind_ok c1, bind_ok c2, bind_ok c3]
  have ehor : P.horizontal = edgeAcross P := rfl
  rw [edgeLength] at h4
  rw [ehor, if_pos]
  · rfl
  · by_cases ha : edgeAcross P = true
    · rw [if_pos ha] at h4
      exact Or.inl ⟨ha, h4⟩
    · rw [if_neg ha] at h4
      exact Or.inr ⟨ha, h4⟩

/-- C179: for regions which end before coordinate 2^23 the detectors with `double` and `float` points find the same number of positive and of negative
    edges, one by one on the same lines and at the same places up to the precision of `float`. -/
theorem C179_partial (R : Roundings rnd fl) {m : BMem} {v : View} {w h : Nat} {P : Params} (c : EdgeCall m v w h P) (hx : v.x + w ≤ 2 ^ 23)
    (hy : v.y + h ≤ 2 ^ 23) :
    ∃ pos neg posF negF, find rnd fl v w h P m = .ok (pos, neg) m ∧ EdgeFl.find rnd fl v w h P m = .ok (posF, negF) m ∧
      List.Forall₂ (SamePoint P v w h) pos posF ∧ List.Forall₂ (SamePoint P v w h) neg negF := by
  by_cases h4 : 4 ≤ edgeLength P w h
  · refine ⟨_, _, _, _, find_ok c h4, EdgeFl.find_ok c h4, ?_⟩
    have hn : edgeLength P w h ≤ 2 ^ 23 := by
      rw [edgeLength]
      split <;> omega
    have up : List.Forall₂ (SamePoint P v w h) (upPoints rnd P v w h (edgesOf rnd fl P v m w h))
        (EdgeFl.upPoints rnd fl P v w h (EdgeFl.edgesOf rnd fl P v m w h)) := by
      refine forall₂_flatMap fun r hr => ?_
      obtain ⟨K1, K2, k1, k2, k3, k4⟩ := lineEdges_same R (P := P) (forward := !edgeBack P) (D := edgeLine P v m r) hn
      rw [edgesOf, EdgeFl.edgesOf, k3, k4, List.map_map, List.map_map]
      exact forall₂_map fun i hi => placeUp_same R c.group0 hr hx hy (k1 i hi)
    have down : List.Forall₂ (SamePoint P v w h) (downPoints rnd P v w h (edgesOf rnd fl P v m w h))
        (EdgeFl.downPoints rnd fl P v w h (EdgeFl.edgesOf rnd fl P v m w h)) := by
      refine forall₂_flatMap fun r hr => ?_
      obtain ⟨K1, K2, k1, k2, k3, k4⟩ := lineEdges_same R (P := P) (forward := !edgeBack P) (D := edgeLine P v m r) hn
      rw [edgesOf, EdgeFl.edgesOf, k3, k4, List.map_map, List.map_map]
      exact forall₂_map fun i hi => placeDown_same R c.group0 hr hx hy (k2 i hi)
    rw [positivePoints, EdgeFl.positivePoints, negativePoints, EdgeFl.negativePoints]
    constructor
    · split
      · exact List.Forall₂.nil
      · split
        · exact down
        · exact up
    · split
      · exact List.Forall₂.nil
      · split
        · exact up
        · exact down
  · exact ⟨[], [], [], [], C57_short c (by omega), fl_short c (by omega), List.Forall₂.nil, List.Forall₂.nil⟩

/-- The positions of type `float` are the rounded positions of type `double`. -/
theorem lineEdges_fl (R : Roundings rnd fl) {P : Params} {forward : Bool} {n : Nat} {D : Nat → Int} (hn : n ≤ 2 ^ 23) :
    EdgeFl.lineEdges rnd fl P forward n D = ((lineEdges rnd fl P forward n D).1.map fl, (lineEdges rnd fl P forward n D).2.map fl) := by
  obtain ⟨K1, K2, k1, k2, k3, k4⟩ := lineEdges_same R (P := P) (forward := forward) (D := D) hn
  rw [k3, k4, List.map_map, List.map_map]
  congr 1
  · refine List.map_congr_left fun i hi => ?_
    obtain ⟨i0, _, i1, i2⟩ := k1 i hi
    exact fl_position R (by omega) i1 i2
  · refine List.map_congr_left fun i hi => ?_
    obtain ⟨i0, _, i1, i2⟩ := k2 i hi
    exact fl_position R (by omega) i1 i2

theorem Roundings.middle (R : Roundings rnd fl) {p : Nat} (hp : p ≤ 2 ^ 23) : fl ((p : ℚ) - 1 / 2) = p - 1 / 2 := by
  have e : (p : ℚ) - 1 / 2 = ((2 * p - 1 : ℤ) : ℚ) / 2 := by
    push_cast
    ring
  rw [e, R.fh _ (by rw [abs_lt]; constructor <;> omega)]

theorem fl_lineEdges_up (R : Roundings rnd fl) {P : Params} {forward : Bool} {n p : Nat} {D : Nat → Int} (hn : n ≤ 2 ^ 23) (hp : p ≤ n)
    (h : lineEdges rnd fl P forward n D = ([(p : ℚ) - 1 / 2], [])) : EdgeFl.lineEdges rnd fl P forward n D = ([(p : ℚ) - 1 / 2], []) := by
  rw [lineEdges_fl R hn, h, List.map_singleton, R.middle (by omega)]
  rfl

theorem fl_lineEdges_down (R : Roundings rnd fl) {P : Params} {forward : Bool} {n p : Nat} {D : Nat → Int} (hn : n ≤ 2 ^ 23) (hp : p ≤ n)
    (h : lineEdges rnd fl P forward n D = ([], [(p : ℚ) - 1 / 2])) : EdgeFl.lineEdges rnd fl P forward n D = ([], [(p : ℚ) - 1 / 2]) := by
  rw [lineEdges_fl R hn, h, List.map_singleton, R.middle (by omega)]
  rfl

theorem fl_place_step (R : Roundings rnd fl) {m : BMem} {v : View} {w h : Nat} {P : Params} (c : EdgeCall m v w h P) {p r : Nat} (hp : 0 < p)
    (hp2 : p ≤ edgeLength P w h) (hr : r ∈ edgeLines P w h) (hx : v.x + w ≤ 2 ^ 23) (hy : v.y + h ≤ 2 ^ 23) :
    EdgeFl.placeUp rnd fl P v r ((p : ℚ) - 1 / 2) = stepPoint P v p r ∧
      EdgeFl.placeDown rnd fl P v w h r (((edgeLength P w h - p : Nat) : ℚ) - 1 / 2) = stepPoint P v p r := by
  obtain ⟨s1, s2⟩ := place_step R.dh c hp hp2 hr
  have hw := c.fit.wpos
  have hh := c.fit.hpos
  have key : ∀ s n : Nat, 0 < n → s + n ≤ 2 ^ 23 → p ≤ n →
      fl (fl s + ((p : ℚ) - 1 / 2)) = rnd ((s : ℚ) + ((p : ℚ) - 1 / 2)) ∧
      fl (fl ((s + n - 1 : Nat) : ℚ) - (((n - p : Nat) : ℚ) - 1 / 2)) = rnd (((s + n - 1 : Nat) : ℚ) - (((n - p : Nat) : ℚ) - 1 / 2)) := by
    intro s n hn hs hpn
    have e : (s : ℚ) + ((p : ℚ) - 1 / 2) = ((2 * s + 2 * p - 1 : ℤ) : ℚ) / 2 := by
      push_cast
      ring
    have e2 : ((s + n - 1 : Nat) : ℚ) - (((n - p : Nat) : ℚ) - 1 / 2) = (s : ℚ) + ((p : ℚ) - 1 / 2) := by
      rw [Nat.cast_sub (by omega), Nat.cast_sub hpn]
      push_cast
      ring
    rw [R.natF s (by omega), R.natF (s + n - 1) (by omega), e2, e, R.fh _ (by rw [abs_of_nonneg (by omega)]; omega),
      R.dh _ (by rw [abs_of_nonneg (by omega)]; omega)]
    exact ⟨rfl, rfl⟩
  rw [← s1]
  refine ⟨?_, s1 ▸ s2 ▸ ?_⟩
  · rw [EdgeFl.placeUp, placeUp, coordinate_same R c.group0 hr hx hy]
    split <;> rename_i ha
    · rw [edgeLength, if_pos ha] at hp2
      rw [(key v.x w hw hx hp2).1]
    · rw [edgeLength, if_neg ha] at hp2
      rw [(key v.y h hh hy hp2).1]
  · rw [EdgeFl.placeDown, placeDown, coordinate_same R c.group0 hr hx hy, edgeLength]
    split <;> rename_i ha
    · rw [edgeLength, if_pos ha] at hp2
      rw [(key v.x w hw hx hp2).2]
    · rw [edgeLength, if_neg ha] at hp2
      rw [(key v.y h hh hy hp2).2]

/-- C179: a step is found exactly once in every group of lines, halfway between its two pixels; it is a positive edge if the values grow in the direction
    of the scan and a negative edge otherwise; points of type `float`. -/
theorem C179_step (R : Roundings rnd fl) {m : BMem} {v : View} {w h : Nat}
    {P : Params} (c : EdgeCall m v w h P) {a b : UInt8} {p : Nat} (s : EdgeStep fl m v w h P a b p) (hx : v.x + w ≤ 2 ^ 23)
    (hy : v.y + h ≤ 2 ^ 23) :
    EdgeFl.find rnd fl v w h P m = .ok
      (if (edgeBack P = false ↔ a < b) then (if P.gradient = .negative then [] else (edgeLines P w h).map (stepPoint P v p), [])
        else ([], if P.gradient = .positive then [] else (edgeLines P w h).map (stepPoint P v p))) m := by
  have hs1 := s.start
  have hs2 := s.stop
  have hlen := c.length
  have hn : edgeLength P w h ≤ 2 ^ 23 := by
    rw [edgeLength]
    split <;> omega
  have ha := a.toNat_lt
  have hb := b.toNat_lt
  have hc0 := c.contrast0
  have hg0 := c.group0
  have hab : a < b ↔ a.toNat < b.toNat := UInt8.lt_iff_toNat_lt
  have mulLe : ∀ x y : Nat, x ≤ y → (P.group : Int) * x ≤ P.group * y := fun x y hxy =>
    mul_le_mul_of_nonneg_left (by exact_mod_cast hxy) (by positivity)
  have mulLt : ∀ x y : Nat, x < y → (P.group : Int) * x < P.group * y := fun x y hxy =>
    mul_lt_mul_of_pos_left (by exact_mod_cast hxy) (by exact_mod_cast hg0)
  have con : ∀ x y : Nat, x + P.contrast ≤ y → ((P.contrast * P.group : Nat) : Int) ≤ (P.group : Int) * y - P.group * x := by
    intro x y hxy
    have := mulLe _ _ hxy
    push_cast at this ⊢
    nlinarith
  have small : ∀ x : Nat, x < 256 → (P.group : Int) * x ≤ 255 * P.group := by
    intro x hx
    have := mulLe x 255 (by omega)
    push_cast at this
    linarith
  rw [EdgeFl.find_ok c (by omega)]
  by_cases lt : a < b
  · have hE : ∀ r ∈ edgeLines P w h, EdgeFl.edgesOf rnd fl P v m w h r = ([(p : ℚ) - 1 / 2], []) := by
      intro r hr
      have hck := s.checked
      rw [if_pos lt] at hck
      refine fl_lineEdges_up R hn (by omega) ?_
      exact lineEdges_rise R.dh R.d.int hs1 hs2 hlen (fun k hk => edgeLine_step s hr hk) (by positivity) (mulLt _ _ (hab.1 lt)) (small _ hb)
        (con _ _ (by have := s.contrast; have := hab.1 lt; omega)) hck
    have hu : EdgeFl.upPoints rnd fl P v w h (EdgeFl.edgesOf rnd fl P v m w h) = (edgeLines P w h).map (stepPoint P v p) := by
      rw [EdgeFl.upPoints, ← flatMap_single']
      refine flatMap_congr' fun r hr => ?_
      rw [hE r hr, List.map_singleton, (fl_place_step R c (by omega) (by omega) hr hx hy).1]
    have hd : EdgeFl.downPoints rnd fl P v w h (EdgeFl.edgesOf rnd fl P v m w h) = [] := by
      rw [EdgeFl.downPoints, flatMap_congr' (g := fun _ => []) fun r hr => by rw [hE r hr]; rfl]
      simp
    rw [EdgeFl.positivePoints, EdgeFl.negativePoints, hu, hd]
    congr 1
    cases edgeBack P <;> simp [lt]
  · have hE : ∀ r ∈ edgeLines P w h, EdgeFl.edgesOf rnd fl P v m w h r = ([], [((edgeLength P w h - p : Nat) : ℚ) - 1 / 2]) := by
      intro r hr
      have hck := s.checked
      rw [if_neg lt] at hck
      rw [hab] at lt
      refine fl_lineEdges_down R hn (by omega) ?_
      exact lineEdges_fall R.dh R.d.int hs1 hs2 hlen (fun k hk => edgeLine_step s hr hk) (small _ ha) (mulLt _ _ (by have := s.contrast; omega)) (by positivity)
        (con _ _ (by have := s.contrast; omega)) hck
    have hd : EdgeFl.downPoints rnd fl P v w h (EdgeFl.edgesOf rnd fl P v m w h) = (edgeLines P w h).map (stepPoint P v p) := by
      rw [EdgeFl.downPoints, ← flatMap_single']
      refine flatMap_congr' fun r hr => ?_
      rw [hE r hr, List.map_singleton, (fl_place_step R c (by omega) (by omega) hr hx hy).2]
    have hu : EdgeFl.upPoints rnd fl P v w h (EdgeFl.edgesOf rnd fl P v m w h) = [] := by
      rw [EdgeFl.upPoints, flatMap_congr' (g := fun _ => []) fun r hr => by rw [hE r hr]; rfl]
      simp
    rw [EdgeFl.positivePoints, EdgeFl.negativePoints, hu, hd]
    congr 1
    cases edgeBack P <;> simp [lt]

/-- C179: both reject the same calls. -/
theorem C179_rejects {m : BMem} {v : View} {w h : Nat} {P : Params} (hv : v.U32) (hw : w < 4294967296) (hh : h < 4294967296)
    (hbad : v.img.cc ≠ 1 ∨ ¬ v.Fits w h ∨ P.group = 0 ∨ P.skip = 0 ∨ P.contrast = 0) : EdgeFl.find rnd fl v w h P m = .throw m := by
  by_cases h1 : v.img.cc ≠ 1
  · have e : verifyGray [v.img] m = .throw m := by
      rw [verifyGray]
      simp only [List.any_cons, List.any_nil, Bool.or_false]
      rw [show (v.img.cc != 1) = true by simpa using h1]
      rfl
    rw [EdgeFl.find, bind_throw e]
  · have e1 : verifyGray [v.img] m = .ok () m := by
      rw [verifyGray]
      simp only [List.any_cons, List.any_nil, Bool.or_false]
      rw [show (v.img.cc != 1) = false by simpa using h1]
      rfl
    rw [EdgeFl.find, bind_ok e1]
    by_cases h2 : v.Fits w h
    · rw [bind_ok (validateRoi_ok m h2 hv.hw hv.hh)]
      have e : P.verify m = .throw m := by
        have : (P.group == 0 || P.skip == 0 || P.contrast == 0) = true := by
          simp only [Bool.or_eq_true, beq_iff_eq]
          tauto
        rw [Params.verify, this]
        rfl
      rw [bind_throw e]
    · rw [bind_throw (validateRoi_throw m h2 hv hw hh)]

/-- `double` and `float` -/
theorem roundings_ieee : Roundings double single := ⟨Rounding.double, Rounding24.single, double_half, single_half⟩

/-- A slope with its edge at 2 2/3 (positive) and its mirror image -/
def slopeMem : BMem := ⟨fun b => if b = 1 then 16 else 0, fun _ i => [10, 10, 20, 80, 100, 100, 100, 100, 100, 80, 20, 10, 10, 10, 10, 10].getD i 0⟩

def slopeImg : View := ⟨⟨1, 8, 2, 1, 8⟩, 0, 0⟩

theorem slopeCall : EdgeCall slopeMem slopeImg 8 2 edgeParams :=
  ⟨⟨by decide, by decide, by decide⟩, ⟨by decide, by decide, by decide, by decide, by decide, by decide⟩, rfl, by decide, by decide, by decide, by decide,
    by decide, by decide, by decide, by decide⟩

example : ∃ pos neg posF negF, find double single slopeImg 8 2 edgeParams slopeMem = .ok (pos, neg) slopeMem ∧
    EdgeFl.find double single slopeImg 8 2 edgeParams slopeMem = .ok (posF, negF) slopeMem ∧
    List.Forall₂ (SamePoint edgeParams slopeImg 8 2) pos posF ∧ List.Forall₂ (SamePoint edgeParams slopeImg 8 2) neg negF :=
  C179_partial roundings_ieee slopeCall (by decide) (by decide)

example : edgesFound (find double single slopeImg 8 2 edgeParams slopeMem) =
    some ([(1438649880965575 / 562949953421312, 0)], [(813149932719673 / 562949953421312, 1)]) := by decide +kernel

example : edgesFound (EdgeFl.find double single slopeImg 8 2 edgeParams slopeMem) = some ([(10718777 / 4194304, 0)], [(757305 / 524288, 1)]) := by
  decide +kernel

/-- A step, with single and double precision and the contrast check switched on -/
theorem edgeStep_single : EdgeStep single edgeMem edgeImg 6 2 { edgeParams with left := 2, right := 3, group := 2 } 10 200 3 :=
  ⟨by decide, by decide, fun x y hx hy => edgeImg_pixel x hx y hy, by decide,
    Or.inr (Or.inr ⟨by decide, by decide, Rounding24.single.int, by decide, by decide⟩)⟩

example : EdgeFl.find double single edgeImg 6 2 { edgeParams with left := 2, right := 3, group := 2 } edgeMem = .ok ([(5 / 2, 1 / 2)], []) edgeMem := by
  rw [C179_step roundings_ieee edgeCall_checked edgeStep_single (by decide) (by decide)]
  have e : (edgeLines { edgeParams with left := 2, right := 3, group := 2 } 6 2).map
      (stepPoint { edgeParams with left := 2, right := 3, group := 2 } edgeImg 3) = [(5 / 2, 1 / 2)] := by decide +kernel
  rw [e]
  rfl

/-- Steps in rows far away from the start of an image -/
def farMem : BMem := ⟨fun b => if b = 1 then 134217744 else 0, fun _ i => if i % 8 < 3 then 10 else 200⟩

def farImg : View := ⟨⟨1, 8, 16777218, 1, 8⟩, 0, 16777216⟩

theorem farCall : EdgeCall farMem farImg 8 2 edgeParams :=
  ⟨⟨by decide, by decide, by decide⟩, ⟨by decide, by decide, by decide, by decide, by decide, by decide⟩, rfl, by decide, by decide, by decide, by decide,
    by decide, by decide, by decide, by decide⟩

/-- C179 is false for regions far away: the edges of two rows become one point. -/
theorem C179_wrong : EdgeCall farMem farImg 8 2 edgeParams ∧
    edgesFound (find double single farImg 8 2 edgeParams farMem) = some ([(5 / 2, 16777216), (5 / 2, 16777217)], []) ∧
    edgesFound (EdgeFl.find double single farImg 8 2 edgeParams farMem) = some ([(5 / 2, 16777216), (5 / 2, 16777216)], []) :=
  ⟨farCall, by decide +kernel, by decide +kernel⟩

end PV.Props
