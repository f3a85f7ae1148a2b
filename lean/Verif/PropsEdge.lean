import Verif.EdgeFind
import Verif.PropsReduce
/-
  C57: edge detection.
-/
namespace PV.Props

open PV.Edge

/-! ### Specification -/

/-- The sum of the pixels of `group` rows from row `r` on at column `k` of the ROI -/
def edgeRow (v : View) (m : BMem) (group r k : Nat) : Int := ∑ j ∈ Finset.range group, ((v.get m k (r + j) 0).toNat : Int)

/-- The sum of the pixels of `group` columns from column `r` on at row `k` of the ROI -/
def edgeColumn (v : View) (m : BMem) (group r k : Nat) : Int := ∑ j ∈ Finset.range group, ((v.get m (r + j) k 0).toNat : Int)

def edgeAcross (P : Params) : Bool := P.direction = .leftToRight ∨ P.direction = .rightToLeft
def edgeBack (P : Params) : Bool := P.direction = .rightToLeft ∨ P.direction = .bottomToTop

/-- The length of a line, the number of pixels over all lines, and the line number `r` -/
def edgeLength (P : Params) (w h : Nat) : Nat := if edgeAcross P then w else h
def edgeCount (P : Params) (w h : Nat) : Nat := if edgeAcross P then h else w
def edgeLine (P : Params) (v : View) (m : BMem) (r k : Nat) : Int := if edgeAcross P then edgeRow v m P.group r k else edgeColumn v m P.group r k

/-- The numbers of the lines which are looked at -/
def edgeLines (P : Params) (w h : Nat) : List Nat := (List.range (edgeCount P w h + 1 - P.group)).filter fun r => r % P.skip == 0

/-- The coordinate of line number `r` -/
def edgeCoordinate (rnd : ℚ → ℚ) (P : Params) (v : View) (r : Nat) : ℚ :=
  rnd (((if edgeAcross P then v.y else v.x) + r : Nat) + rnd (((P.group : ℚ) - 1) / 2))

/-- The point of an edge at position `e` counted from the start of the line -/
def placeUp (rnd : ℚ → ℚ) (P : Params) (v : View) (r : Nat) (e : ℚ) : ℚ × ℚ :=
  if edgeAcross P then (rnd (v.x + e), edgeCoordinate rnd P v r) else (edgeCoordinate rnd P v r, rnd (v.y + e))

/-- The point of an edge at position `e` counted from the end of the line -/
def placeDown (rnd : ℚ → ℚ) (P : Params) (v : View) (w h r : Nat) (e : ℚ) : ℚ × ℚ :=
  if edgeAcross P then (rnd (((v.x + w - 1 : Nat) : ℚ) - e), edgeCoordinate rnd P v r)
  else (edgeCoordinate rnd P v r, rnd (((v.y + h - 1 : Nat) : ℚ) - e))

/-- The points for upward positions `(E r).1` counted from the start and downward positions `(E r).2` counted from the end of line `r` -/
def upPoints (rnd : ℚ → ℚ) (P : Params) (v : View) (w h : Nat) (E : Nat → List ℚ × List ℚ) : List (ℚ × ℚ) :=
  (edgeLines P w h).flatMap fun r => (E r).1.map (placeUp rnd P v r)

def downPoints (rnd : ℚ → ℚ) (P : Params) (v : View) (w h : Nat) (E : Nat → List ℚ × List ℚ) : List (ℚ × ℚ) :=
  (edgeLines P w h).flatMap fun r => (E r).2.map (placeDown rnd P v w h r)

/-- Positive edges: the values increase in the direction of the scan. -/
def positivePoints (rnd : ℚ → ℚ) (P : Params) (v : View) (w h : Nat) (E : Nat → List ℚ × List ℚ) : List (ℚ × ℚ) :=
  if P.gradient = .negative then [] else if edgeBack P then downPoints rnd P v w h E else upPoints rnd P v w h E

/-- Negative edges: the values decrease in the direction of the scan. -/
def negativePoints (rnd : ℚ → ℚ) (P : Params) (v : View) (w h : Nat) (E : Nat → List ℚ × List ℚ) : List (ℚ × ℚ) :=
  if P.gradient = .positive then [] else if edgeBack P then upPoints rnd P v w h E else downPoints rnd P v w h E

/-- What the caller has to ensure beyond what is checked: the ROI is inside of the image, groups of lines fit into it, and neither sums nor
    offsets leave 32 bits. -/
structure EdgeCall (m : BMem) (v : View) (w h : Nat) (P : Params) : Prop where
  wf : v.img.WF m
  fit : v.Fits w h
  gray : v.img.cc = 1
  group0 : 0 < P.group
  group : P.group ≤ edgeCount P w h + 1
  groupSmall : P.group * 1020 < 2147483648
  skip0 : 0 < P.skip
  skip : P.skip < 4294967296
  contrast0 : 0 < P.contrast
  contrast : P.contrast ≤ 255
  right : 0 < P.left → P.right + edgeLength P w h ≤ 4294967296

/-- The positions are in order, at least one pixel apart, and each one is between two neighbouring pixels inside of the line: at its place the
    values rise, by more than before and not by less than after it; the rise belongs to a part of the line, over which the values differ by the
    minimum contrast of the parameters, strictly rise inside of it and rise nowhere faster than there. -/
structure Positions (rnd : ℚ → ℚ) (P : Params) (n : Nat) (D : Nat → Int) (l : List ℚ) : Prop where
  apart : l.Pairwise fun a b => a ≤ b ∧ 1 ≤ rnd (b - a)
  edge : ∀ p ∈ l, ∃ i, 1 ≤ i ∧ i + 2 < n ∧ (i : ℚ) ≤ p ∧ p ≤ i + 1 ∧
    D i - D (i - 1) ≤ D (i + 1) - D i ∧ D (i + 2) - D (i + 1) ≤ D (i + 1) - D i ∧
    ∃ a b, a ≤ i ∧ i < b ∧ b + 1 < n ∧ (∃ c d, a ≤ c ∧ c ≤ b ∧ a ≤ d ∧ d ≤ b ∧ (P.contrast * P.group : Nat) ≤ D c - D d) ∧
      ∀ k, a < k → k < b → D k < D (k + 1) ∧ D (k + 1) - D k ≤ D (i + 1) - D i

/-! ### Positions -/

theorem rnd_int {rnd : ℚ → ℚ} (R : Rounding rnd) (n : Nat) (h : n < 2 ^ 53) : rnd (n : ℚ) = n := by
  have := R.int (n : ℤ) (by rw [abs_of_nonneg (by omega)]; exact_mod_cast h)
  simpa using this

theorem rnd_between {rnd : ℚ → ℚ} (R : Rounding rnd) {a b : Nat} {q : ℚ} (hb : b < 2 ^ 53) (hab : a ≤ b) (h1 : (a : ℚ) ≤ q) (h2 : q ≤ b) :
    (a : ℚ) ≤ rnd q ∧ rnd q ≤ b := by
  rw [← rnd_int R a (by omega), ← rnd_int R b hb]
  exact ⟨R.mono _ _ h1, R.mono _ _ h2⟩

theorem positionOf_bounds {rnd : ℚ → ℚ} (R : Rounding rnd) {S : Nat → Int} {i : Nat} (hi : i + 1 < 2 ^ 53) (h1 : 0 ≤ S i) (h2 : S (i + 1) ≤ 0) :
    (i : ℚ) ≤ positionOf rnd S i ∧ positionOf rnd S i ≤ i + 1 := by
  have h1' : (0 : ℚ) ≤ S i := by exact_mod_cast h1
  have h2' : (S (i + 1) : ℚ) ≤ 0 := by exact_mod_cast h2
  have key : ∀ q : ℚ, 0 ≤ q → q ≤ 1 → (i : ℚ) ≤ rnd (i + q) ∧ rnd (i + q) ≤ i + 1 := by
    intro q q1 q2
    have := rnd_between R (a := i) (b := i + 1) (q := i + q) hi (by omega) (by linarith) (by push_cast; linarith)
    push_cast at this
    exact this
  rw [positionOf]
  split
  · rename_i hne
    have hpos : (0 : ℚ) < ((S i - S (i + 1) : Int) : ℚ) := by
      have : 0 < S i - S (i + 1) := by omega
      exact_mod_cast this
    have a1 : (0 : ℚ) ≤ (S i : ℚ) / ((S i - S (i + 1) : Int) : ℚ) := div_nonneg h1' hpos.le
    have a2 : (S i : ℚ) / ((S i - S (i + 1) : Int) : ℚ) ≤ 1 := by
      rw [div_le_one hpos]
      push_cast
      linarith
    have := rnd_between R (a := 0) (b := 1) (by norm_num) (by omega) (by simpa using a1) (by simpa using a2)
    exact key _ (by simpa using this.1) (by simpa using this.2)
  · exact key _ (by norm_num) (by norm_num)

theorem removeSimilar_sub (rnd : ℚ → ℚ) (l : List ℚ) : ∀ a, (removeSimilar rnd a l).Sublist (a :: l) := by
  induction l with
  | nil =>
    intro a
    exact List.Sublist.refl _
  | cons b l ih =>
    intro a
    rw [removeSimilar]
    split
    · exact (ih a).trans ((List.sublist_cons_self b l).cons_cons a)
    · exact (ih b).cons_cons a

theorem removeSimilarPoints_sub (rnd : ℚ → ℚ) (l : List ℚ) : (removeSimilarPoints rnd l).Sublist l := by
  cases l with
  | nil => exact List.Sublist.refl _
  | cons a l => exact removeSimilar_sub rnd l a

theorem removeSimilar_apart {rnd : ℚ → ℚ} (R : Rounding rnd) (l : List ℚ) : ∀ a, (a :: l).Pairwise (· ≤ ·) →
    (removeSimilar rnd a l).Pairwise fun a b => a ≤ b ∧ 1 ≤ rnd (b - a) := by
  induction l with
  | nil =>
    intro a _
    exact List.pairwise_singleton _ _
  | cons b l ih =>
    intro a h
    rw [removeSimilar]
    split
    · exact ih a (h.sublist ((List.sublist_cons_self b l).cons_cons a))
    · rename_i hlt
      have h2 := (List.pairwise_cons.1 h).2
      refine List.pairwise_cons.2 ⟨fun q hq => ?_, ih b h2⟩
      have hq' := (removeSimilar_sub rnd l b).subset hq
      have hbq : b ≤ q := by
        rcases List.mem_cons.1 hq' with e | e
        · rw [e]
        · exact (List.pairwise_cons.1 h2).1 q e
      have hab := (List.pairwise_cons.1 h).1 b (by simp)
      exact ⟨by linarith, le_trans (not_lt.1 hlt) (R.mono _ _ (by linarith))⟩

theorem removeSimilarPoints_apart {rnd : ℚ → ℚ} (R : Rounding rnd) {l : List ℚ} (h : l.Pairwise (· ≤ ·)) :
    (removeSimilarPoints rnd l).Pairwise fun a b => a ≤ b ∧ 1 ≤ rnd (b - a) := by
  cases l with
  | nil => exact List.Pairwise.nil
  | cons a l => exact removeSimilar_apart R l a h

theorem choose_sub (P : Params) (forward : Bool) (e : List ℚ × List ℚ) : (choose P forward e).1.Sublist e.1 ∧ (choose P forward e).2.Sublist e.2 := by
  have h1 : ∀ l : List ℚ, (leaveFirst l).Sublist l := by
    intro l
    rw [leaveFirst]
    split
    · exact List.take_sublist _ _
    · exact List.Sublist.refl _
  have h2 : ∀ l : List ℚ, (leaveLast l).Sublist l := by
    intro l
    rw [leaveLast]
    split
    · exact List.drop_sublist _ _
    · exact List.Sublist.refl _
  rw [choose]
  split
  · exact ⟨h1 _, h2 _⟩
  · split
    · exact ⟨h2 _, h1 _⟩
    · exact ⟨List.Sublist.refl _, List.Sublist.refl _⟩

theorem allEdges_sorted {rnd fl : ℚ → ℚ} (R : Rounding rnd) {P : Params} {n : Nat} {D : Nat → Int} (hn : n < 4294967296) :
    (allEdges rnd fl P n D).Pairwise (· ≤ ·) := by
  classical
  rw [allEdges, List.pairwise_map, List.pairwise_filter]
  refine List.Pairwise.imp_of_mem ?_ (List.pairwise_lt_range' (s := 1) (n := n - 3))
  intro i j hi hj hij h1 h2
  rw [List.mem_range'_1] at hi hj
  have e1 : EdgeAt rnd fl P n D i := by simpa using h1
  have e2 : EdgeAt rnd fl P n D j := by simpa using h2
  have b1 := (positionOf_bounds R (S := secondOf D) (i := i) (by omega) e1.before e1.after).2
  have b2 := (positionOf_bounds R (S := secondOf D) (i := j) (by omega) e2.before e2.after).1
  have : (i : ℚ) + 1 ≤ j := by exact_mod_cast hij
  show positionOf rnd (secondOf D) i ≤ positionOf rnd (secondOf D) j
  linarith

theorem allEdges_edge {rnd fl : ℚ → ℚ} (R : Rounding rnd) {P : Params} {n : Nat} {D : Nat → Int} (hn : n < 4294967296) {p : ℚ}
    (hp : p ∈ allEdges rnd fl P n D) : ∃ i, 1 ≤ i ∧ i + 2 < n ∧ (i : ℚ) ≤ p ∧ p ≤ i + 1 ∧
    D i - D (i - 1) ≤ D (i + 1) - D i ∧ D (i + 2) - D (i + 1) ≤ D (i + 1) - D i ∧
    ∃ a b, a ≤ i ∧ i < b ∧ b + 1 < n ∧ (∃ c d, a ≤ c ∧ c ≤ b ∧ a ≤ d ∧ d ≤ b ∧ (P.contrast * P.group : Nat) ≤ D c - D d) ∧
      ∀ k, a < k → k < b → D k < D (k + 1) ∧ D (k + 1) - D k ≤ D (i + 1) - D i := by
  classical
  rw [allEdges, List.mem_map] at hp
  obtain ⟨i, hi, rfl⟩ := hp
  rw [List.mem_filter, List.mem_range'_1] at hi
  obtain ⟨hi1, hi2⟩ := hi
  have e : EdgeAt rnd fl P n D i := by simpa using hi2
  obtain ⟨b1, b2⟩ := positionOf_bounds R (S := secondOf D) (i := i) (by omega) e.before e.after
  have s1 := e.before
  have s2 := e.after
  rw [secondOf] at s1 s2
  rw [Nat.add_sub_cancel] at s2
  have top : max (firstOf D i) (firstOf D (i + 1)) = firstOf D i := by omega
  have f1 : firstOf D i = D (i + 1) - D i := rfl
  have f2 : firstOf D (i + 1) = D (i + 2) - D (i + 1) := rfl
  have f3 : firstOf D (i - 1) = D i - D (i - 1) := by rw [firstOf, Nat.sub_add_cancel hi1.1]
  have hr := e.rises
  have hp := e.pair
  rw [top] at hr hp
  obtain ⟨t1, t2, t3⟩ := bounds_ok hr
  have fin : ∀ bound, 1 ≤ bound → PairAt rnd fl P n D (firstOf D) bound (firstOf D i) i →
      ∃ a b, a ≤ i ∧ i < b ∧ b + 1 < n ∧ (∃ c d, a ≤ c ∧ c ≤ b ∧ a ≤ d ∧ d ≤ b ∧ (P.contrast * P.group : Nat) ≤ D c - D d) ∧
      ∀ k, a < k → k < b → D k < D (k + 1) ∧ D (k + 1) - D k ≤ D (i + 1) - D i := by
    rintro bound hb ⟨a, b, ⟨l1, l2, l3⟩, ⟨r1, r2, r3, r4⟩, ⟨c, d, c1, c2, c3, c4, c5⟩, _⟩
    refine ⟨a, b, l1, by omega, by omega, ⟨c, d, c1, c2, c3, c4, c5⟩, fun k k1 k2 => ?_⟩
    have hk : bound ≤ firstOf D k ∧ firstOf D k ≤ firstOf D i := by
      by_cases h : k ≤ i
      · exact l3 k k1 h
      · exact r4 k (by omega) k2
    rw [show firstOf D k = D (k + 1) - D k from rfl, f1] at hk
    constructor <;> omega
  refine ⟨i, hi1.1, by omega, b1, b2, by omega, by omega, ?_⟩
  rcases hp with h | h
  · exact fin _ (by omega) h
  · exact fin _ t1 h

theorem lineEdges_positions {rnd fl : ℚ → ℚ} (R : Rounding rnd) {P : Params} {forward : Bool} {n : Nat} {D : Nat → Int} (hn : n < 4294967296) :
    Positions rnd P n D (lineEdges rnd fl P forward n D).1 ∧ Positions rnd P n (backwards n D) (lineEdges rnd fl P forward n D).2 := by
  obtain ⟨c1, c2⟩ := choose_sub P forward
    (removeSimilarPoints rnd (allEdges rnd fl P n D), removeSimilarPoints rnd (allEdges rnd fl P n (backwards n D)))
  refine ⟨⟨?_, fun p hp => ?_⟩, ⟨?_, fun p hp => ?_⟩⟩
  · exact (removeSimilarPoints_apart R (allEdges_sorted R hn)).sublist c1
  · exact allEdges_edge R hn ((removeSimilarPoints_sub rnd _).subset (c1.subset hp))
  · exact (removeSimilarPoints_apart R (allEdges_sorted R hn)).sublist c2
  · exact allEdges_edge R hn ((removeSimilarPoints_sub rnd _).subset (c2.subset hp))

/-! ### The whole image -/

theorem groupSum_row {v : View} {m : BMem} (hg : v.img.cc = 1) (group r : Nat) :
    groupSum m v.img.data (v.y * v.img.rowSize + v.x + r * v.img.rowSize) v.img.rowSize 1 group = edgeRow v m group r := by
  funext k
  rw [groupSum, edgeRow]
  refine Finset.sum_congr rfl fun j _ => ?_
  rw [View.get, View.cell, hg]
  congr 3
  simp only [Nat.add_mul, Nat.mul_one]
  omega

theorem groupSum_column {v : View} {m : BMem} (hg : v.img.cc = 1) (group r : Nat) :
    groupSum m v.img.data (v.y * v.img.rowSize + v.x + r * 1) 1 v.img.rowSize group = edgeColumn v m group r := by
  funext k
  rw [groupSum, edgeColumn]
  refine Finset.sum_congr rfl fun j _ => ?_
  rw [View.get, View.cell, hg]
  congr 3
  simp only [Nat.add_mul, Nat.mul_one]
  omega

theorem edgeLine_within (P : Params) (v : View) (m : BMem) (n r : Nat) : Within n (edgeLine P v m r) (255 * P.group) := by
  have key : ∀ (f : Nat → UInt8) (g : Nat), (0 : Int) ≤ ∑ j ∈ Finset.range g, ((f j).toNat : Int) ∧
      ∑ j ∈ Finset.range g, ((f j).toNat : Int) ≤ 255 * g := by
    intro f g
    induction g with
    | zero => simp
    | succ g ih =>
      have h2 : (f g).toNat < 256 := (f g).toNat_lt
      rw [Finset.sum_range_succ]
      push_cast
      constructor <;> omega
  intro k _
  rw [edgeLine]
  split
  · exact key (fun j => v.get m k (r + j) 0) P.group
  · exact key (fun j => v.get m (r + j) k 0) P.group

theorem EdgeCall.size {m : BMem} {v : View} {w h : Nat} {P : Params} (c : EdgeCall m v w h P) (h4 : 4 ≤ edgeLength P w h) :
    edgeCount P w h < 1073741824 := by
  have hrow := c.wf.row
  have hsm := c.wf.small
  have hx := c.fit.inX
  have hy := c.fit.inY
  have hw := c.fit.wpos
  have hh := c.fit.hpos
  rw [c.gray, Nat.mul_one] at hrow
  rw [edgeLength] at h4
  rw [edgeCount]
  split
  · rename_i ha
    rw [if_pos ha] at h4
    have h1 : 4 * v.img.height ≤ v.img.rowSize * v.img.height := Nat.mul_le_mul_right _ (by omega)
    omega
  · rename_i ha
    rw [if_neg ha] at h4
    have h1 : v.img.rowSize * 4 ≤ v.img.rowSize * v.img.height := Nat.mul_le_mul_left _ (by omega)
    omega

theorem EdgeCall.limit {m : BMem} {v : View} {w h : Nat} {P : Params} (c : EdgeCall m v w h P) (h4 : 4 ≤ edgeLength P w h) :
    u32 (usub (edgeCount P w h) P.group + 1) = edgeCount P w h + 1 - P.group := by
  have h1 := c.size h4
  have h2 := c.group
  have h3 := c.groupSmall
  rw [usub, u32, u32]
  omega

/-- The edges of line `r` -/
noncomputable def edgesOf (rnd fl : ℚ → ℚ) (P : Params) (v : View) (m : BMem) (w h r : Nat) : List ℚ × List ℚ :=
  lineEdges rnd fl P (!edgeBack P) (edgeLength P w h) (edgeLine P v m r)

theorem EdgeCall.lineOk {m : BMem} {v : View} {w h : Nat} {P : Params} (c : EdgeCall m v w h P) (h4 : 4 ≤ edgeLength P w h) (r : Nat) :
    LineOk P (edgeLength P w h) (edgeLine P v m r) := by
  refine ⟨h4, ?_, c.groupSmall, c.contrast, c.right, edgeLine_within P v m _ r⟩
  obtain ⟨_, _, _, h1, h2, _⟩ := View.facts c.wf c.fit
  have := c.fit.inX
  have := c.fit.inY
  rw [edgeLength]
  split <;> omega

theorem flatMap_ite {α β : Type} {c : Prop} [Decidable c] (l : List α) (f : α → List β) :
    (l.flatMap fun a => if c then f a else []) = if c then l.flatMap f else [] := by
  split
  · rfl
  · simp

theorem edgeCoordinate_row {rnd : ℚ → ℚ} {P : Params} {v : View} {y r : Nat} (hg : 0 < P.group) (hg2 : P.group < 4294967296)
    (hy : (if edgeAcross P then v.y else v.x) = y) (hr : y + r < 4294967296) :
    rnd (u32 (y + r) + rnd (usub P.group 1 / 2)) = edgeCoordinate rnd P v r := by
  rw [edgeCoordinate, hy, u32_of_lt hr, usub_of_le hg hg2, Nat.cast_sub hg, Nat.cast_one]

theorem flatMap_congr' {α β : Type} {l : List α} {f g : α → List β} (h : ∀ a ∈ l, f a = g a) : l.flatMap f = l.flatMap g := by
  induction l with
  | nil => rfl
  | cons a l ih => rw [List.flatMap_cons, List.flatMap_cons, h a (by simp), ih fun b hb => h b (by simp [hb])]

/-- Putting the points of all lines together -/
theorem points_eq {rnd : ℚ → ℚ} {P : Params} {v : View} {w h : Nat} {E : Nat → List ℚ × List ℚ}
    {points : Nat → List ℚ × List ℚ → List (ℚ × ℚ) × List (ℚ × ℚ)}
    (hp : ∀ r ∈ edgeLines P w h, ∀ e, points r e =
      if edgeBack P = false then
        (if P.gradient = .positive ∨ P.gradient = .any then e.1.map (placeUp rnd P v r) else [],
         if P.gradient = .negative ∨ P.gradient = .any then e.2.map (placeDown rnd P v w h r) else [])
      else
        (if P.gradient = .positive ∨ P.gradient = .any then e.2.map (placeDown rnd P v w h r) else [],
         if P.gradient = .negative ∨ P.gradient = .any then e.1.map (placeUp rnd P v r) else [])) :
    (edgeLines P w h).flatMap (fun r => (points r (E r)).1) = positivePoints rnd P v w h E ∧
    (edgeLines P w h).flatMap (fun r => (points r (E r)).2) = negativePoints rnd P v w h E := by
  have hpos : (P.gradient = .positive ∨ P.gradient = .any) ↔ ¬ P.gradient = .negative := by
    cases P.gradient <;> simp
  have hneg : (P.gradient = .negative ∨ P.gradient = .any) ↔ ¬ P.gradient = .positive := by
    cases P.gradient <;> simp
  constructor
  · rw [positivePoints, upPoints, downPoints]
    cases hb : edgeBack P with
    | false =>
      rw [if_neg Bool.false_ne_true, flatMap_congr' fun r hr => by rw [hp r hr, if_pos hb], flatMap_ite]
      by_cases hg : P.gradient = .negative
      · rw [if_pos hg, if_neg (by rw [hpos, not_not]; exact hg)]
      · rw [if_neg hg, if_pos (hpos.2 hg)]
    | true =>
      rw [if_pos (show true = true from rfl), flatMap_congr' fun r hr => by rw [hp r hr, if_neg (by simp [hb])], flatMap_ite]
      by_cases hg : P.gradient = .negative
      · rw [if_pos hg, if_neg (by rw [hpos, not_not]; exact hg)]
      · rw [if_neg hg, if_pos (hpos.2 hg)]
  · rw [negativePoints, upPoints, downPoints]
    cases hb : edgeBack P with
    | false =>
      rw [if_neg Bool.false_ne_true, flatMap_congr' fun r hr => by rw [hp r hr, if_pos hb], flatMap_ite]
      by_cases hg : P.gradient = .positive
      · rw [if_pos hg, if_neg (by rw [hneg, not_not]; exact hg)]
      · rw [if_neg hg, if_pos (hneg.2 hg)]
    | true =>
      rw [if_pos (show true = true from rfl), flatMap_congr' fun r hr => by rw [hp r hr, if_neg (by simp [hb])], flatMap_ite]
      by_cases hg : P.gradient = .positive
      · rw [if_pos hg, if_neg (by rw [hneg, not_not]; exact hg)]
      · rw [if_neg hg, if_pos (hneg.2 hg)]

theorem find_rows {rnd fl : ℚ → ℚ} {m : BMem} {v : View} {w h : Nat} {P : Params} (c : EdgeCall m v w h P) (ha : edgeAcross P = true) (h4 : 4 ≤ w) :
    ∃ a, findRows rnd fl v w h P m = .ok a m ∧ a.pos = positivePoints rnd P v w h (edgesOf rnd fl P v m w h) ∧
      a.neg = negativePoints rnd P v w h (edgesOf rnd fl P v m w h) := by
  obtain ⟨f1, f2, f3, f4, f5, f6, f7, f8, f9, f10⟩ := View.facts c.wf c.fit
  have hx := c.fit.inX
  have hy := c.fit.inY
  have hl : edgeLength P w h = w := by rw [edgeLength, if_pos ha]
  have hc : edgeCount P w h = h := by rw [edgeCount, if_pos ha]
  have hsz := c.size (by omega)
  have hlim := c.limit (by omega)
  have hgr := c.group
  have hg := c.gray
  rw [hc] at hsz hlim hgr
  have hb : (decide (P.direction = .leftToRight)) = !edgeBack P := by
    rw [edgeBack]
    rw [edgeAcross] at ha
    cases hd : P.direction <;> rw [hd] at ha <;> simp_all
  have hline : ∀ r, groupSum m v.img.data (v.y * v.img.rowSize + v.x + r * v.img.rowSize) v.img.rowSize 1 P.group = edgeLine P v m r := by
    intro r
    rw [groupSum_row hg]
    funext k
    rw [edgeLine, if_pos ha]
  obtain ⟨wk, hw⟩ := lines_ok (rnd := rnd) (fl := fl) (P := P) (forward := decide (P.direction = .leftToRight)) (m := m) (b := v.img.data)
    (start := v.y * v.img.rowSize + v.x) (next := v.img.rowSize) (step := 1) (n := w) (size := w) (limit := h + 1 - P.group)
    (adv := u32 (v.img.rowSize * P.skip)) (points := rowPoints rnd P v.x v.y w) (by omega) (by omega) c.group0 c.skip0 (by have := c.group0; omega)
    (by
      intro hs
      have h1 : v.img.rowSize * P.skip ≤ v.img.rowSize * v.img.height := Nat.mul_le_mul_left _ (by have := c.group0; omega)
      have h2 := c.wf.small
      rw [u32_of_lt (by omega), Nat.mul_comm])
    (by
      intro r _
      rw [hline]
      have := c.lineOk (m := m) (by omega : 4 ≤ edgeLength P w h) r
      rw [hl] at this
      exact this) (by omega)
    (by
      intro h0 g hgg
      have h1 : g * v.img.rowSize ≤ v.img.height * v.img.rowSize := Nat.mul_le_mul_right _ (by omega)
      have h2 := c.wf.small
      rw [Nat.mul_comm] at h2
      omega)
    (by
      intro row g k hr hgg hk
      have := View.cell_valid (x := k) (y := row + g) (c := 0) c.wf c.fit hk (by omega) (by omega)
      rw [View.cell, hg] at this
      have e : v.y * v.img.rowSize + v.x + row * v.img.rowSize + g * v.img.rowSize + k * 1 = (v.y + (row + g)) * v.img.rowSize + (v.x + k) * 1 + 0 := by
        simp only [Nat.add_mul, Nat.mul_one]
        omega
      rw [e]
      exact this) c.skip
  have hE : ∀ r, lineEdges rnd fl P (decide (P.direction = .leftToRight)) w
      (groupSum m v.img.data (v.y * v.img.rowSize + v.x + r * v.img.rowSize) v.img.rowSize 1 P.group) = edgesOf rnd fl P v m w h r := by
    intro r
    rw [hline, edgesOf, hl, hb]
  have hrange : (List.range (h + 1 - P.group)).filter (fun r => r % P.skip == 0) = edgeLines P w h := by
    rw [edgeLines, hc]
  have hmem : ∀ r ∈ edgeLines P w h, v.y + r < 4294967296 := by
    intro r hr
    rw [edgeLines, List.mem_filter, List.mem_range, hc] at hr
    have := c.group0
    omega
  have hco : ∀ r ∈ edgeLines P w h, rnd (u32 (v.y + r) + rnd (usub P.group 1 / 2)) = edgeCoordinate rnd P v r := fun r hr =>
    edgeCoordinate_row c.group0 (by have := c.groupSmall; omega) (by rw [if_pos ha]) (hmem r hr)
  have hend : usub (u32 (v.x + w)) 1 = v.x + w - 1 := by
    rw [u32_of_lt (by omega), usub_of_le (by omega) (by omega)]
  have hup : ∀ r ∈ edgeLines P w h, ∀ l : List ℚ, positiveX rnd l v.x (rnd (u32 (v.y + r) + rnd (usub P.group 1 / 2))) = l.map (placeUp rnd P v r) := by
    intro r hr l
    rw [positiveX, hco r hr]
    refine List.map_congr_left fun e _ => ?_
    rw [placeUp, if_pos ha, add_comm]
  have hdown : ∀ r ∈ edgeLines P w h, ∀ l : List ℚ, negativeX rnd l (usub (u32 (v.x + w)) 1) (rnd (u32 (v.y + r) + rnd (usub P.group 1 / 2))) =
      l.map (placeDown rnd P v w h r) := by
    intro r hr l
    rw [negativeX, hco r hr, hend]
    refine List.map_congr_left fun e _ => ?_
    rw [placeDown, if_pos ha]
  have hpt : ∀ r ∈ edgeLines P w h, ∀ e, rowPoints rnd P v.x v.y w r e =
      if edgeBack P = false then
        (if P.gradient = .positive ∨ P.gradient = .any then e.1.map (placeUp rnd P v r) else [],
         if P.gradient = .negative ∨ P.gradient = .any then e.2.map (placeDown rnd P v w h r) else [])
      else
        (if P.gradient = .positive ∨ P.gradient = .any then e.2.map (placeDown rnd P v w h r) else [],
         if P.gradient = .negative ∨ P.gradient = .any then e.1.map (placeUp rnd P v r) else []) := by
    intro r hr e
    rw [rowPoints]
    rw [hup r hr, hdown r hr]
    refine if_congr ?_ rfl rfl
    rw [← decide_eq_true_iff (p := P.direction = .leftToRight), hb]
    simp
  obtain ⟨g1, g2⟩ := points_eq (rnd := rnd) (E := edgesOf rnd fl P v m w h) hpt
  rw [hrange] at hw
  refine ⟨_, Eq.trans ?_ hw, ?_, ?_⟩
  · rw [findRows, hlim, u32_of_lt f7]
  · rw [← g1]
    exact flatMap_congr' fun r _ => by rw [hE r]
  · rw [← g2]
    exact flatMap_congr' fun r _ => by rw [hE r]

theorem find_columns {rnd fl : ℚ → ℚ} {m : BMem} {v : View} {w h : Nat} {P : Params} (c : EdgeCall m v w h P) (ha : ¬ edgeAcross P = true) (h4 : 4 ≤ h) :
    ∃ a, findColumns rnd fl v w h P m = .ok a m ∧ a.pos = positivePoints rnd P v w h (edgesOf rnd fl P v m w h) ∧
      a.neg = negativePoints rnd P v w h (edgesOf rnd fl P v m w h) := by
  obtain ⟨f1, f2, f3, f4, f5, f6, f7, f8, f9, f10⟩ := View.facts c.wf c.fit
  have hx := c.fit.inX
  have hy := c.fit.inY
  have hl : edgeLength P w h = h := by rw [edgeLength, if_neg ha]
  have hc : edgeCount P w h = w := by rw [edgeCount, if_neg ha]
  have hsz := c.size (by omega)
  have hlim := c.limit (by omega)
  have hgr := c.group
  have hg := c.gray
  rw [hc] at hsz hlim hgr
  have hb : (decide (P.direction = .topToBottom)) = !edgeBack P := by
    rw [edgeBack]
    rw [edgeAcross] at ha
    cases hd : P.direction <;> rw [hd] at ha <;> simp_all
  have hline : ∀ r, groupSum m v.img.data (v.y * v.img.rowSize + v.x + r * 1) 1 v.img.rowSize P.group = edgeLine P v m r := by
    intro r
    rw [groupSum_column hg]
    funext k
    rw [edgeLine, if_neg ha]
  obtain ⟨wk, hw⟩ := lines_ok (rnd := rnd) (fl := fl) (P := P) (forward := decide (P.direction = .topToBottom)) (m := m) (b := v.img.data)
    (start := v.y * v.img.rowSize + v.x) (next := 1) (step := v.img.rowSize) (n := h) (size := h * v.img.rowSize) (limit := w + 1 - P.group)
    (adv := P.skip) (points := columnPoints rnd P v.x v.y h) f2 rfl c.group0 c.skip0 (by have := c.group0; omega)
    (fun _ => by rw [Nat.mul_one])
    (by
      intro r _
      rw [hline]
      have := c.lineOk (m := m) (by omega : 4 ≤ edgeLength P w h) r
      rw [hl] at this
      exact this) (by omega)
    (by
      intro h0 g hgg
      have := c.groupSmall
      omega)
    (by
      intro row g k hr hgg hk
      have := View.cell_valid (x := row + g) (y := k) (c := 0) c.wf c.fit (by omega) hk (by omega)
      rw [View.cell, hg] at this
      have e : v.y * v.img.rowSize + v.x + row * 1 + g * 1 + k * v.img.rowSize = (v.y + k) * v.img.rowSize + (v.x + (row + g)) * 1 + 0 := by
        simp only [Nat.add_mul, Nat.mul_one]
        omega
      rw [e]
      exact this) c.skip
  have hE : ∀ r, lineEdges rnd fl P (decide (P.direction = .topToBottom)) h
      (groupSum m v.img.data (v.y * v.img.rowSize + v.x + r * 1) 1 v.img.rowSize P.group) = edgesOf rnd fl P v m w h r := by
    intro r
    rw [hline, edgesOf, hl, hb]
  have hrange : (List.range (w + 1 - P.group)).filter (fun r => r % P.skip == 0) = edgeLines P w h := by
    rw [edgeLines, hc]
  have hmem : ∀ r ∈ edgeLines P w h, v.x + r < 4294967296 := by
    intro r hr
    rw [edgeLines, List.mem_filter, List.mem_range, hc] at hr
    have := c.group0
    omega
  have hco : ∀ r ∈ edgeLines P w h, rnd (u32 (v.x + r) + rnd (usub P.group 1 / 2)) = edgeCoordinate rnd P v r := fun r hr =>
    edgeCoordinate_row c.group0 (by have := c.groupSmall; omega) (by rw [if_neg ha]) (hmem r hr)
  have hend : usub (u32 (v.y + h)) 1 = v.y + h - 1 := by
    rw [u32_of_lt (by omega), usub_of_le (by omega) (by omega)]
  have hup : ∀ r ∈ edgeLines P w h, ∀ l : List ℚ, positiveY rnd l (rnd (u32 (v.x + r) + rnd (usub P.group 1 / 2))) v.y = l.map (placeUp rnd P v r) := by
    intro r hr l
    rw [positiveY, hco r hr]
    refine List.map_congr_left fun e _ => ?_
    rw [placeUp, if_neg ha]
  have hdown : ∀ r ∈ edgeLines P w h, ∀ l : List ℚ, negativeY rnd l (rnd (u32 (v.x + r) + rnd (usub P.group 1 / 2))) (usub (u32 (v.y + h)) 1) =
      l.map (placeDown rnd P v w h r) := by
    intro r hr l
    rw [negativeY, hco r hr, hend]
    refine List.map_congr_left fun e _ => ?_
    rw [placeDown, if_neg ha]
  have hpt : ∀ r ∈ edgeLines P w h, ∀ e, columnPoints rnd P v.x v.y h r e =
      if edgeBack P = false then
        (if P.gradient = .positive ∨ P.gradient = .any then e.1.map (placeUp rnd P v r) else [],
         if P.gradient = .negative ∨ P.gradient = .any then e.2.map (placeDown rnd P v w h r) else [])
      else
        (if P.gradient = .positive ∨ P.gradient = .any then e.2.map (placeDown rnd P v w h r) else [],
         if P.gradient = .negative ∨ P.gradient = .any then e.1.map (placeUp rnd P v r) else []) := by
    intro r hr e
    rw [columnPoints]
    rw [hup r hr, hdown r hr]
    refine if_congr ?_ rfl rfl
    rw [← decide_eq_true_iff (p := P.direction = .topToBottom), hb]
    simp
  obtain ⟨g1, g2⟩ := points_eq (rnd := rnd) (E := edgesOf rnd fl P v m w h) hpt
  rw [hrange] at hw
  refine ⟨_, Eq.trans ?_ hw, ?_, ?_⟩
  · rw [findColumns, hlim, u32_of_lt f7, u32_of_lt f6]
  · rw [← g1]
    exact flatMap_congr' fun r _ => by rw [hE r]
  · rw [← g2]
    exact flatMap_congr' fun r _ => by rw [hE r]

/-- The result of the function for lines of at least four pixels -/
theorem find_ok {rnd fl : ℚ → ℚ} {m : BMem} {v : View} {w h : Nat} {P : Params} (c : EdgeCall m v w h P) (h4 : 4 ≤ edgeLength P w h) :
    find rnd fl v w h P m = .ok (positivePoints rnd P v w h (edgesOf rnd fl P v m w h), negativePoints rnd P v w h (edgesOf rnd fl P v m w h)) m := by
  obtain ⟨_, _, _, f4, f5, _⟩ := View.facts c.wf c.fit
  have hx := c.fit.inX
  have hy := c.fit.inY
  have hv : verifyGray [v.img] m = .ok () m := by
    rw [verifyGray]
    simp only [List.any_cons, List.any_nil, Bool.or_false, c.gray]
    rfl
  have hp : P.verify m = .ok () m := by
    have h1 := c.group0
    have h2 := c.skip0
    have h3 := c.contrast0
    have e : (P.group == 0 || P.skip == 0 || P.contrast == 0) = false := by
      simp only [Bool.or_eq_false_iff, beq_eq_false_iff_ne]
      omega
    rw [Params.verify, e]
    rfl
  have ehor : P.horizontal = edgeAcross P := rfl
  rw [find, bind_ok hv, bind_ok (validateRoi_ok m c.fit (by omega) (by omega)), bind_ok hp]
  rw [edgeLength] at h4
  by_cases ha : edgeAcross P = true
  · rw [if_pos ha] at h4
    obtain ⟨a, a1, a2, a3⟩ := find_rows (rnd := rnd) (fl := fl) c ha h4
    rw [if_neg (by rw [ehor, ha]; simp; omega), ehor, if_pos ha, bind_ok a1, ← a2, ← a3]
    rfl
  · rw [if_neg ha] at h4
    obtain ⟨a, a1, a2, a3⟩ := find_columns (rnd := rnd) (fl := fl) c ha h4
    rw [if_neg (by rw [ehor]; simp only [ha]; simp; omega), ehor, if_neg ha, bind_ok a1, ← a2, ← a3]
    rfl

end PV.Props
