import Verif.EdgeFl
import Verif.PropsEdge
/-
  The `float` instance of edge detection: what the programs of EdgeFl.lean compute.  The proofs are those for the `double` instance.
-/
namespace PV.EdgeFl
open PV.Edge PV.Props

/-- The zero of the line through the second derivatives at `i` and `i + 1`; the middle if they are equal -/
def positionOf (rnd fl : ℚ → ℚ) (S : Nat → Int) (i : Nat) : ℚ :=
  if S i ≠ S (i + 1) then fl (rnd (i + rnd ((S i : ℚ) / ((S i - S (i + 1) : Int) : ℚ)))) else fl (fl i + 1 / 2)

theorem position_ok {rnd fl : ℚ → ℚ} {s : Arr Int} {i : Nat} (hn : s.len < 4294967296) (hp : i + 1 < s.len)
    (h1 : -2147483648 ≤ s.at' i - s.at' (i + 1)) (h2 : s.at' i - s.at' (i + 1) < 2147483648) :
    position rnd fl s i () = .ok (positionOf rnd fl s.at' i) () := by
  rw [position, u32_of_lt (by omega : i + 1 < 4294967296)]
  refine (bind_ok (Arr.rd_ok (by omega) ())).trans ((bind_ok (Arr.rd_ok hp ())).trans ?_)
  rw [positionOf]
  by_cases h : s.at' i ≠ s.at' (i + 1)
  · rw [if_pos h, if_pos h, bind_ok (int32_ok () h1 h2)]
    rfl
  · rw [if_neg h, if_neg h]
    rfl

theorem positionOf_congr {rnd fl : ℚ → ℚ} {S T : Nat → Int} {i : Nat} (h1 : S i = T i) (h2 : S (i + 1) = T (i + 1)) :
    positionOf rnd fl S i = positionOf rnd fl T i := by
  rw [positionOf, positionOf, h1, h2]

open Classical in
theorem findPoint_ok {rnd fl : ℚ → ℚ} {d s : Arr Int} {l r : Nat} {minC : Int} {check : Bool} {left right pos : Nat} {B : Int}
    (hn : d.len < 4294967296) (hs : s.len = d.len)
    (hp : pos + 1 < d.len) (hr : check = true → 0 < right ∧ right + d.len ≤ 4294967296) (hl : l ≤ r) (hr2 : r < d.len)
    (hD : Within d.len d.at' B) (hB : B < 2147483648)
    (h1 : -2147483648 ≤ s.at' pos - s.at' (pos + 1)) (h2 : s.at' pos - s.at' (pos + 1) < 2147483648) :
    findPoint rnd fl d s l r minC check left right pos d.len () =
      .ok (if Spread d.at' minC l r ∧ (check = true → Contrasts rnd fl d.at' minC left right pos d.len) then some (positionOf rnd fl s.at' pos) else none) () := by
  have hf : d.len < fuelMax := by
    rw [fuelMax]
    omega
  obtain ⟨mx, x1, ⟨jx, x2, x3, x4⟩, x5⟩ := extreme_ok (d := d) true hl hr2 hf
  obtain ⟨mn, y1, ⟨jn, y2, y3, y4⟩, y5⟩ := extreme_ok (d := d) false hl hr2 hf
  simp only [if_true] at x5
  simp only [Bool.false_eq_true, if_false] at y5
  obtain ⟨b1, b2⟩ := hD jx (by omega)
  obtain ⟨c1, c2⟩ := hD jn (by omega)
  rw [findPoint, bind_ok x1, bind_ok y1, bind_ok (int32_ok () (by omega) (by omega))]
  by_cases hd : mx - mn < minC
  · rw [if_pos hd, if_neg]
    · rfl
    · rintro ⟨⟨a, b, a1, a2, a3, a4, a5⟩, _⟩
      have := x5 a a1 a2
      have := y5 b a3 a4
      omega
  · rw [if_neg hd, bind_ok (contrastCheck_ok hn hp hr)]
    have hsp : Spread d.at' minC l r := ⟨jx, jn, x2, x3, y2, y3, by omega⟩
    by_cases hc : check = true ∧ ¬ Contrasts rnd fl d.at' minC left right pos d.len
    · rw [if_pos (by rw [hc.1, decide_eq_false hc.2]; rfl), if_neg (fun h => hc.2 (h.2 hc.1))]
      rfl
    · have hc' : check = true → Contrasts rnd fl d.at' minC left right pos d.len := fun h => by
        by_contra hh
        exact hc ⟨h, hh⟩
      rw [if_neg, if_pos ⟨hsp, hc'⟩, bind_ok (position_ok (by omega) (by omega) h1 h2)]
      · rfl
      · intro h
        rw [Bool.and_eq_true] at h
        rw [decide_eq_true (hc' h.1)] at h
        exact absurd h.2 (by simp)

open Classical in
theorem between_ok {rnd fl : ℚ → ℚ} {P : Params} {n : Nat} {D : Nat → Int} (o : LineOk P n D) {i : Nat} (h0 : 0 < i) (h : i + 2 < n) {bound top : Int}
    {a b : Option Nat} (ha : ∀ l, a = some l ↔ LeftSide (firstOf D) bound top i l)
    (hb : ∀ r, b = some r ↔ RightSide (firstOf D) bound top (i + 1) (n - 1) r) :
    between rnd fl (lineArr n D) (secondArr n D) P i (a, b) () =
      .ok (if PairAt rnd fl P n D (firstOf D) bound top i then some (positionOf rnd fl (secondOf D) i) else none) () := by
  have hsz := o.size
  cases a with
  | none =>
    rw [if_neg]
    · cases b <;> rfl
    · rintro ⟨l, r, h1, _⟩
      exact absurd ((ha l).2 h1) (by simp)
  | some l =>
    cases b with
    | none =>
      rw [if_neg]
      · rfl
      · rintro ⟨l, r, _, h2, _⟩
        exact absurd ((hb r).2 h2) (by simp)
    | some r =>
      have hl := (ha l).1 rfl
      have hr := (hb r).1 rfl
      have hl1 := hl.1
      have hr1 := hr.1
      have hr2 := hr.2.1
      have hg := o.group
      have hs1 : (secondArr n D).at' i = secondOf D i := secondArr_at h0 (by omega)
      have hs2 : (secondArr n D).at' (i + 1) = secondOf D (i + 1) := secondArr_at (by omega) (by omega)
      have hat : ∀ k, k < n → (lineArr n D).at' k = D k := fun k hk => if_pos hk
      obtain ⟨b1, b2⟩ := second_bound o h0 h
      have hf := findPoint_ok (rnd := rnd) (fl := fl) (d := lineArr n D) (s := secondArr n D) (l := l) (r := r) (minC := ((P.contrast * P.group : Nat) : Int))
        (check := P.left > 0 && P.right > 0) (left := P.left) (right := P.right) (pos := i) (B := 255 * P.group)
        hsz rfl (show i + 1 < n by omega) (by
          intro hc
          simp only [Bool.and_eq_true, decide_eq_true_eq] at hc
          exact ⟨hc.2, o.right hc.1⟩) (by omega) (show r < n by omega)
        (by
          intro k hk
          rw [hat k hk]
          exact o.values k hk) (by omega) (by rw [hs1, hs2]; exact b1) (by rw [hs1, hs2]; exact b2)
      rw [between, o.minC, hf, positionOf_congr hs1 hs2]
      congr 1
      refine if_congr ?_ rfl rfl
      have e1 : Spread (lineArr n D).at' ((P.contrast * P.group : Nat) : Int) l r ↔ Spread D ((P.contrast * P.group : Nat) : Int) l r :=
        spread_congr (n := n) (by omega) hat
      have e2 : Contrasts rnd fl (lineArr n D).at' ((P.contrast * P.group : Nat) : Int) P.left P.right i (lineArr n D).len ↔
          Contrasts rnd fl D ((P.contrast * P.group : Nat) : Int) P.left P.right i n := contrasts_congr hat
      rw [e1, e2]
      simp only [Bool.and_eq_true, decide_eq_true_eq]
      constructor
      · rintro ⟨c1, c2⟩
        exact ⟨l, r, hl, hr, c1, fun x y => c2 ⟨x, y⟩⟩
      · rintro ⟨l', r', g1, g2, g3, g4⟩
        rw [pair_unique_left g1 hl, pair_unique_right g2 hr] at g3
        exact ⟨g3, fun x => g4 x.1 x.2⟩

open Classical in
theorem searchSides_ok {rnd fl : ℚ → ℚ} {P : Params} {n : Nat} {D : Nat → Int} (o : LineOk P n D) {i : Nat} (h0 : 0 < i) (h : i + 2 < n) {top : Int}
    (ht : 0 < top) : searchSides rnd fl (lineArr n D) (firstArr n D) (secondArr n D) P i top () =
      .ok (if PairAt rnd fl P n D (firstOf D) (halfOf top) top i ∨ PairAt rnd fl P n D (firstOf D) (thirdOf top) top i
        then some (positionOf rnd fl (secondOf D) i) else none) () := by
  have hsz := o.size
  obtain ⟨b1, b2, b3⟩ := bounds_ok ht
  obtain ⟨l1, l2, g1, g2, _, g4⟩ := leftScan_ok (a := firstArr n D) b2 b3 i none (show i < n by omega)
  have e : usub (lineArr n D).len 1 - (i + 1) = n - 1 - (i + 1) := by
    rw [show usub (lineArr n D).len 1 = n - 1 from usub_of_le (show 1 ≤ n by omega) hsz]
  obtain ⟨r1, r2, k1, k2, _, k4⟩ := rightScan_ok (a := firstArr n D) b2 b3 (n - 1 - (i + 1)) (i + 1) none (by show i + 1 + (n - 1 - (i + 1)) ≤ n; omega)
  have e2 : i + 1 + (n - 1 - (i + 1)) = n - 1 := by omega
  rw [e2] at k2 k4
  have hL : ∀ bound l, LeftSide (firstArr n D).at' bound top i l ↔ LeftSide (firstOf D) bound top i l := fun bound l =>
    leftSide_congr fun k hk => firstArr_at (by omega)
  have hR : ∀ bound l, RightSide (firstArr n D).at' bound top (i + 1) (n - 1) l ↔ RightSide (firstOf D) bound top (i + 1) (n - 1) l := fun bound l =>
    rightSide_congr fun k hk => firstArr_at (by omega)
  have g2' : ∀ l, l2 = some l ↔ LeftSide (firstOf D) (thirdOf top) top i l := fun l => (g2 l).trans (hL _ l)
  have g4' : ∀ l, l1 = some l ↔ LeftSide (firstOf D) (halfOf top) top i l := fun l => (g4 rfl l).trans (hL _ l)
  have k2' : ∀ l, r2 = some l ↔ RightSide (firstOf D) (thirdOf top) top (i + 1) (n - 1) l := fun l => (k2 l).trans (hR _ l)
  have k4' : ∀ l, r1 = some l ↔ RightSide (firstOf D) (halfOf top) top (i + 1) (n - 1) l := fun l => (k4 rfl l).trans (hR _ l)
  rw [thirdOf] at g1 k1
  rw [halfOf] at g1 k1
  rw [searchSides, bind_ok g1]
  by_cases hn : (l1.isNone && l2.isNone) = true
  · rw [if_pos hn, if_neg]
    · rfl
    · rw [Bool.and_eq_true, Option.isNone_iff_eq_none, Option.isNone_iff_eq_none] at hn
      rintro (⟨l, r, q, _⟩ | ⟨l, r, q, _⟩)
      · rw [← g4', hn.1] at q
        exact absurd q (by simp)
      · rw [← g2', hn.2] at q
        exact absurd q (by simp)
  · rw [if_neg hn, e, bind_ok k1, bind_ok (between_ok o h0 h g4' k4')]
    by_cases hp : PairAt rnd fl P n D (firstOf D) (halfOf top) top i
    · rw [if_pos hp, if_pos (show (some (positionOf rnd fl (secondOf D) i)).isSome = true from rfl), if_pos (Or.inl hp)]
      rfl
    · rw [if_neg hp, if_neg (by simp), between_ok o h0 h g2' k2']
      congr 1
      exact if_congr ⟨Or.inr, fun q => q.resolve_left hp⟩ rfl rfl

open Classical in
theorem candidate_ok {rnd fl : ℚ → ℚ} {P : Params} {n : Nat} {D : Nat → Int} (o : LineOk P n D) {i : Nat} (h0 : 0 < i) (h : i + 2 < n) :
    candidate rnd fl (lineArr n D) (firstArr n D) (secondArr n D) P i () =
      .ok (if EdgeAt rnd fl P n D i then some (positionOf rnd fl (secondOf D) i) else none) () := by
  have hs1 : (secondArr n D).at' i = secondOf D i := secondArr_at h0 (by omega)
  have hs2 : (secondArr n D).at' (i + 1) = secondOf D (i + 1) := secondArr_at (by omega) (by omega)
  have hf1 : (firstArr n D).at' i = firstOf D i := firstArr_at (by omega)
  have hf2 : (firstArr n D).at' (i + 1) = firstOf D (i + 1) := firstArr_at (by omega)
  rw [candidate, bind_ok (Arr.rd_ok (show i < n by omega) ()), hs1]
  by_cases ha : secondOf D i < 0
  · rw [if_pos ha, if_neg (fun hh => by have := hh.before; omega)]
    rfl
  · rw [if_neg ha, bind_ok (Arr.rd_ok (show i + 1 < n by omega) ()), hs2]
    by_cases hb : secondOf D (i + 1) > 0
    · rw [if_pos hb, if_neg (fun hh => by have := hh.after; omega)]
      rfl
    · rw [if_neg hb, bind_ok (Arr.rd_ok (show i < n by omega) ()), bind_ok (Arr.rd_ok (show i + 1 < n by omega) ()), hf1, hf2]
      have et : (if firstOf D i > firstOf D (i + 1) then firstOf D i else firstOf D (i + 1)) = max (firstOf D i) (firstOf D (i + 1)) := by
        split <;> omega
      rw [et]
      by_cases ht : max (firstOf D i) (firstOf D (i + 1)) ≤ 0
      · rw [if_pos ht, if_neg (fun hh => by have := hh.rises; omega)]
        rfl
      · rw [if_neg ht, searchSides_ok o h0 h (by omega)]
        congr 1
        exact if_congr ⟨fun q => ⟨by omega, by omega, by omega, q⟩, fun q => q.pair⟩ rfl rfl

open Classical in
/-- The positions of all edges of a line -/
noncomputable def allEdges (rnd fl : ℚ → ℚ) (P : Params) (n : Nat) (D : Nat → Int) : List ℚ :=
  ((List.range' 1 (n - 3)).filter fun i => EdgeAt rnd fl P n D i).map (positionOf rnd fl (secondOf D))

open Classical in
theorem getEdgePoints_ok {rnd fl : ℚ → ℚ} {P : Params} {n : Nat} {D : Nat → Int} (o : LineOk P n D) :
    getEdgePoints rnd fl (lineArr n D) (firstArr n D) (secondArr n D) P () = .ok (allEdges rnd fl P n D) () := by
  have hsz := o.size
  have h4 := o.four
  have e : usub (lineArr n D).len 2 = n - 2 := usub_of_le (show 2 ≤ n by omega) hsz
  rw [getEdgePoints, e]
  obtain ⟨x, h, hp⟩ := forLoop_keep (a := 1) (n := n - 2) (body := edgeStep rnd fl (lineArr n D) (firstArr n D) (secondArr n D) P) (x := []) (m := ())
    (P := fun i x => x = ((List.range' 1 (i - 1)).filter fun i => EdgeAt rnd fl P n D i).map (positionOf rnd fl (secondOf D)))
    (by omega) (by rw [fuelMax]; omega) rfl (by
      intro i x h1 h2 hx
      refine ⟨_, (bind_ok (candidate_ok o (by omega) (by omega))).trans rfl, ?_⟩
      obtain ⟨j, rfl⟩ : ∃ j, i = j + 1 := ⟨i - 1, by omega⟩
      rw [hx]
      simp only [Nat.add_sub_cancel]
      rw [List.range'_concat, List.filter_append, List.map_append, Nat.one_mul, Nat.add_comm 1 j]
      refine List.append_right_inj _ |>.2 ?_
      by_cases hc : EdgeAt rnd fl P n D (j + 1)
      · rw [if_pos hc, List.filter_cons_of_pos (by simpa using hc)]
        rfl
      · rw [if_neg hc, List.filter_cons_of_neg (by simpa using hc)]
        rfl)
  rw [h, hp, allEdges, show n - 2 - 1 = n - 3 by omega]

/-- The positions found in a line: upwards edges from its start, downwards edges from its end.
    Not in the code: for statements and proofs. -/
noncomputable def lineEdges (rnd fl : ℚ → ℚ) (P : Params) (forward : Bool) (n : Nat) (D : Nat → Int) : List ℚ × List ℚ :=
  choose P forward (removeSimilarPoints fl (allEdges rnd fl P n D), removeSimilarPoints fl (allEdges rnd fl P n (backwards n D)))

theorem scanLine_ok {rnd fl : ℚ → ℚ} {P : Params} {forward : Bool} {n : Nat} {D : Nat → Int} {w : Work} (o : LineOk P n D) (hw : Clean n w)
    (hd : w.data = lineArr n D) :
    scanLine rnd fl P forward w () =
      .ok (lineEdges rnd fl P forward n D, ⟨lineArr n (backwards n D), firstArr n (backwards n D), secondArr n (backwards n D)⟩) () := by
  have h4 := o.four
  have hsz := o.size
  have hg := o.group
  have hf : n < fuelMax := by
    rw [fuelMax]
    omega
  have c := clean_after (by omega : 0 < n) D
  have d1 := getDerivatives_ok (by omega) hf o.values (by omega) hw.first hw.first0 hw.second hw.second0
  have d2 := getDerivatives_ok (by omega) hf o.backwards.values (by omega) c.first c.first0 c.second c.second0
  have er : reversed (lineArr n D) = lineArr n (backwards n D) := reversed_line n D
  rw [scanLine, hd, bind_ok d1, bind_ok (getEdgePoints_ok o)]
  simp only [er]
  rw [bind_ok d2, bind_ok (getEdgePoints_ok o.backwards)]
  rfl

theorem lineStep_ok {rnd fl : ℚ → ℚ} {P : Params} {forward : Bool} {m : BMem} {b p next step n row : Nat}
    {points : Nat → List ℚ × List ℚ → List (ℚ × ℚ) × List (ℚ × ℚ)} {a : Found} (hs : 0 < step) (hc : Clean n a.work) (hg0 : 0 < P.group)
    (ho : LineOk P n (groupSum m b p next step P.group)) (hu : ∀ g, g < P.group → g * next < 4294967296)
    (hv : ∀ g k, g < P.group → k < n → m.Valid b (p + g * next + k * step)) :
    ∃ w, Clean n w ∧ lineStep rnd fl P forward b next step (n * step) points (row, p) a m =
      .ok ⟨a.pos ++ (points row (lineEdges rnd fl P forward n (groupSum m b p next step P.group))).1,
        a.neg ++ (points row (lineEdges rnd fl P forward n (groupSum m b p next step P.group))).2, w⟩ m := by
  have hf : n < fuelMax := by
    have := ho.size
    rw [fuelMax]
    omega
  have hg := ho.group
  have h4 := ho.four
  refine ⟨_, clean_after (n := n) (by omega) (backwards n (groupSum m b p next step P.group)), ?_⟩
  have hg' : P.group * 255 < 2147483648 := Nat.lt_of_le_of_lt (Nat.mul_le_mul_left _ (by decide)) hg
  have hld := loadLine_ok (d := a.work.data) hs hf hc.data hc.data0 hg0 hg' hu hv
  rw [lineStep, bind_ok hld]
  have hcl : Clean n { a.work with data := lineArr n (groupSum m b p next step P.group) } :=
    ⟨rfl, fun k h => if_neg (by omega), hc.first, hc.first0, hc.second, hc.second0⟩
  rw [bind_ok (locally_ok (scanLine_ok ho hcl rfl) m)]
  rfl

/-- The loop over lines; `start` is the first address, `next` the distance of two lines. -/
theorem lines_ok {rnd fl : ℚ → ℚ} {P : Params} {forward : Bool} {m : BMem} {b start next step n size limit adv : Nat}
    {points : Nat → List ℚ × List ℚ → List (ℚ × ℚ) × List (ℚ × ℚ)} (hs : 0 < step) (hsz : size = n * step) (hg0 : 0 < P.group) (hs0 : 0 < P.skip)
    (hlim : limit ≤ 2147483648) (hadv : P.skip < limit → adv = P.skip * next)
    (ho : ∀ row, row < limit → LineOk P n (groupSum m b (start + row * next) next step P.group)) (hn : 0 < n)
    (hu : 0 < limit → ∀ g, g < P.group → g * next < 4294967296)
    (hv : ∀ row g k, row < limit → g < P.group → k < n → m.Valid b (start + row * next + g * next + k * step)) (hskip : P.skip < 4294967296) :
    ∃ w, loop (fun q : Nat × Nat => decide (q.1 < limit)) (fun q => (u32 (q.1 + P.skip), q.2 + adv))
      (lineStep rnd fl P forward b next step size points) fuelMax (0, start) ⟨[], [], ⟨zeros n, zeros n, zeros n⟩⟩ m =
      .ok ⟨((List.range limit).filter (fun r => r % P.skip == 0)).flatMap fun r =>
          (points r (lineEdges rnd fl P forward n (groupSum m b (start + r * next) next step P.group))).1,
        ((List.range limit).filter (fun r => r % P.skip == 0)).flatMap fun r =>
          (points r (lineEdges rnd fl P forward n (groupSum m b (start + r * next) next step P.group))).2, w⟩ m := by
  subst hsz
  obtain ⟨q, a, m', h1, ⟨t, p1, p2, p3, p4, p5, p6, p7⟩, h3⟩ := loop_inv (cond := fun q : Nat × Nat => decide (q.1 < limit))
    (next := fun q => (u32 (q.1 + P.skip), q.2 + adv)) (body := lineStep rnd fl P forward b next step (n * step) points)
    (fun q a m' => ∃ t : Nat, q.1 = t * P.skip ∧ (q.1 < limit → q.2 = start + q.1 * next) ∧ (t = 0 ∨ (t - 1) * P.skip < limit) ∧ m' = m ∧
      Clean n a.work ∧
      a.pos = ((List.range t).map (· * P.skip)).flatMap (fun r =>
        (points r (lineEdges rnd fl P forward n (groupSum m b (start + r * next) next step P.group))).1) ∧
      a.neg = ((List.range t).map (· * P.skip)).flatMap (fun r =>
        (points r (lineEdges rnd fl P forward n (groupSum m b (start + r * next) next step P.group))).2))
    (fun q => limit - q.1) (by
      rintro ⟨row, p⟩ a m' ⟨t, q1, q2, q3, rfl, q5, q6, q7⟩ hc
      have hr : row < limit := by simpa using hc
      have hp : p = start + row * next := q2 hr
      subst hp
      obtain ⟨w, w1, w2⟩ := lineStep_ok (rnd := rnd) (fl := fl) (forward := forward) (row := row) (points := points) hs q5 hg0 (ho row hr) (hu (by omega))
        (fun g k a b => hv row g k hr a b)
      have q1' : row = t * P.skip := q1
      have hw : u32 (row + P.skip) = row + P.skip := by
        refine u32_of_lt ?_
        rcases Nat.eq_zero_or_pos t with h | h
        · rw [h, Nat.zero_mul] at q1'
          omega
        · have : 1 * P.skip ≤ t * P.skip := Nat.mul_le_mul_right _ h
          omega
      refine ⟨_, _, w2, ⟨t + 1, ?_, ?_, Or.inr ?_, rfl, w1, ?_, ?_⟩, ?_⟩
      · show u32 (row + P.skip) = _
        rw [hw, Nat.succ_mul, q1']
      · show u32 (row + P.skip) < limit → start + row * next + adv = start + u32 (row + P.skip) * next
        rw [hw]
        intro hlt
        rw [hadv (by omega), Nat.add_mul]
        omega
      · rw [Nat.add_sub_cancel, ← q1']
        exact hr
      · rw [q6, List.range_succ, List.map_append, List.flatMap_append, q1']
        simp
      · rw [q7, List.range_succ, List.map_append, List.flatMap_append, q1']
        simp
      · show limit - u32 (row + P.skip) < limit - row
        rw [hw]
        omega) fuelMax (0, start) ⟨[], [], ⟨zeros n, zeros n, zeros n⟩⟩ m (by
          dsimp only
          rw [fuelMax]
          omega)
      ⟨0, by simp, fun _ => by simp, Or.inl rfl, rfl, ⟨rfl, fun _ _ => rfl, rfl, fun _ _ => rfl, rfl, fun _ _ => rfl⟩, rfl, rfl⟩
  have hlt : limit ≤ t * P.skip := by
    rw [← p1]
    simpa using h3
  refine ⟨a.work, ?_⟩
  rw [h1, p4, multiples hs0 t hlt p3, ← p6, ← p7]

/-- The point of an edge at position `e` counted from the start of the line -/
def placeUp (rnd fl : ℚ → ℚ) (P : Params) (v : View) (r : Nat) (e : ℚ) : ℚ × ℚ :=
  if edgeAcross P then (fl (fl v.x + e), fl (edgeCoordinate rnd P v r)) else (fl (edgeCoordinate rnd P v r), fl (fl v.y + e))

/-- The point of an edge at position `e` counted from the end of the line -/
def placeDown (rnd fl : ℚ → ℚ) (P : Params) (v : View) (w h r : Nat) (e : ℚ) : ℚ × ℚ :=
  if edgeAcross P then (fl (fl ((v.x + w - 1 : Nat) : ℚ) - e), fl (edgeCoordinate rnd P v r))
  else (fl (edgeCoordinate rnd P v r), fl (fl ((v.y + h - 1 : Nat) : ℚ) - e))

/-- The points for upward positions `(E r).1` counted from the start and downward positions `(E r).2` counted from the end of line `r` -/
def upPoints (rnd fl : ℚ → ℚ) (P : Params) (v : View) (w h : Nat) (E : Nat → List ℚ × List ℚ) : List (ℚ × ℚ) :=
  (edgeLines P w h).flatMap fun r => (E r).1.map (placeUp rnd fl P v r)

def downPoints (rnd fl : ℚ → ℚ) (P : Params) (v : View) (w h : Nat) (E : Nat → List ℚ × List ℚ) : List (ℚ × ℚ) :=
  (edgeLines P w h).flatMap fun r => (E r).2.map (placeDown rnd fl P v w h r)

/-- Positive edges: the values increase in the direction of the scan. -/
def positivePoints (rnd fl : ℚ → ℚ) (P : Params) (v : View) (w h : Nat) (E : Nat → List ℚ × List ℚ) : List (ℚ × ℚ) :=
  if P.gradient = .negative then [] else if edgeBack P then downPoints rnd fl P v w h E else upPoints rnd fl P v w h E

/-- Negative edges: the values decrease in the direction of the scan. -/
def negativePoints (rnd fl : ℚ → ℚ) (P : Params) (v : View) (w h : Nat) (E : Nat → List ℚ × List ℚ) : List (ℚ × ℚ) :=
  if P.gradient = .positive then [] else if edgeBack P then upPoints rnd fl P v w h E else downPoints rnd fl P v w h E

/-- The edges of line `r` -/
noncomputable def edgesOf (rnd fl : ℚ → ℚ) (P : Params) (v : View) (m : BMem) (w h r : Nat) : List ℚ × List ℚ :=
  lineEdges rnd fl P (!edgeBack P) (edgeLength P w h) (edgeLine P v m r)

/-- Putting the points of all lines together -/
theorem points_eq {rnd fl : ℚ → ℚ} {P : Params} {v : View} {w h : Nat} {E : Nat → List ℚ × List ℚ}
    {points : Nat → List ℚ × List ℚ → List (ℚ × ℚ) × List (ℚ × ℚ)}
    (hp : ∀ r ∈ edgeLines P w h, ∀ e, points r e =
      if edgeBack P = false then
        (if P.gradient = .positive ∨ P.gradient = .any then e.1.map (placeUp rnd fl P v r) else [],
         if P.gradient = .negative ∨ P.gradient = .any then e.2.map (placeDown rnd fl P v w h r) else [])
      else
        (if P.gradient = .positive ∨ P.gradient = .any then e.2.map (placeDown rnd fl P v w h r) else [],
         if P.gradient = .negative ∨ P.gradient = .any then e.1.map (placeUp rnd fl P v r) else [])) :
    (edgeLines P w h).flatMap (fun r => (points r (E r)).1) = positivePoints rnd fl P v w h E ∧
    (edgeLines P w h).flatMap (fun r => (points r (E r)).2) = negativePoints rnd fl P v w h E := by
  have hpos : (P.gradient = .positive ∨ P.gradient = .any) ↔ ¬ P.gradient = .negative := by
    cases P.gradient <;> simp
  have hneg : (P.gradient = .negative ∨ P.gradient = .any) ↔ ¬ P.gradient = .positive := by
    cases P.gradient <;> simp
  constructor
  · rw [positivePoints, upPoints, downPoints]
    cases hb : edgeBack P with
    | false =>
      rw [if_neg Bool.false_ne_true, flatMap_congr' fun r hr => by rw [hp r hr, if_pos hb], flatMap_ite]
      by_cases hg : P.gradient = .negative
      · rw [if_pos hg, if_neg (by rw [hpos, not_not]; exact hg)]
      · rw [if_neg hg, if_pos (hpos.2 hg)]
    | true =>
      rw [if_pos (show true = true from rfl), flatMap_congr' fun r hr => by rw [hp r hr, if_neg (by simp [hb])], flatMap_ite]
      by_cases hg : P.gradient = .negative
      · rw [if_pos hg, if_neg (by rw [hpos, not_not]; exact hg)]
      · rw [if_neg hg, if_pos (hpos.2 hg)]
  · rw [negativePoints, upPoints, downPoints]
    cases hb : edgeBack P with
    | false =>
      rw [if_neg Bool.false_ne_true, flatMap_congr' fun r hr => by rw [hp r hr, if_pos hb], flatMap_ite]
      by_cases hg : P.gradient = .positive
      · rw [if_pos hg, if_neg (by rw [hneg, not_not]; exact hg)]
      · rw [if_neg hg, if_pos (hneg.2 hg)]
    | true =>
      rw [if_pos (show true = true from rfl), flatMap_congr' fun r hr => by rw [hp r hr, if_neg (by simp [hb])], flatMap_ite]
      by_cases hg : P.gradient = .positive
      · rw [if_pos hg, if_neg (by rw [hneg, not_not]; exact hg)]
      · rw [if_neg hg, if_pos (hneg.2 hg)]

theorem find_rows {rnd fl : ℚ → ℚ} {m : BMem} {v : View} {w h : Nat} {P : Params} (c : EdgeCall m v w h P) (ha : edgeAcross P = true) (h4 : 4 ≤ w) :
    ∃ a, findRows rnd fl v w h P m = .ok a m ∧ a.pos = positivePoints rnd fl P v w h (edgesOf rnd fl P v m w h) ∧
      a.neg = negativePoints rnd fl P v w h (edgesOf rnd fl P v m w h) := by
  obtain ⟨f1, f2, f3, f4, f5, f6, f7, f8, f9, f10⟩ := View.facts c.wf c.fit
  have hx := c.fit.inX
  have hy := c.fit.inY
  have hl : edgeLength P w h = w := by rw [edgeLength, if_pos ha]
  have hc : edgeCount P w h = h := by rw [edgeCount, if_pos ha]
  have hsz := c.size (by omega)
  have hlim := c.limit (by omega)
  have hgr := c.group
  have hg := c.gray
  rw [hc] at hsz hlim hgr
  have hb : (decide (P.direction = .leftToRight)) = !edgeBack P := by
    rw [edgeBack]
    rw [edgeAcross] at ha
    cases hd : P.direction <;> rw [hd] at ha <;> simp_all
  have hline : ∀ r, groupSum m v.img.data (v.y * v.img.rowSize + v.x + r * v.img.rowSize) v.img.rowSize 1 P.group = edgeLine P v m r := by
    intro r
    rw [groupSum_row hg]
    funext k
    rw [edgeLine, if_pos ha]
  obtain ⟨wk, hw⟩ := lines_ok (rnd := rnd) (fl := fl) (P := P) (forward := decide (P.direction = .leftToRight)) (m := m) (b := v.img.data)
    (start := v.y * v.img.rowSize + v.x) (next := v.img.rowSize) (step := 1) (n := w) (size := w) (limit := h + 1 - P.group)
    (adv := u32 (v.img.rowSize * P.skip)) (points := rowPoints rnd fl P v.x v.y w) (by omega) (by omega) c.group0 c.skip0 (by have := c.group0; omega)
    (by
      intro hs
      have h1 : v.img.rowSize * P.skip ≤ v.img.rowSize * v.img.height := Nat.mul_le_mul_left _ (by have := c.group0; omega)
      have h2 := c.wf.small
      rw [u32_of_lt (by omega), Nat.mul_comm])
    (by
      intro r _
      rw [hline]
      have := c.lineOk (m := m) (by omega : 4 ≤ edgeLength P w h) r
      rw [hl] at this
      exact this) (by omega)
    (by
      intro h0 g hgg
      have h1 : g * v.img.rowSize ≤ v.img.height * v.img.rowSize := Nat.mul_le_mul_right _ (by omega)
      have h2 := c.wf.small
      rw [Nat.mul_comm] at h2
      omega)
    (by
      intro row g k hr hgg hk
      have := View.cell_valid (x := k) (y := row + g) (c := 0) c.wf c.fit hk (by omega) (by omega)
      rw [View.cell, hg] at this
      have e : v.y * v.img.rowSize + v.x + row * v.img.rowSize + g * v.img.rowSize + k * 1 = (v.y + (row + g)) * v.img.rowSize + (v.x + k) * 1 + 0 := by
        simp only [Nat.add_mul, Nat.mul_one]
        omega
      rw [e]
      exact this) c.skip
  have hE : ∀ r, lineEdges rnd fl P (decide (P.direction = .leftToRight)) w
      (groupSum m v.img.data (v.y * v.img.rowSize + v.x + r * v.img.rowSize) v.img.rowSize 1 P.group) = edgesOf rnd fl P v m w h r := by
    intro r
    rw [hline, edgesOf, hl, hb]
  have hrange : (List.range (h + 1 - P.group)).filter (fun r => r % P.skip == 0) = edgeLines P w h := by
    rw [edgeLines, hc]
  have hmem : ∀ r ∈ edgeLines P w h, v.y + r < 4294967296 := by
    intro r hr
    rw [edgeLines, List.mem_filter, List.mem_range, hc] at hr
    have := c.group0
    omega
  have hco : ∀ r ∈ edgeLines P w h, rnd (u32 (v.y + r) + rnd (usub P.group 1 / 2)) = edgeCoordinate rnd P v r := fun r hr =>
    edgeCoordinate_row c.group0 (by have := c.groupSmall; omega) (by rw [if_pos ha]) (hmem r hr)
  have hend : usub (u32 (v.x + w)) 1 = v.x + w - 1 := by
    rw [u32_of_lt (by omega), usub_of_le (by omega) (by omega)]
  have hup : ∀ r ∈ edgeLines P w h, ∀ l : List ℚ, positiveX fl l (fl v.x) (fl (rnd (u32 (v.y + r) + rnd (usub P.group 1 / 2)))) = l.map (placeUp rnd fl P v r) := by
    intro r hr l
    rw [positiveX, hco r hr]
    refine List.map_congr_left fun e _ => ?_
    rw [placeUp, if_pos ha, add_comm]
  have hdown : ∀ r ∈ edgeLines P w h, ∀ l : List ℚ, negativeX fl l (fl (usub (u32 (v.x + w)) 1)) (fl (rnd (u32 (v.y + r) + rnd (usub P.group 1 / 2)))) =
      l.map (placeDown rnd fl P v w h r) := by
    intro r hr l
    rw [negativeX, hco r hr, hend]
    refine List.map_congr_left fun e _ => ?_
    rw [placeDown, if_pos ha]
  have hpt : ∀ r ∈ edgeLines P w h, ∀ e, rowPoints rnd fl P v.x v.y w r e =
      if edgeBack P = false then
        (if P.gradient = .positive ∨ P.gradient = .any then e.1.map (placeUp rnd fl P v r) else [],
         if P.gradient = .negative ∨ P.gradient = .any then e.2.map (placeDown rnd fl P v w h r) else [])
      else
        (if P.gradient = .positive ∨ P.gradient = .any then e.2.map (placeDown rnd fl P v w h r) else [],
         if P.gradient = .negative ∨ P.gradient = .any then e.1.map (placeUp rnd fl P v r) else []) := by
    intro r hr e
    rw [rowPoints]
    rw [hup r hr, hdown r hr]
    refine if_congr ?_ rfl rfl
    rw [← decide_eq_true_iff (p := P.direction = .leftToRight), hb]
    simp
  obtain ⟨g1, g2⟩ := points_eq (rnd := rnd) (fl := fl) (E := edgesOf rnd fl P v m w h) hpt
  rw [hrange] at hw
  refine ⟨_, Eq.trans ?_ hw, ?_, ?_⟩
  · rw [findRows, hlim, u32_of_lt f7]
  · rw [← g1]
    exact flatMap_congr' fun r _ => by rw [hE r]
  · rw [← g2]
    exact flatMap_congr' fun r _ => by rw [hE r]

theorem find_columns {rnd fl : ℚ → ℚ} {m : BMem} {v : View} {w h : Nat} {P : Params} (c : EdgeCall m v w h P) (ha : ¬ edgeAcross P = true) (h4 : 4 ≤ h) :
    ∃ a, findColumns rnd fl v w h P m = .ok a m ∧ a.pos = positivePoints rnd fl P v w h (edgesOf rnd fl P v m w h) ∧
      a.neg = negativePoints rnd fl P v w h (edgesOf rnd fl P v m w h) := by
  obtain ⟨f1, f2, f3, f4, f5, f6, f7, f8, f9, f10⟩ := View.facts c.wf c.fit
  have hx := c.fit.inX
  have hy := c.fit.inY
  have hl : edgeLength P w h = h := by rw [edgeLength, if_neg ha]
  have hc : edgeCount P w h = w := by rw [edgeCount, if_neg ha]
  have hsz := c.size (by omega)
  have hlim := c.limit (by omega)
  have hgr := c.group
  have hg := c.gray
  rw [hc] at hsz hlim hgr
  have hb : (decide (P.direction = .topToBottom)) = !edgeBack P := by
    rw [edgeBack]
    rw [edgeAcross] at ha
    cases hd : P.direction <;> rw [hd] at ha <;> simp_all
  have hline : ∀ r, groupSum m v.img.data (v.y * v.img.rowSize + v.x + r * 1) 1 v.img.rowSize P.group = edgeLine P v m r := by
    intro r
    rw [groupSum_column hg]
    funext k
    rw [edgeLine, if_neg ha]
  obtain ⟨wk, hw⟩ := lines_ok (rnd := rnd) (fl := fl) (P := P) (forward := decide (P.direction = .topToBottom)) (m := m) (b := v.img.data)
    (start := v.y * v.img.rowSize + v.x) (next := 1) (step := v.img.rowSize) (n := h) (size := h * v.img.rowSize) (limit := w + 1 - P.group)
    (adv := P.skip) (points := columnPoints rnd fl P v.x v.y h) f2 rfl c.group0 c.skip0 (by have := c.group0; omega)
    (fun _ => by rw [Nat.mul_one])
    (by
      intro r _
      rw [hline]
      have := c.lineOk (m := m) (by omega : 4 ≤ edgeLength P w h) r
      rw [hl] at this
      exact this) (by omega)
    (by
      intro h0 g hgg
      have := c.groupSmall
      omega)
    (by
      intro row g k hr hgg hk
      have := View.cell_valid (x := row + g) (y := k) (c := 0) c.wf c.fit (by omega) hk (by omega)
      rw [View.cell, hg] at this
      have e : v.y * v.img.rowSize + v.x + row * 1 + g * 1 + k * v.img.rowSize = (v.y + k) * v.img.rowSize + (v.x + (row + g)) * 1 + 0 := by
        simp only [Nat.add_mul, Nat.mul_one]
        omega
      rw [e]
      exact this) c.skip
  have hE : ∀ r, lineEdges rnd fl P (decide (P.direction = .topToBottom)) h
      (groupSum m v.img.data (v.y * v.img.rowSize + v.x + r * 1) 1 v.img.rowSize P.group) = edgesOf rnd fl P v m w h r := by
    intro r
    rw [hline, edgesOf, hl, hb]
  have hrange : (List.range (w + 1 - P.group)).filter (fun r => r % P.skip == 0) = edgeLines P w h := by
    rw [edgeLines, hc]
  have hmem : ∀ r ∈ edgeLines P w h, v.x + r < 4294967296 := by
    intro r hr
    rw [edgeLines, List.mem_filter, List.mem_range, hc] at hr
    have := c.group0
    omega
  have hco : ∀ r ∈ edgeLines P w h, rnd (u32 (v.x + r) + rnd (usub P.group 1 / 2)) = edgeCoordinate rnd P v r := fun r hr =>
    edgeCoordinate_row c.group0 (by have := c.groupSmall; omega) (by rw [if_neg ha]) (hmem r hr)
  have hend : usub (u32 (v.y + h)) 1 = v.y + h - 1 := by
    rw [u32_of_lt (by omega), usub_of_le (by omega) (by omega)]
  have hup : ∀ r ∈ edgeLines P w h, ∀ l : List ℚ, positiveY fl l (fl (rnd (u32 (v.x + r) + rnd (usub P.group 1 / 2)))) (fl v.y) = l.map (placeUp rnd fl P v r) := by
    intro r hr l
    rw [positiveY, hco r hr]
    refine List.map_congr_left fun e _ => ?_
    rw [placeUp, if_neg ha]
  have hdown : ∀ r ∈ edgeLines P w h, ∀ l : List ℚ, negativeY fl l (fl (rnd (u32 (v.x + r) + rnd (usub P.group 1 / 2)))) (fl (usub (u32 (v.y + h)) 1)) =
      l.map (placeDown rnd fl P v w h r) := by
    intro r hr l
    rw [negativeY, hco r hr, hend]
    refine List.map_congr_left fun e _ => ?_
    rw [placeDown, if_neg ha]
  have hpt : ∀ r ∈ edgeLines P w h, ∀ e, columnPoints rnd fl P v.x v.y h r e =
      if edgeBack P = false then
        (if P.gradient = .positive ∨ P.gradient = .any then e.1.map (placeUp rnd fl P v r) else [],
         if P.gradient = .negative ∨ P.gradient = .any then e.2.map (placeDown rnd fl P v w h r) else [])
      else
        (if P.gradient = .positive ∨ P.gradient = .any then e.2.map (placeDown rnd fl P v w h r) else [],
         if P.gradient = .negative ∨ P.gradient = .any then e.1.map (placeUp rnd fl P v r) else []) := by
    intro r hr e
    rw [columnPoints]
    rw [hup r hr, hdown r hr]
    refine if_congr ?_ rfl rfl
    rw [← decide_eq_true_iff (p := P.direction = .topToBottom), hb]
    simp
  obtain ⟨g1, g2⟩ := points_eq (rnd := rnd) (fl := fl) (E := edgesOf rnd fl P v m w h) hpt
  rw [hrange] at hw
  refine ⟨_, Eq.trans ?_ hw, ?_, ?_⟩
  · rw [findColumns, hlim, u32_of_lt f7, u32_of_lt f6]
  · rw [← g1]
    exact flatMap_congr' fun r _ => by rw [hE r]
  · rw [← g2]
    exact flatMap_congr' fun r _ => by rw [hE r]

/-- The result of the function for lines of at least four pixels -/
theorem find_ok {rnd fl : ℚ → ℚ} {m : BMem} {v : View} {w h : Nat} {P : Params} (c : EdgeCall m v w h P) (h4 : 4 ≤ edgeLength P w h) :
    find rnd fl v w h P m = .ok (positivePoints rnd fl P v w h (edgesOf rnd fl P v m w h), negativePoints rnd fl P v w h (edgesOf rnd fl P v m w h)) m := by
  obtain ⟨_, _, _, f4, f5, _⟩ := View.facts c.wf c.fit
  have hx := c.fit.inX
  have hy := c.fit.inY
  have hv : verifyGray [v.img] m = .ok () m := by
    rw [verifyGray]
    simp only [List.any_cons, List.any_nil, Bool.or_false, c.gray]
    rfl
  have hp : P.verify m = .ok () m := by
    have h1 := c.group0
    have h2 := c.skip0
    have h3 := c.contrast0
    have e : (P.group == 0 || P.skip == 0 || P.contrast == 0) = false := by
      simp only [Bool.or_eq_false_iff, beq_eq_false_iff_ne]
      omega
    rw [Params.verify, e]
    rfl
  have ehor : P.horizontal = edgeAcross P := rfl
  rw [find, bind_ok hv, bind_ok (validateRoi_ok m c.fit (by omega) (by omega)), bind_ok hp]
  rw [edgeLength] at h4
  by_cases ha : edgeAcross P = true
  · rw [if_pos ha] at h4
    obtain ⟨a, a1, a2, a3⟩ := find_rows (rnd := rnd) (fl := fl) c ha h4
    rw [if_neg (by rw [ehor, ha]; simp; omega), ehor, if_pos ha, bind_ok a1, ← a2, ← a3]
    rfl
  · rw [if_neg ha] at h4
    obtain ⟨a, a1, a2, a3⟩ := find_columns (rnd := rnd) (fl := fl) c ha h4
    rw [if_neg (by rw [ehor]; simp only [ha]; simp; omega), ehor, if_neg ha, bind_ok a1, ← a2, ← a3]
    rfl

end PV.EdgeFl
