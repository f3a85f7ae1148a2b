import Verif.EdgeLemmas
import Mathlib.Algebra.BigOperators.Intervals
/-
  What edge detection does to an image: all lines.
-/
namespace PV.Edge

/-! ### One line -/

/-- The line read backwards. Not in the code: for statements and proofs. -/
def backwards (n : Nat) (D : Nat → Int) : Nat → Int := fun k => D (n - 1 - k)

theorem LineOk.backwards {P : Params} {n : Nat} {D : Nat → Int} (o : LineOk P n D) : LineOk P n (backwards n D) :=
  ⟨o.four, o.size, o.group, o.contrast, o.right, fun k hk => o.values (n - 1 - k) (by omega)⟩

/-- The positions found in a line: upwards edges from its start, downwards edges from its end.
    Not in the code: for statements and proofs. -/
noncomputable def lineEdges (rnd fl : ℚ → ℚ) (P : Params) (forward : Bool) (n : Nat) (D : Nat → Int) : List ℚ × List ℚ :=
  choose P forward (removeSimilarPoints rnd (allEdges rnd fl P n D), removeSimilarPoints rnd (allEdges rnd fl P n (backwards n D)))

theorem clean_after {n : Nat} (hn : 0 < n) (D : Nat → Int) : Clean n ⟨lineArr n D, firstArr n D, secondArr n D⟩ :=
  ⟨rfl, fun k h => if_neg (by omega), rfl, fun k h => if_neg (by omega), rfl, fun k h => if_pos h⟩

theorem scanLine_ok {rnd fl : ℚ → ℚ} {P : Params} {forward : Bool} {n : Nat} {D : Nat → Int} {w : Work} (o : LineOk P n D) (hw : Clean n w)
    (hd : w.data = lineArr n D) :
    scanLine rnd fl P forward w () =
      .ok (lineEdges rnd fl P forward n D, ⟨lineArr n (backwards n D), firstArr n (backwards n D), secondArr n (backwards n D)⟩) () := by
  have h4 := o.four
  have hsz := o.size
  have hg := o.group
  have hf : n < fuelMax := by
    rw [fuelMax]
    omega
  have c := clean_after (by omega : 0 < n) D
  have d1 := getDerivatives_ok (by omega) hf o.values (by omega) hw.first hw.first0 hw.second hw.second0
  have d2 := getDerivatives_ok (by omega) hf o.backwards.values (by omega) c.first c.first0 c.second c.second0
  have er : reversed (lineArr n D) = lineArr n (backwards n D) := reversed_line n D
  rw [scanLine, hd, bind_ok d1, bind_ok (getEdgePoints_ok o)]
  simp only [er]
  rw [bind_ok d2, bind_ok (getEdgePoints_ok o.backwards)]
  rfl

/-! ### Reading a line -/

theorem lineLoop_ok {m : BMem} {p n step : Nat} {body : Nat × Nat → Arr Int → M BMem (Arr Int)} {F : Nat → Int → Int} {d : Arr Int} (hs : 0 < step)
    (hn : n < fuelMax) (hd : d.len = n)
    (hb : ∀ k (a : Arr Int), k < n → a.len = n → a.at' k = d.at' k →
      body (p + k * step, k) a m = .ok ⟨n, fun j => if j = k then F k (d.at' k) else a.at' j⟩ m) :
    lineLoop body p (p + n * step) step d m = .ok ⟨n, fun j => if j < n then F j (d.at' j) else d.at' j⟩ m := by
  obtain ⟨q, a, m', h1, ⟨k, p1, p2, p3, p4⟩, h3⟩ := loop_inv (cond := fun s : Nat × Nat => s.1 != p + n * step) (next := fun s => (s.1 + step, s.2 + 1))
    (body := body) (fun s a m' => ∃ k : Nat, s = (p + k * step, k) ∧ k ≤ n ∧ m' = m ∧ a = ⟨n, fun j => if j < k then F j (d.at' j) else d.at' j⟩)
    (fun s => n - s.2) (by
      rintro s a m' ⟨k, rfl, q2, rfl, q4⟩ hc
      have hk : k < n := by
        by_contra hh
        have : k = n := by omega
        subst this
        simp at hc
      refine ⟨_, _, hb k a hk (by rw [q4]) (by rw [q4]; exact if_neg (by omega)), ⟨k + 1, ?_, by omega, rfl, ?_⟩, by dsimp only; omega⟩
      · dsimp only
        rw [Nat.succ_mul, Nat.add_assoc]
      · refine Arr.ext' rfl fun j => ?_
        show (if j = k then F k (d.at' k) else a.at' j) = if j < k + 1 then F j (d.at' j) else d.at' j
        rw [q4]
        dsimp only
        by_cases hj : j = k
        · subst hj
          rw [if_pos rfl, if_pos (by omega)]
        · rw [if_neg hj]
          by_cases hj2 : j < k
          · rw [if_pos hj2, if_pos (by omega)]
          · rw [if_neg hj2, if_neg (by omega)]) fuelMax (p, 0) d m (by dsimp only; omega)
      ⟨0, by rw [Nat.zero_mul, Nat.add_zero], by omega, rfl, Arr.ext' hd fun j => by dsimp only; rw [if_neg (Nat.not_lt_zero j)]⟩
  subst p1
  have hk : k = n := by
    have h : p + k * step = p + n * step := by simpa using h3
    exact Nat.eq_of_mul_eq_mul_right hs (by omega)
  subst hk
  rw [lineLoop, h1, p3, p4]

theorem setStep_ok {m : BMem} {b : Nat} {q : Nat × Nat} {a : Arr Int} (hv : m.Valid b q.1) (hq : q.2 < a.len) :
    setStep b q a m = .ok ⟨a.len, fun j => if j = q.2 then ((m.byte b q.1).toNat : Int) else a.at' j⟩ m := by
  rw [setStep, bind_ok (readC_ok hv)]
  exact Arr.wr_ok _ hq m

theorem addStep_ok {m : BMem} {b : Nat} {q : Nat × Nat} {a : Arr Int} (hv : m.Valid b q.1) (hq : q.2 < a.len) (h0 : 0 ≤ a.at' q.2)
    (h1 : a.at' q.2 + 255 < 2147483648) :
    addStep b q a m = .ok ⟨a.len, fun j => if j = q.2 then a.at' q.2 + ((m.byte b q.1).toNat : Int) else a.at' j⟩ m := by
  have h2 : (m.byte b q.1).toNat < 256 := (m.byte b q.1).toNat_lt
  rw [addStep, bind_ok (readC_ok hv), bind_ok (Arr.rd_ok hq m), bind_ok (int32_ok m (by omega) (by omega))]
  exact Arr.wr_ok _ hq m

/-- The sums of `g` lines of bytes, the first one starting at `p`. Not in the code: for statements and proofs. -/
def groupSum (m : BMem) (b p next step g k : Nat) : Int := ∑ j ∈ Finset.range g, ((m.byte b (p + j * next + k * step)).toNat : Int)

theorem groupSum_bound (m : BMem) (b p next step g k : Nat) : 0 ≤ groupSum m b p next step g k ∧ groupSum m b p next step g k ≤ 255 * g := by
  rw [groupSum]
  induction g with
  | zero => simp
  | succ g ih =>
    have h2 : (m.byte b (p + g * next + k * step)).toNat < 256 := (m.byte b (p + g * next + k * step)).toNat_lt
    rw [Finset.sum_range_succ]
    push_cast
    constructor <;> omega

theorem loadLine_ok {m : BMem} {b p next step n group : Nat} {d : Arr Int} (hs : 0 < step) (hn : n < fuelMax) (hd : d.len = n)
    (hd0 : ∀ k, n ≤ k → d.at' k = 0) (hg0 : 0 < group) (hg : group * 255 < 2147483648) (hu : ∀ g, g < group → g * next < 4294967296)
    (hv : ∀ g k, g < group → k < n → m.Valid b (p + g * next + k * step)) :
    loadLine b p next step (n * step) group d m = .ok (lineArr n (groupSum m b p next step group)) m := by
  have e1 : ∀ k, groupSum m b p next step 1 k = ((m.byte b (p + k * step)).toNat : Int) := by
    intro k
    rw [groupSum, Finset.sum_range_one, Nat.zero_mul, Nat.add_zero]
  have h1 : lineLoop (setStep b) p (p + n * step) step d m = .ok (lineArr n (groupSum m b p next step 1)) m := by
    rw [lineLoop_ok (F := fun k _ => groupSum m b p next step 1 k) hs hn hd]
    · congr 1
      refine Arr.ext' rfl fun k => ?_
      show (if k < n then groupSum m b p next step 1 k else d.at' k) = if k < n then groupSum m b p next step 1 k else 0
      by_cases hk : k < n
      · rw [if_pos hk, if_pos hk]
      · rw [if_neg hk, if_neg hk, hd0 k (by omega)]
    · intro k a hk ha _
      have hv0 := hv 0 k hg0 hk
      rw [Nat.zero_mul, Nat.add_zero] at hv0
      rw [setStep_ok (q := (p + k * step, k)) hv0 (by rw [ha]; exact hk), ha, e1]
  rw [loadLine, bind_ok h1]
  obtain ⟨x, h, hp⟩ := forLoop_keep (a := 1) (n := group)
    (body := fun g d => lineLoop (addStep b) (p + u32 (g * next)) (p + u32 (g * next) + n * step) step d)
    (x := lineArr n (groupSum m b p next step 1)) (m := m) (P := fun g x => x = lineArr n (groupSum m b p next step g))
    (by omega) (by rw [fuelMax]; omega) rfl (by
      intro g x g1 g2 hx
      rw [u32_of_lt (hu g g2), hx]
      refine ⟨_, rfl |>.trans (lineLoop_ok (F := fun k z => z + ((m.byte b (p + g * next + k * step)).toNat : Int)) hs hn rfl ?_), ?_⟩
      · intro k a hk ha hak
        have eak : a.at' k = groupSum m b p next step g k := hak.trans (if_pos hk)
        obtain ⟨b1, b2⟩ := groupSum_bound m b p next step g k
        rw [addStep_ok (q := (p + g * next + k * step, k)) (hv g k g2 hk) (by rw [ha]; exact hk) (by rw [eak]; exact b1) (by rw [eak]; omega), ha]
        simp only
        rw [hak]
      · refine Arr.ext' rfl fun k => ?_
        show (if k < n then (if k < n then groupSum m b p next step g k else 0) + _ else if k < n then groupSum m b p next step g k else 0) =
          if k < n then groupSum m b p next step (g + 1) k else 0
        by_cases hk : k < n
        · rw [if_pos hk, if_pos hk, if_pos hk, groupSum, groupSum, Finset.sum_range_succ]
        · rw [if_neg hk, if_neg hk, if_neg hk])
  rw [h, hp]

/-! ### All lines -/

theorem locally_ok {μ α : Type} {x : M Unit α} {a : α} (h : x () = .ok a ()) (m : μ) : locally x m = .ok a m := by
  rw [locally, h]

theorem lineStep_ok {rnd fl : ℚ → ℚ} {P : Params} {forward : Bool} {m : BMem} {b p next step n row : Nat}
    {points : Nat → List ℚ × List ℚ → List (ℚ × ℚ) × List (ℚ × ℚ)} {a : Found} (hs : 0 < step) (hc : Clean n a.work) (hg0 : 0 < P.group)
    (ho : LineOk P n (groupSum m b p next step P.group)) (hu : ∀ g, g < P.group → g * next < 4294967296)
    (hv : ∀ g k, g < P.group → k < n → m.Valid b (p + g * next + k * step)) :
    ∃ w, Clean n w ∧ lineStep rnd fl P forward b next step (n * step) points (row, p) a m =
      .ok ⟨a.pos ++ (points row (lineEdges rnd fl P forward n (groupSum m b p next step P.group))).1,
        a.neg ++ (points row (lineEdges rnd fl P forward n (groupSum m b p next step P.group))).2, w⟩ m := by
  have hf : n < fuelMax := by
    have := ho.size
    rw [fuelMax]
    omega
  have hg := ho.group
  have h4 := ho.four
  refine ⟨_, clean_after (n := n) (by omega) (backwards n (groupSum m b p next step P.group)), ?_⟩
  have hg' : P.group * 255 < 2147483648 := Nat.lt_of_le_of_lt (Nat.mul_le_mul_left _ (by decide)) hg
  have hld := loadLine_ok (d := a.work.data) hs hf hc.data hc.data0 hg0 hg' hu hv
  rw [lineStep, bind_ok hld]
  have hcl : Clean n { a.work with data := lineArr n (groupSum m b p next step P.group) } :=
    ⟨rfl, fun k h => if_neg (by omega), hc.first, hc.first0, hc.second, hc.second0⟩
  rw [bind_ok (locally_ok (scanLine_ok ho hcl rfl) m)]
  rfl

theorem multiples_step {s : Nat} (t : Nat) (j : Nat) (h0 : 0 < j) (hj : j ≤ s) :
    (List.range (t * s + j)).filter (fun r => r % s == 0) = (List.range (t * s)).filter (fun r => r % s == 0) ++ [t * s] := by
  induction j with
  | zero => omega
  | succ j ih =>
    rw [← Nat.add_assoc, List.range_succ, List.filter_append]
    by_cases h1 : j = 0
    · subst h1
      rw [List.filter_cons_of_pos (by simp)]
      simp
    · rw [ih (by omega) (by omega), List.filter_cons_of_neg]
      · simp
      · rw [Nat.add_comm, Nat.add_mul_mod_self_right, Nat.mod_eq_of_lt (by omega)]
        simpa using h1

theorem multiples_below {s : Nat} (hs : 0 < s) (t : Nat) : (List.range (t * s)).filter (fun r => r % s == 0) = (List.range t).map (· * s) := by
  induction t with
  | zero => simp
  | succ t ih =>
    rw [Nat.succ_mul, multiples_step t s hs (Nat.le_refl _), ih, List.range_succ, List.map_append]
    rfl

/-- The multiples of `s` below `limit`, when `t * s` is the first one which is not. -/
theorem multiples {s limit : Nat} (hs : 0 < s) (t : Nat) (h1 : limit ≤ t * s) (h2 : t = 0 ∨ (t - 1) * s < limit) :
    (List.range limit).filter (fun r => r % s == 0) = (List.range t).map (· * s) := by
  rcases Nat.eq_zero_or_pos t with rfl | ht
  · have : limit = 0 := by omega
    subst this
    rfl
  · obtain ⟨u, rfl⟩ : ∃ u, t = u + 1 := ⟨t - 1, by omega⟩
    have h3 : u * s < limit := by
      rcases h2 with h | h
      · omega
      · exact h
    rw [Nat.succ_mul] at h1
    obtain ⟨j, rfl⟩ : ∃ j, limit = u * s + j := ⟨limit - u * s, by omega⟩
    rw [multiples_step u j (by omega) (by omega), multiples_below hs, List.range_succ, List.map_append]
    rfl

/-- The loop over lines; `start` is the first address, `next` the distance of two lines. -/
theorem lines_ok {rnd fl : ℚ → ℚ} {P : Params} {forward : Bool} {m : BMem} {b start next step n size limit adv : Nat}
    {points : Nat → List ℚ × List ℚ → List (ℚ × ℚ) × List (ℚ × ℚ)} (hs : 0 < step) (hsz : size = n * step) (hg0 : 0 < P.group) (hs0 : 0 < P.skip)
    (hlim : limit ≤ 2147483648) (hadv : P.skip < limit → adv = P.skip * next)
    (ho : ∀ row, row < limit → LineOk P n (groupSum m b (start + row * next) next step P.group)) (hn : 0 < n)
    (hu : 0 < limit → ∀ g, g < P.group → g * next < 4294967296)
    (hv : ∀ row g k, row < limit → g < P.group → k < n → m.Valid b (start + row * next + g * next + k * step)) (hskip : P.skip < 4294967296) :
    ∃ w, loop (fun q : Nat × Nat => decide (q.1 < limit)) (fun q => (u32 (q.1 + P.skip), q.2 + adv))
      (lineStep rnd fl P forward b next step size points) fuelMax (0, start) ⟨[], [], ⟨zeros n, zeros n, zeros n⟩⟩ m =
      .ok ⟨((List.range limit).filter (fun r => r % P.skip == 0)).flatMap fun r =>
          (points r (lineEdges rnd fl P forward n (groupSum m b (start + r * next) next step P.group))).1,
        ((List.range limit).filter (fun r => r % P.skip == 0)).flatMap fun r =>
          (points r (lineEdges rnd fl P forward n (groupSum m b (start + r * next) next step P.group))).2, w⟩ m := by
  subst hsz
  obtain ⟨q, a, m', h1, ⟨t, p1, p2, p3, p4, p5, p6, p7⟩, h3⟩ := loop_inv (cond := fun q : Nat × Nat => decide (q.1 < limit))
    (next := fun q => (u32 (q.1 + P.skip), q.2 + adv)) (body := lineStep rnd fl P forward b next step (n * step) points)
    (fun q a m' => ∃ t : Nat, q.1 = t * P.skip ∧ (q.1 < limit → q.2 = start + q.1 * next) ∧ (t = 0 ∨ (t - 1) * P.skip < limit) ∧ m' = m ∧
      Clean n a.work ∧
      a.pos = ((List.range t).map (· * P.skip)).flatMap (fun r =>
        (points r (lineEdges rnd fl P forward n (groupSum m b (start + r * next) next step P.group))).1) ∧
      a.neg = ((List.range t).map (· * P.skip)).flatMap (fun r =>
        (points r (lineEdges rnd fl P forward n (groupSum m b (start + r * next) next step P.group))).2))
    (fun q => limit - q.1) (by
      rintro ⟨row, p⟩ a m' ⟨t, q1, q2, q3, rfl, q5, q6, q7⟩ hc
      have hr : row < limit := by simpa using hc
      have hp : p = start + row * next := q2 hr
      subst hp
      obtain ⟨w, w1, w2⟩ := lineStep_ok (rnd := rnd) (fl := fl) (forward := forward) (row := row) (points := points) hs q5 hg0 (ho row hr) (hu (by omega))
        (fun g k a b => hv row g k hr a b)
      have q1' : row = t * P.skip := q1
      have hw : u32 (row + P.skip) = row + P.skip := by
        refine u32_of_lt ?_
        rcases Nat.eq_zero_or_pos t with h | h
        · rw [h, Nat.zero_mul] at q1'
          omega
        · have : 1 * P.skip ≤ t * P.skip := Nat.mul_le_mul_right _ h
          omega
      refine ⟨_, _, w2, ⟨t + 1, ?_, ?_, Or.inr ?_, rfl, w1, ?_, ?_⟩, ?_⟩
      · show u32 (row + P.skip) = _
        rw [hw, Nat.succ_mul, q1']
      · show u32 (row + P.skip) < limit → start + row * next + adv = start + u32 (row + P.skip) * next
        rw [hw]
        intro hlt
        rw [hadv (by omega), Nat.add_mul]
        omega
      · rw [Nat.add_sub_cancel, ← q1']
        exact hr
      · rw [q6, List.range_succ, List.map_append, List.flatMap_append, q1']
        simp
      · rw [q7, List.range_succ, List.map_append, List.flatMap_append, q1']
        simp
      · show limit - u32 (row + P.skip) < limit - row
        rw [hw]
        omega) fuelMax (0, start) ⟨[], [], ⟨zeros n, zeros n, zeros n⟩⟩ m (by
          dsimp only
          rw [fuelMax]
          omega)
      ⟨0, by simp, fun _ => by simp, Or.inl rfl, rfl, ⟨rfl, fun _ _ => rfl, rfl, fun _ _ => rfl, rfl, fun _ _ => rfl⟩, rfl, rfl⟩
  have hlt : limit ≤ t * P.skip := by
    rw [← p1]
    simpa using h3
  refine ⟨a.work, ?_⟩
  rw [h1, p4, multiples hs0 t hlt p3, ← p6, ← p7]

end PV.Edge
