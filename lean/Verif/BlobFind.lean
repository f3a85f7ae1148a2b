import Verif.BlobGraph
/-
  The two searches of blob detection follow the graph of the eight neighbours.
-/
namespace PV.Blob

open PV

/-- The sizes a search works with. Not in the code: for statements and proofs. -/
structure Dims (g : Geo) (h : Nat) : Prop where
  mw : g.mw = g.w + 2
  small : g.mw * (h + 2) < 4294967296
  x : g.x + g.w < 4294967296
  y : g.y + h < 4294967296

/-- The eight neighbours of a map position, in the order of the search. Not in the code: for statements and proofs. -/
def nbs (mw p : Nat) : List Nat :=
  [p - mw - 1, p - mw, p - mw + 1, p - 1, p + 1, p + mw - 1, p + mw, p + mw + 1]

/-- Map column `a`, map row `b`. Not in the code: for statements and proofs. -/
def at' (mw a b : Nat) : Nat := b * mw + a

/-- A position which is not on the border of the map. Not in the code: for statements and proofs. -/
def Interior (w h mw p : Nat) : Prop := ∃ a b, p = at' mw a b ∧ 1 ≤ a ∧ a ≤ w ∧ 1 ≤ b ∧ b ≤ h

variable {g : Geo} {h : Nat}

theorem point_at (D : Dims g h) {a b : Nat} (ha : a < g.mw) :
    g.point (at' g.mw a b) = (u32 (a + g.x + 4294967295), u32 (b + g.y + 4294967295)) := by
  have hm : at' g.mw a b % g.mw = a := by
    rw [at', Nat.mul_add_mod_self_right, Nat.mod_eq_of_lt ha]
  have hd : at' g.mw a b / g.mw = b := by
    rw [at', Nat.add_comm, Nat.add_mul_div_right _ _ (by omega), Nat.div_eq_of_lt ha, Nat.zero_add]
  rw [Geo.point, hm, hd]

theorem position_point (D : Dims g h) {a b : Nat} (ha : 1 ≤ a) (ha' : a ≤ g.w) (hb : 1 ≤ b) (hb' : b ≤ h) :
    g.position (g.point (at' g.mw a b)) = at' g.mw a b := by
  have := D.mw
  have := D.x
  have := D.y
  rw [point_at D (by omega), Geo.position]
  have h1 : u32 (u32 (b + g.y + 4294967295) + 1 + (4294967296 - g.y)) = b := by
    simp only [u32]
    omega
  have h2 : u32 (u32 (a + g.x + 4294967295) + 1 + (4294967296 - g.x)) = a := by
    simp only [u32]
    omega
  simp only [h1, h2]
  have hle : b * g.mw ≤ (h + 2) * g.mw := Nat.mul_le_mul_right _ (by omega)
  have hs := D.small
  rw [Nat.mul_comm] at hs
  rw [u32_of_lt (by omega)]
  rfl

theorem interior_lt (D : Dims g h) {p : Nat} (hp : Interior g.w h g.mw p) :
    g.mw + 1 ≤ p ∧ p + g.mw + 1 < g.mw * (h + 2) := by
  obtain ⟨a, b, rfl, h1, h2, h3, h4⟩ := hp
  have := D.mw
  have hle : b * g.mw ≤ h * g.mw := Nat.mul_le_mul_right _ h4
  have hge : 1 * g.mw ≤ b * g.mw := Nat.mul_le_mul_right _ h3
  rw [Nat.mul_comm g.mw, Nat.add_mul]
  simp only [at']
  omega

/-- The moves of the search lead to the given positions, whose points are the given points.
    Not in the code: for statements and proofs. -/
def Track (g : Geo) (pt : Nat × Nat) (sz : Nat) : Nat → List (Nat × Nat × Nat) → List Nat → Prop
  | _, [], [] => True
  | p, mv :: L, n :: ns =>
    p + mv.1 = n ∧ n < sz ∧ g.point n = (u32 (pt.1 + mv.2.1), u32 (pt.2 + mv.2.2)) ∧ Track g pt sz n L ns
  | _, _, _ => False

theorem track_moves (D : Dims g h) {p : Nat} (hp : Interior g.w h g.mw p) :
    Track g (g.point p) (g.mw * (h + 2)) (p - g.mw - 1) (moves g.w) (nbs g.mw p) := by
  obtain ⟨l1, l2⟩ := interior_lt D hp
  obtain ⟨a, b, rfl, h1, h2, h3, h4⟩ := hp
  have hmw := D.mw
  have hx := D.x
  have hy := D.y
  obtain ⟨b, rfl⟩ : ∃ b', b = b' + 1 := ⟨b - 1, by omega⟩
  obtain ⟨a, rfl⟩ : ∃ a', a = a' + 1 := ⟨a - 1, by omega⟩
  have e : ∀ {n a' b' : Nat}, n = at' g.mw a' b' → a' < g.mw →
      g.point n = (u32 (a' + g.x + 4294967295), u32 (b' + g.y + 4294967295)) := by
    rintro n a' b' rfl hlt
    exact point_at D hlt
  have m0 : at' g.mw (a + 1) (b + 1) - g.mw - 1 = at' g.mw a b := by
    simp only [at', Nat.add_mul]
    omega
  have m1 : at' g.mw (a + 1) (b + 1) - g.mw = at' g.mw (a + 1) b := by
    simp only [at', Nat.add_mul]
    omega
  have m2 : at' g.mw (a + 1) (b + 1) - g.mw + 1 = at' g.mw (a + 2) b := by
    simp only [at', Nat.add_mul]
    omega
  have m3 : at' g.mw (a + 1) (b + 1) - 1 = at' g.mw a (b + 1) := by
    simp only [at', Nat.add_mul]
    omega
  have m4 : at' g.mw (a + 1) (b + 1) + 1 = at' g.mw (a + 2) (b + 1) := by
    simp only [at', Nat.add_mul]
    omega
  have m5 : at' g.mw (a + 1) (b + 1) + g.mw - 1 = at' g.mw a (b + 2) := by
    simp only [at', Nat.add_mul]
    omega
  have m6 : at' g.mw (a + 1) (b + 1) + g.mw = at' g.mw (a + 1) (b + 2) := by
    simp only [at', Nat.add_mul]
    omega
  have m7 : at' g.mw (a + 1) (b + 1) + g.mw + 1 = at' g.mw (a + 2) (b + 2) := by
    simp only [at', Nat.add_mul]
    omega
  rw [point_at D (by omega)]
  simp only [moves, nbs, Track]
  have aux : ∀ {n a' b' x' y' : Nat}, n = at' g.mw a' b' → a' < g.mw →
      (u32 (a' + g.x + 4294967295), u32 (b' + g.y + 4294967295)) = (x', y') → g.point n = (x', y') := by
    intro n a' b' x' y' h1 h2 h3
    rw [e h1 h2, h3]
  refine ⟨?_, ?_, aux m0 (by omega) ?_, ?_, ?_, aux m1 (by omega) ?_, ?_, ?_, aux m2 (by omega) ?_, ?_, ?_,
    aux m3 (by omega) ?_, ?_, ?_, aux m4 (by omega) ?_, ?_, ?_, aux m5 (by omega) ?_, ?_, ?_, aux m6 (by omega) ?_,
    ?_, ?_, aux m7 (by omega) ?_, trivial⟩
  all_goals first
    | omega
    | (simp only [u32, Prod.mk.injEq] <;> omega)

theorem getCell_run {sz n : Nat} {c : Nat → Nat} (hn : n < sz) : getCell n ⟨sz, c⟩ = .ok (c n) ⟨sz, c⟩ := if_pos hn

theorem setCell_run {sz n : Nat} {c : Nat → Nat} (v : Nat) (hn : n < sz) :
    setCell n v ⟨sz, c⟩ = .ok () ⟨sz, upd c n v⟩ := if_pos hn

/-- The number of coloured vertices. Not in the code: for statements and proofs. -/
def coloured (c : Nat → Nat) (L : List Nat) : Nat := L.countP fun n => c n != 0

theorem visit_zero {c : Nat → Nat} {ps : List Nat} {n k : Nat} {W K : Nat} (hK : K ≠ 0) (hW : W ≠ 0) :
    (visit W K (c, ps) n).1 k = 0 ↔ c k = 0 := by
  simp only [visit]
  split
  · rename_i h
    simp only [upd]
    split
    · rename_i e
      subst e
      rw [h]
      exact ⟨fun e => absurd e hK, fun e => absurd e hW⟩
    · rfl
  · rfl

theorem lookPoints_run {pt : Nat × Nat} {sz : Nat} (ns : List Nat) : ∀ {p : Nat} {L : List (Nat × Nat × Nat)}
    {c : Nat → Nat} {ps : List Nat} {k : Nat}, Track g pt sz p L ns →
    fold (lookPoint pt) L (p, ps.map g.point, k) ⟨sz, c⟩ =
      .ok (ns.getLastD p, (ns.foldl (visit 1 2) (c, ps)).2.map g.point, k + coloured c ns)
        ⟨sz, (ns.foldl (visit 1 2) (c, ps)).1⟩ := by
  induction ns with
  | nil =>
    intro p L c ps k t
    cases L with
    | nil => rfl
    | cons mv L => exact absurd t (by simp [Track])
  | cons n ns ih =>
    intro p L c ps k t
    cases L with
    | nil => exact absurd t (by simp [Track])
    | cons mv L =>
      obtain ⟨t1, t2, t3, t4⟩ := t
      have hstep : lookPoint pt mv (p, ps.map g.point, k) ⟨sz, c⟩ =
          .ok (n, (visit 1 2 (c, ps) n).2.map g.point, k + if c n ≠ 0 then 1 else 0)
            ⟨sz, (visit 1 2 (c, ps) n).1⟩ := by
        simp only [lookPoint, t1]
        rw [bind_ok (getCell_run t2)]
        by_cases h0 : c n = 0
        · rw [if_neg (by simp [h0])]
          simp only [visit, h0]
          rfl
        · rw [if_pos h0]
          by_cases h1 : c n = 1
          · rw [if_pos h1, bind_ok (setCell_run 2 t2)]
            simp only [visit, h1, ↓reduceIte, List.map_append, List.map_cons, List.map_nil, t3]
            rfl
          · rw [if_neg h1]
            simp only [visit, h0, h1, ↓reduceIte, ne_eq, not_false_eq_true]
            rfl
      rw [fold_cons, bind_ok hstep, ih t4, List.foldl_cons, List.getLastD_cons]
      have hcount : ∀ l : List Nat, coloured (visit 1 2 (c, ps) n).1 l = coloured c l := by
        intro l
        refine List.countP_congr fun k _ => ?_
        simp only [bne_iff_ne, ne_eq, visit_zero (Nat.succ_ne_zero 1) Nat.one_ne_zero]
      rw [hcount]
      have hk : (k + if c n ≠ 0 then 1 else 0) + coloured c ns = k + coloured c (n :: ns) := by
        simp only [coloured, List.countP_cons]
        by_cases h0 : c n = 0
        · simp [h0]
        · simp [h0]
          omega
      rw [hk]

theorem lookContours_run {pt : Nat × Nat} {sz : Nat} (ns : List Nat) : ∀ {p : Nat} {L : List (Nat × Nat × Nat)}
    {c : Nat → Nat} {ps : List Nat}, Track g pt sz p L ns →
    fold (lookContour pt) L (p, ps.map g.point) ⟨sz, c⟩ =
      .ok (ns.getLastD p, (ns.foldl (visit 3 4) (c, ps)).2.map g.point) ⟨sz, (ns.foldl (visit 3 4) (c, ps)).1⟩ := by
  induction ns with
  | nil =>
    intro p L c ps t
    cases L with
    | nil => rfl
    | cons mv L => exact absurd t (by simp [Track])
  | cons n ns ih =>
    intro p L c ps t
    cases L with
    | nil => exact absurd t (by simp [Track])
    | cons mv L =>
      obtain ⟨t1, t2, t3, t4⟩ := t
      have hstep : lookContour pt mv (p, ps.map g.point) ⟨sz, c⟩ =
          .ok (n, (visit 3 4 (c, ps) n).2.map g.point) ⟨sz, (visit 3 4 (c, ps) n).1⟩ := by
        simp only [lookContour, t1]
        rw [bind_ok (getCell_run t2)]
        by_cases h1 : c n = 3
        · rw [if_pos h1, bind_ok (setCell_run 4 t2)]
          simp only [visit, h1, ↓reduceIte, List.map_append, List.map_cons, List.map_nil, t3]
          rfl
        · rw [if_neg h1]
          simp only [visit, h1, ↓reduceIte]
          rfl
      rw [fold_cons, bind_ok hstep, ih t4, List.foldl_cons, List.getLastD_cons]

/-! ### The search for the points of a blob -/

/-- Some neighbour is empty. Not in the code: for statements and proofs. -/
def edgeAt (mw : Nat) (c : Nat → Nat) (p : Nat) : Bool := (nbs mw p).any fun n => c n == 0

theorem coloured_eight {mw p : Nat} {c : Nat → Nat} : coloured c (nbs mw p) ≠ 8 ↔ edgeAt mw c p = true := by
  have h8 : (nbs mw p).length = 8 := rfl
  constructor
  · intro h
    rcases Bool.eq_false_or_eq_true (edgeAt mw c p) with e | e
    · exact e
    · refine absurd ?_ h
      rw [coloured, ← h8]
      refine List.countP_eq_length.mpr fun n hn => ?_
      rw [edgeAt, List.any_eq_false] at e
      have := e n hn
      simpa using this
  · intro h e
    rw [coloured, ← h8, List.countP_eq_length] at e
    rw [edgeAt, List.any_eq_true] at h
    obtain ⟨n, hn, h0⟩ := h
    have := e n hn
    simp at h0 this
    exact this h0

/-- The final colour of a point. Not in the code: for statements and proofs. -/
def pointColour (mw : Nat) (c : Nat → Nat) (p : Nat) : Nat := if edgeAt mw c p then 3 else 2

theorem growPoint_run (D : Dims g h) {c : Nat → Nat} {p : Nat} {ps : List Nat} {e : List (Nat × Nat)}
    (hp : Interior g.w h g.mw p) :
    growPoint g (g.point p) (ps.map g.point) e ⟨g.mw * (h + 2), c⟩ =
      .ok (((nbs g.mw p).foldl (visit 1 2) (c, ps)).2.map g.point, if edgeAt g.mw c p then e ++ [g.point p] else e)
        ⟨g.mw * (h + 2), if edgeAt g.mw c p then upd ((nbs g.mw p).foldl (visit 1 2) (c, ps)).1 p 3
          else ((nbs g.mw p).foldl (visit 1 2) (c, ps)).1⟩ := by
  obtain ⟨l1, l2⟩ := interior_lt D hp
  have hpos : g.position (g.point p) = p := by
    obtain ⟨a, b, rfl, h1, h2, h3, h4⟩ := hp
    exact position_point D h1 h2 h3 h4
  simp only [growPoint, hpos]
  rw [if_neg (by omega), bind_ok (lookPoints_run (nbs g.mw p) (track_moves D hp)), Nat.zero_add]
  by_cases he : edgeAt g.mw c p = true
  · rw [if_pos (coloured_eight.mpr he)]
    have hlast : (nbs g.mw p).getLastD (p - g.mw - 1) - 1 - g.mw = p := by
      simp only [nbs, List.getLastD_cons, List.getLastD_nil]
      omega
    simp only [hlast]
    rw [bind_ok (setCell_run 3 (by omega))]
    simp only [he, ↓reduceIte]
    rfl
  · rw [if_neg (fun hh => he (coloured_eight.mp hh))]
    simp only [he, ↓reduceIte]
    rfl

/-- The vertices of the search are in the interior. -/
theorem reach_interior {mw w : Nat} {S : Nat → Prop} {s n : Nat} (hs : Interior w h mw s)
    (hS : ∀ n, S n → Interior w h mw n) (hr : Reach (nbs mw) S s n) : Interior w h mw n := by
  cases hr with
  | refl => exact hs
  | step _ _ hn => exact hS _ hn

/-- The search for points: it ends, with all points that can be reached, in the map their final
    colours, and the edge points among them. -/
theorem growPoints_run (D : Dims g h) {c₀ : Nat → Nat} {s : Nat} (hs : c₀ s = 1)
    (hS : ∀ n, c₀ n = 1 → Interior g.w h g.mw n) : ∀ (fuel idx : Nat) (c : Nat → Nat) (ps : List Nat),
    Trav (nbs g.mw) 1 2 (pointColour g.mw c₀) c₀ s c ps idx → idx < ps.length → g.mw * (h + 2) < fuel + idx →
    ∃ c' ps', growPoints g fuel idx (ps.map g.point) (((ps.take idx).filter (edgeAt g.mw c₀)).map g.point)
        ⟨g.mw * (h + 2), c⟩ =
        .ok (ps'.map g.point, (ps'.filter (edgeAt g.mw c₀)).map g.point) ⟨g.mw * (h + 2), c'⟩ ∧
      Trav (nbs g.mw) 1 2 (pointColour g.mw c₀) c₀ s c' ps' ps'.length := by
  have hK : (2 : Nat) ≠ 1 := by omega
  have hf : ∀ n, pointColour g.mw c₀ n ≠ 1 := by
    intro n
    rw [pointColour]
    split <;> omega
  intro fuel
  induction fuel with
  | zero =>
    intro idx c ps t hidx hfu
    exfalso
    have : ps.length ≤ (List.range (g.mw * (h + 2))).length :=
      List.Nodup.length_le_of_subset t.nodup fun n hn =>
        List.mem_range.mpr (by
          have := interior_lt D (reach_interior (hS s hs) hS (t.reach n hn))
          omega)
    rw [List.length_range] at this
    omega
  | succ fuel ih =>
    intro idx c ps t hidx hfu
    have hmem : ps[idx] ∈ ps := List.getElem_mem hidx
    have hget : ps[idx]? = some ps[idx] := List.getElem?_eq_getElem hidx
    generalize ps[idx] = v at hmem hget
    have hin : ∀ n, n ∈ ps → Interior g.w h g.mw n := fun n hn => reach_interior (hS s hs) hS (t.reach n hn)
    have hone : ∀ n, n ∈ ps → c₀ n = 1 := by
      intro n hn
      cases t.reach n hn with
      | refl => exact hs
      | step _ _ h => exact h
    have hzero : ∀ n, c n = 0 ↔ c₀ n = 0 := by
      intro n
      rw [t.col]
      by_cases h1 : n ∈ ps.take idx
      · rw [if_pos h1, hone n (List.mem_of_mem_take h1)]
        refine ⟨fun e => ?_, fun e => by omega⟩
        rw [pointColour] at e
        split at e <;> omega
      · rw [if_neg h1]
        by_cases h2 : n ∈ ps
        · rw [if_pos h2, hone n h2]
          omega
        · rw [if_neg h2]
    have hedge : edgeAt g.mw c v = edgeAt g.mw c₀ v := by
      rw [Bool.eq_iff_iff, edgeAt, edgeAt, List.any_eq_true, List.any_eq_true]
      simp only [beq_iff_eq, hzero]
    obtain ⟨t1, hcl, hpre⟩ := Trav.visits hK hf (nbs g.mw v) t hmem fun n hn => hn
    have hrun := growPoint_run D (c := c) (ps := ps)
      (e := ((ps.take idx).filter (edgeAt g.mw c₀)).map g.point) (hin v hmem)
    rw [hedge] at hrun
    generalize hst : (nbs g.mw v).foldl (visit 1 2) (c, ps) = st at t1 hcl hpre hrun
    have hget1 : st.2[idx]? = some v := by
      obtain ⟨tl, htl⟩ := hpre
      rw [← htl, List.getElem?_append_left hidx]
      exact hget
    have t2 := t1.done hget1 hcl
    have hcol : (if edgeAt g.mw c₀ v then upd st.1 v 3 else st.1) = upd st.1 v (pointColour g.mw c₀ v) := by
      rw [pointColour]
      split
      · rfl
      · funext n
        simp only [upd]
        split
        · rename_i e
          subst e
          rw [t1.col, if_neg, if_pos (hpre.subset hmem)]
          intro hin
          have htake : st.2.take idx = ps.take idx := by
            obtain ⟨tl, htl⟩ := hpre
            rw [← htl, List.take_append_of_le_length t.idx_le]
          rw [htake] at hin
          obtain ⟨i, hi, hie⟩ := List.mem_take_iff_getElem.mp hin
          have hvi : ps[idx] = n := by
            have := List.getElem?_eq_getElem hidx
            rw [hget] at this
            exact (Option.some.inj this).symm
          have := List.pairwise_iff_getElem.mp t.nodup i idx (by omega) hidx (by omega)
          exact this (hie.trans hvi.symm)
        · rfl
    have hedges : (if edgeAt g.mw c₀ v then ((ps.take idx).filter (edgeAt g.mw c₀)).map g.point ++ [g.point v]
        else ((ps.take idx).filter (edgeAt g.mw c₀)).map g.point)
        = ((st.2.take (idx + 1)).filter (edgeAt g.mw c₀)).map g.point := by
      have htake : st.2.take (idx + 1) = ps.take idx ++ [v] := by
        have : st.2.take idx = ps.take idx := by
          obtain ⟨tl, htl⟩ := hpre
          rw [← htl, List.take_append_of_le_length t.idx_le]
        rw [List.take_succ, hget1, this]
        rfl
      rw [htake, List.filter_append, List.map_append]
      by_cases he : edgeAt g.mw c₀ v = true
      · simp [he]
      · simp [he]
    rw [hcol, hedges] at hrun
    have hlen := hpre.length_le
    rw [growPoints]
    have hgm : (ps.map g.point)[idx]? = some (g.point v) := by rw [List.getElem?_map, hget]; rfl
    simp only [hgm]
    rw [bind_ok hrun]
    simp only [List.length_map]
    by_cases hend : idx + 1 = st.2.length
    · rw [if_neg (by simp [hend])]
      refine ⟨upd st.1 v (pointColour g.mw c₀ v), st.2, ?_, ?_⟩
      · rw [hend, List.take_length]
        rfl
      · rw [← hend]
        exact t2
    · rw [if_pos hend]
      exact ih (idx + 1) _ st.2 t2 (by omega) (by omega)

/-! ### The search for contour points -/

theorem growContour_run (D : Dims g h) {c : Nat → Nat} {p : Nat} {ps : List Nat} (hp : Interior g.w h g.mw p) :
    growContour g (g.point p) (ps.map g.point) ⟨g.mw * (h + 2), c⟩ =
      .ok (((nbs g.mw p).foldl (visit 3 4) (c, ps)).2.map g.point)
        ⟨g.mw * (h + 2), ((nbs g.mw p).foldl (visit 3 4) (c, ps)).1⟩ := by
  obtain ⟨l1, l2⟩ := interior_lt D hp
  have hpos : g.position (g.point p) = p := by
    obtain ⟨a, b, rfl, h1, h2, h3, h4⟩ := hp
    exact position_point D h1 h2 h3 h4
  simp only [growContour, hpos]
  rw [if_neg (by omega), bind_ok (lookContours_run (nbs g.mw p) (track_moves D hp))]
  rfl

theorem growContours_run (D : Dims g h) {c₀ : Nat → Nat} {s : Nat} (hs : Interior g.w h g.mw s)
    (hS : ∀ n, c₀ n = 3 → Interior g.w h g.mw n) : ∀ (fuel idx : Nat) (c : Nat → Nat) (ps : List Nat),
    Trav (nbs g.mw) 3 4 (fun _ => 4) c₀ s c ps idx → idx < ps.length → g.mw * (h + 2) < fuel + idx →
    ∃ c' ps', growContours g fuel idx (ps.map g.point) ⟨g.mw * (h + 2), c⟩ =
        .ok (ps'.map g.point) ⟨g.mw * (h + 2), c'⟩ ∧
      Trav (nbs g.mw) 3 4 (fun _ => 4) c₀ s c' ps' ps'.length := by
  have hK : (4 : Nat) ≠ 3 := by omega
  intro fuel
  induction fuel with
  | zero =>
    intro idx c ps t hidx hfu
    exfalso
    have : ps.length ≤ (List.range (g.mw * (h + 2))).length :=
      List.Nodup.length_le_of_subset t.nodup fun n hn =>
        List.mem_range.mpr (by
          have := interior_lt D (reach_interior hs hS (t.reach n hn))
          omega)
    rw [List.length_range] at this
    omega
  | succ fuel ih =>
    intro idx c ps t hidx hfu
    have hmem : ps[idx] ∈ ps := List.getElem_mem hidx
    have hget : ps[idx]? = some ps[idx] := List.getElem?_eq_getElem hidx
    generalize ps[idx] = v at hmem hget
    have hin : ∀ n, n ∈ ps → Interior g.w h g.mw n := fun n hn => reach_interior hs hS (t.reach n hn)
    obtain ⟨t1, hcl, hpre⟩ := Trav.visits hK (fun _ => hK) (nbs g.mw v) t hmem fun n hn => hn
    have hrun := growContour_run D (c := c) (ps := ps) (hin v hmem)
    generalize hst : (nbs g.mw v).foldl (visit 3 4) (c, ps) = st at t1 hcl hpre hrun
    have hget1 : st.2[idx]? = some v := by
      obtain ⟨tl, htl⟩ := hpre
      rw [← htl, List.getElem?_append_left hidx]
      exact hget
    have t2 := t1.done hget1 hcl
    have hcol : st.1 = upd st.1 v 4 := by
      funext n
      simp only [upd]
      split
      · rename_i e
        subst e
        rw [t1.col]
        split
        · rfl
        · rw [if_pos (hpre.subset hmem)]
      · rfl
    have t2 : Trav (nbs g.mw) 3 4 (fun _ => 4) c₀ s st.1 st.2 (idx + 1) := by
      rw [hcol]
      exact t2
    have hlen := hpre.length_le
    rw [growContours]
    have hgm : (ps.map g.point)[idx]? = some (g.point v) := by rw [List.getElem?_map, hget]; rfl
    simp only [hgm]
    rw [bind_ok hrun]
    simp only [List.length_map]
    by_cases hend : idx + 1 = st.2.length
    · rw [if_neg (by simp [hend])]
      refine ⟨_, st.2, rfl, ?_⟩
      rw [← hend]
      exact t2
    · rw [if_pos hend]
      exact ih (idx + 1) _ st.2 t2 (by omega) (by omega)

end PV.Blob
