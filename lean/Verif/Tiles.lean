import Verif.Channel
/-
  Model of the tiling of the function pool (src/function_pool_task.cpp) and lemmas about it.

  Simplification: the four parallel vectors `startX`, `startY`, `width`, `height` of
  `AreaInfo` always have the same length; the model uses one list of records.
-/
namespace PV

variable {μ A : Type}

/-- Entry `i` of the four vectors of `AreaInfo`, src/function_pool_task.h 33-36. -/
structure Tile where
  x : Nat
  y : Nat
  w : Nat
  h : Nat
deriving DecidableEq, Repr

/-- One round of the loop of src/function_pool_task.cpp 95-103 (rows) or 112-120 (columns):
    `q` is `total / count`, `rem` is `remainValue`, `prev` is `previousValue`.  The result is
    the list of pairs (start, size). -/
def partLoop (q : Nat) : Nat → Nat → Nat → List (Nat × Nat)
  | 0, _, _ => []
  | k + 1, rem, prev =>
    let size := if rem > 0 then u32 (q + 1) else q
    (prev, size) :: partLoop q k (if rem > 0 then rem - 1 else rem) (u32 (prev + size))

/-- `AreaInfo::_fill`, src/function_pool_task.cpp 81-122.  A division by zero is undefined
    behaviour. -/
def areaFill (x y w h count : Nat) (yAxis : Bool) : M μ (List Tile) :=
  if count = 0 then ubE
  else if yAxis then
    pure ((partLoop (h / count) count (h % count) y).map fun p => ⟨x, p.1, w, p.2⟩)
  else
    pure ((partLoop (w / count) count (w % count) x).map fun p => ⟨p.1, y, p.2, h⟩)

/-- `cacheSize`, src/function_pool_task.cpp 33 -/
def cacheSize : Nat := 16

/-- The task counts of `AreaInfo::_calculate`, src/function_pool_task.cpp 68-76: the number
    of tasks and whether the area is cut into rows. -/
def areaCount (w h count : Nat) : Nat × Bool :=
  let mx := w / cacheSize
  let mx := if mx = 0 then 1 else mx
  let mx := if mx > count then count else mx
  let my := if h > count then count else h
  (if my ≥ mx then my else mx, decide (my ≥ mx))

/-- `AreaInfo::_calculate`, src/function_pool_task.cpp 66-79 -/
def areaCalculate (x y w h count : Nat) : M μ (List Tile) :=
  areaFill x y w h (areaCount w h count).1 (areaCount w h count).2

/-- The comparison of neighbours in `AreaInfo::_copy`, src/function_pool_task.cpp 55-60. -/
def areaYAxis : List Tile → Bool
  | a :: b :: rest => if a.x ≠ b.x ∨ a.w ≠ b.w then false else areaYAxis (b :: rest)
  | _ => true

/-- `AreaInfo::_copy`, src/function_pool_task.cpp 50-64; `old` is the content of the object
    before the call. -/
def areaCopy (old info : List Tile) (x y w h : Nat) (oppositeAxis : Bool) : M μ (List Tile) :=
  if info.length > 0 then
    areaFill x y w h (u32 info.length) (if oppositeAxis then !areaYAxis info else areaYAxis info)
  else pure old

/-- The function `threadCount()` of src/function_pool_task.cpp 26-32; `n` is the number of
    threads of the pool. -/
def poolThreads (n : Nat) : M μ Nat := do
  throwIf (u32 n == 0)
  pure (u32 n)

/-! ### Lemmas: cutting an interval -/

/-- The sizes of the parts: `rem` parts of size `q + 1` followed by parts of size `q`. -/
theorem partLoop_spec {q : Nat} : ∀ (k rem prev : Nat), rem ≤ k →
    prev + (k * q + rem) < 4294967296 →
    (partLoop q k rem prev).length = k ∧
    ∀ (i : Nat), i < k → (partLoop q k rem prev)[i]?
      = some (prev + (i * q + min i rem), q + (if i < rem then 1 else 0)) := by
  intro k
  induction k with
  | zero => intro rem prev _ _; exact ⟨rfl, fun i hi => absurd hi (Nat.not_lt_zero _)⟩
  | succ k ih =>
    intro rem prev hrem hb
    have hq : q ≤ (k + 1) * q := Nat.le_mul_of_pos_left _ (Nat.succ_pos _)
    have hsize : (if rem > 0 then u32 (q + 1) else q) = q + (if 0 < rem then 1 else 0) := by
      by_cases hr : 0 < rem
      · rw [if_pos hr, if_pos hr, u32_of_lt (by omega)]
      · rw [if_neg hr, if_neg hr]
        rfl
    have hnext : u32 (prev + (q + (if 0 < rem then 1 else 0))) = prev + (q + (if 0 < rem then 1 else 0)) :=
      u32_of_lt (by split <;> omega)
    rw [partLoop, hsize, hnext]
    have hk : (k + 1) * q = k * q + q := Nat.succ_mul _ _
    obtain ⟨h1, h2⟩ := ih (if rem > 0 then rem - 1 else rem) (prev + (q + (if 0 < rem then 1 else 0)))
      (by split <;> omega) (by split <;> omega)
    refine ⟨by rw [List.length_cons, h1], ?_⟩
    intro i hi
    cases i with
    | zero => simp
    | succ i =>
      rw [List.getElem?_cons_succ, h2 i (by omega)]
      have hi' : (i + 1) * q = i * q + q := Nat.succ_mul _ _
      congr 1
      refine Prod.ext ?_ ?_
      · simp only
        split <;> omega
      · simp only
        congr 1
        by_cases hr : 0 < rem
        · rw [if_pos hr]
          split <;> split <;> omega
        · rw [if_neg hr, if_neg (by omega), if_neg (by omega)]

/-- Where part `i` of `total` cut into `n` parts starts. Not in the code: for statements and proofs. -/
def cut (total n i : Nat) : Nat := i * (total / n) + min i (total % n)

theorem cut_zero (total n : Nat) : cut total n 0 = 0 := by simp [cut]

theorem cut_end {total n : Nat} (hn : 0 < n) : cut total n n = total := by
  have h1 := Nat.mod_lt total hn
  have h2 := Nat.div_add_mod total n
  unfold cut
  omega

theorem cut_succ (total n i : Nat) :
    cut total n (i + 1) = cut total n i + (total / n + if i < total % n then 1 else 0) := by
  unfold cut
  rw [Nat.succ_mul]
  split <;> omega

theorem cut_lt_succ {total n i : Nat} (hn : 0 < n) (h : n ≤ total) : cut total n i < cut total n (i + 1) := by
  have : 0 < total / n := Nat.div_pos h hn
  rw [cut_succ]
  omega

theorem cut_mono {total n i j : Nat} (h : i ≤ j) : cut total n i ≤ cut total n j := by
  induction j with
  | zero => rw [Nat.le_zero.1 h]; exact Nat.le_refl _
  | succ j ih =>
    rcases Nat.lt_or_ge i (j + 1) with h' | h'
    · have := ih (by omega)
      rw [cut_succ]
      exact Nat.le_add_right_of_le this
    · rw [show i = j + 1 by omega]
      exact Nat.le_refl _

theorem cut_le_total {total n i : Nat} (hn : 0 < n) (h : i ≤ n) : cut total n i ≤ total := by
  have := cut_mono (total := total) (n := n) h
  rw [cut_end hn] at this
  exact this

/-- Every point lies in a part. -/
theorem cut_find {total n : Nat} (hn : 0 < n) {p : Nat} (hp : p < total) :
    ∃ i, i < n ∧ cut total n i ≤ p ∧ p < cut total n (i + 1) := by
  suffices h : ∀ k, k ≤ n → p < cut total n k → ∃ i, i < n ∧ cut total n i ≤ p ∧ p < cut total n (i + 1) from
    h n (Nat.le_refl _) (by rw [cut_end hn]; exact hp)
  intro k
  induction k with
  | zero => intro _ h; rw [cut_zero] at h; omega
  | succ k ih =>
    intro hk h
    by_cases hlt : p < cut total n k
    · exact ih (by omega) hlt
    · exact ⟨k, by omega, by omega, h⟩

/-- ... and in only one. -/
theorem cut_unique {total n i j p : Nat} (hi : cut total n i ≤ p ∧ p < cut total n (i + 1))
    (hj : cut total n j ≤ p ∧ p < cut total n (j + 1)) : i = j := by
  rcases Nat.lt_trichotomy i j with h | h | h
  · have := cut_mono (total := total) (n := n) (show i + 1 ≤ j by omega)
    omega
  · exact h
  · have := cut_mono (total := total) (n := n) (show j + 1 ≤ i by omega)
    omega

theorem partLoop_cut {total n start : Nat} (hn : 0 < n) (hb : start + total < 4294967296) :
    partLoop (total / n) n (total % n) start
      = (List.range n).map fun i => (start + cut total n i, cut total n (i + 1) - cut total n i) := by
  have hm := Nat.mod_lt total hn
  have hd := Nat.div_add_mod total n
  obtain ⟨h1, h2⟩ := partLoop_spec (q := total / n) n (total % n) start (by omega) (by omega)
  apply List.ext_getElem?
  intro i
  by_cases hi : i < n
  · rw [h2 i hi, List.getElem?_map, List.getElem?_range hi, Option.map_some, cut_succ]
    simp only [cut, Nat.add_sub_cancel_left]
  · rw [List.getElem?_eq_none (by omega), List.getElem?_eq_none (by simp; omega)]

/-- The tiles relative to the corner of the area. Not in the code: for statements and proofs. -/
def relTiles (w h n : Nat) (yAxis : Bool) : List Tile :=
  (List.range n).map fun i =>
    if yAxis then ⟨0, cut h n i, w, cut h n (i + 1) - cut h n i⟩
    else ⟨cut w n i, 0, cut w n (i + 1) - cut w n i, h⟩

/-- Move a tile. Not in the code: for statements and proofs. -/
def Tile.shift (t : Tile) (x y : Nat) : Tile := ⟨x + t.x, y + t.y, t.w, t.h⟩

theorem areaFill_eq {x y w h n : Nat} (yAxis : Bool) (hn : 0 < n) (hx : x + w < 4294967296)
    (hy : y + h < 4294967296) :
    (areaFill x y w h n yAxis : M μ (List Tile)) = pure ((relTiles w h n yAxis).map fun t => t.shift x y) := by
  rw [areaFill, if_neg (by omega), partLoop_cut hn hx, partLoop_cut hn hy]
  cases yAxis <;> simp [relTiles, Tile.shift, Function.comp_def]

/-! ### What a tiling is -/

/-- Point (px, py) belongs to the tile. Not in the code: for statements and proofs. -/
def Tile.Has (t : Tile) (px py : Nat) : Prop := t.x ≤ px ∧ px < t.x + t.w ∧ t.y ≤ py ∧ py < t.y + t.h

/-- The tiles are a partition of the `w` x `h` rectangle with corner (x, y) into non-empty
    rectangles. Not in the code: for statements and proofs. -/
structure Tiling (L : List Tile) (x y w h : Nat) : Prop where
  nonempty : ∀ t ∈ L, 0 < t.w ∧ 0 < t.h
  inside : ∀ t ∈ L, x ≤ t.x ∧ t.x + t.w ≤ x + w ∧ y ≤ t.y ∧ t.y + t.h ≤ y + h
  cover : ∀ px py, x ≤ px → px < x + w → y ≤ py → py < y + h → ∃ t ∈ L, t.Has px py
  disjoint : ∀ (i j : Nat) s t, L[i]? = some s → L[j]? = some t → i ≠ j →
    ∀ px py, s.Has px py → ¬ t.Has px py

theorem Tiling.shift {L : List Tile} {w h : Nat} (hL : Tiling L 0 0 w h) (x y : Nat) :
    Tiling (L.map fun t => t.shift x y) x y w h := by
  refine ⟨?_, ?_, ?_, ?_⟩
  · intro t ht
    obtain ⟨s, hs, rfl⟩ := List.mem_map.1 ht
    exact hL.nonempty s hs
  · intro t ht
    obtain ⟨s, hs, rfl⟩ := List.mem_map.1 ht
    have := hL.inside s hs
    simp only [Tile.shift]
    omega
  · intro px py h1 h2 h3 h4
    obtain ⟨t, ht, hh⟩ := hL.cover (px - x) (py - y) (by omega) (by omega) (by omega) (by omega)
    refine ⟨_, List.mem_map.2 ⟨t, ht, rfl⟩, ?_⟩
    unfold Tile.Has at *
    simp only [Tile.shift]
    omega
  · intro i j s t hi hj hij px py h1 h2
    rw [List.getElem?_map, Option.map_eq_some_iff] at hi hj
    obtain ⟨s', hs, rfl⟩ := hi
    obtain ⟨t', ht, rfl⟩ := hj
    refine hL.disjoint i j s' t' hs ht hij (px - x) (py - y) ?_ ?_
    · unfold Tile.Has at *
      simp only [Tile.shift] at h1
      omega
    · unfold Tile.Has at *
      simp only [Tile.shift] at h2
      omega

theorem mem_relTiles {w h n : Nat} {yAxis : Bool} {t : Tile} :
    t ∈ relTiles w h n yAxis ↔ ∃ i, i < n ∧
      (if yAxis then (⟨0, cut h n i, w, cut h n (i + 1) - cut h n i⟩ : Tile)
        else ⟨cut w n i, 0, cut w n (i + 1) - cut w n i, h⟩) = t := by
  simp only [relTiles, List.mem_map, List.mem_range]

theorem relTiles_get {w h n i : Nat} {yAxis : Bool} {t : Tile} :
    (relTiles w h n yAxis)[i]? = some t ↔ i < n ∧
      (if yAxis then (⟨0, cut h n i, w, cut h n (i + 1) - cut h n i⟩ : Tile)
        else ⟨cut w n i, 0, cut w n (i + 1) - cut w n i, h⟩) = t := by
  rw [relTiles, List.getElem?_map]
  by_cases hi : i < n
  · rw [List.getElem?_range hi]
    simp [hi]
  · rw [List.getElem?_eq_none (by simp; omega)]
    simp [hi]

/-- Cutting into at most as many parts as there are rows (columns) gives a tiling. -/
theorem relTiles_tiling {w h n : Nat} {yAxis : Bool} (hn : 0 < n) (hw : 0 < w) (hh : 0 < h)
    (hle : n ≤ if yAxis then h else w) : Tiling (relTiles w h n yAxis) 0 0 w h := by
  cases yAxis with
  | true =>
    simp only [↓reduceIte] at hle
    refine ⟨?_, ?_, ?_, ?_⟩
    · intro t ht
      obtain ⟨i, hi, rfl⟩ := mem_relTiles.1 ht
      have := cut_lt_succ (i := i) hn hle
      simp only [↓reduceIte]
      omega
    · intro t ht
      obtain ⟨i, hi, rfl⟩ := mem_relTiles.1 ht
      have h1 := cut_lt_succ (i := i) hn hle
      have h2 := cut_le_total (total := h) (i := i + 1) hn (by omega)
      simp only [↓reduceIte]
      omega
    · intro px py _ h2 _ h4
      obtain ⟨i, hi, h5, h6⟩ := cut_find (n := n) hn (show py < h by omega)
      refine ⟨_, mem_relTiles.2 ⟨i, hi, rfl⟩, ?_⟩
      simp only [↓reduceIte, Tile.Has]
      omega
    · intro i j s t hi hj hij px py h1 h2
      obtain ⟨_, rfl⟩ := relTiles_get.1 hi
      obtain ⟨_, rfl⟩ := relTiles_get.1 hj
      simp only [↓reduceIte, Tile.Has] at h1 h2
      have a := cut_lt_succ (i := i) hn hle
      have b := cut_lt_succ (i := j) hn hle
      exact hij (cut_unique (p := py) (total := h) (n := n) (by omega) (by omega))
  | false =>
    simp only [Bool.false_eq_true, ↓reduceIte] at hle
    refine ⟨?_, ?_, ?_, ?_⟩
    · intro t ht
      obtain ⟨i, hi, rfl⟩ := mem_relTiles.1 ht
      have := cut_lt_succ (i := i) hn hle
      simp only [Bool.false_eq_true, ↓reduceIte]
      omega
    · intro t ht
      obtain ⟨i, hi, rfl⟩ := mem_relTiles.1 ht
      have h1 := cut_lt_succ (i := i) hn hle
      have h2 := cut_le_total (total := w) (i := i + 1) hn (by omega)
      simp only [Bool.false_eq_true, ↓reduceIte]
      omega
    · intro px py _ h2 _ h4
      obtain ⟨i, hi, h5, h6⟩ := cut_find (n := n) hn (show px < w by omega)
      refine ⟨_, mem_relTiles.2 ⟨i, hi, rfl⟩, ?_⟩
      simp only [Bool.false_eq_true, ↓reduceIte, Tile.Has]
      omega
    · intro i j s t hi hj hij px py h1 h2
      obtain ⟨_, rfl⟩ := relTiles_get.1 hi
      obtain ⟨_, rfl⟩ := relTiles_get.1 hj
      simp only [Bool.false_eq_true, ↓reduceIte, Tile.Has] at h1 h2
      have a := cut_lt_succ (i := i) hn hle
      have b := cut_lt_succ (i := j) hn hle
      exact hij (cut_unique (p := px) (total := w) (n := n) (by omega) (by omega))

theorem areaCount_spec {w h n : Nat} (hn : 0 < n) (hw : 0 < w) (hh : 0 < h) :
    0 < (areaCount w h n).1 ∧ (areaCount w h n).1 ≤ n ∧
    (areaCount w h n).1 ≤ if (areaCount w h n).2 then h else w := by
  simp only [areaCount, cacheSize]
  have hd : w / 16 ≤ w := Nat.div_le_self _ _
  by_cases h0 : w / 16 = 0
  · simp only [h0, ↓reduceIte]
    by_cases h1 : h > n
    · simp only [h1, ↓reduceIte]
      rw [if_neg (show ¬ 1 > n by omega)]
      rw [if_pos (show n ≥ 1 by omega)]
      simp only [show n ≥ 1 by omega, decide_true, ↓reduceIte]
      omega
    · simp only [h1, ↓reduceIte]
      rw [if_neg (show ¬ 1 > n by omega)]
      rw [if_pos (show h ≥ 1 by omega)]
      simp only [show h ≥ 1 by omega, decide_true, ↓reduceIte]
      omega
  · simp only [h0, ↓reduceIte]
    generalize hmx : (if w / 16 > n then n else w / 16) = mx
    generalize hmy : (if h > n then n else h) = my
    have a1 : 0 < mx ∧ mx ≤ n ∧ mx ≤ w := by subst hmx; split <;> omega
    have a2 : 0 < my ∧ my ≤ n ∧ my ≤ h := by subst hmy; split <;> omega
    by_cases hc : my ≥ mx
    · simp only [hc, decide_true, ↓reduceIte]
      exact a2
    · simp only [hc, decide_false, ↓reduceIte, Bool.false_eq_true]
      exact a1

/-- The tiles of one area relative to its corner. Not in the code: for statements and proofs. -/
def tilesOf (w h n : Nat) : List Tile := relTiles w h (areaCount w h n).1 (areaCount w h n).2

theorem tilesOf_tiling {w h n : Nat} (hn : 0 < n) (hw : 0 < w) (hh : 0 < h) :
    Tiling (tilesOf w h n) 0 0 w h := by
  obtain ⟨h1, _, h3⟩ := areaCount_spec hn hw hh
  exact relTiles_tiling h1 hw hh h3

theorem areaCalculate_eq {x y w h n : Nat} (hn : 0 < n) (hw : 0 < w) (hh : 0 < h)
    (hx : x + w < 4294967296) (hy : y + h < 4294967296) :
    (areaCalculate x y w h n : M μ (List Tile)) = pure ((tilesOf w h n).map fun t => t.shift x y) := by
  rw [areaCalculate, areaFill_eq _ (areaCount_spec hn hw hh).1 hx hy, tilesOf]

end PV
