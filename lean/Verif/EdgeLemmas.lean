import Verif.Edge
import Mathlib.Tactic.Linarith
/-
  What the functions of edge detection do to one line.
-/
namespace PV.Edge

/-! ### Vectors -/

/-- The vector with the elements `D 0` … `D (n - 1)` -/
def lineArr (n : Nat) (D : Nat → Int) : Arr Int := ⟨n, fun k => if k < n then D k else 0⟩

/-- First derivative -/
def firstOf (D : Nat → Int) (k : Nat) : Int := D (k + 1) - D k

/-- Second derivative -/
def secondOf (D : Nat → Int) (k : Nat) : Int := firstOf D k - firstOf D (k - 1)

def firstArr (n : Nat) (D : Nat → Int) : Arr Int := ⟨n, fun k => if k + 1 < n then firstOf D k else 0⟩

def secondArr (n : Nat) (D : Nat → Int) : Arr Int :=
  ⟨n, fun k => if k = 0 ∨ n ≤ k then 0 else (firstArr n D).at' k - (firstArr n D).at' (k - 1)⟩

/-- The vectors between two lines -/
structure Clean (n : Nat) (w : Work) : Prop where
  data : w.data.len = n
  data0 : ∀ k, n ≤ k → w.data.at' k = 0
  first : w.first.len = n
  first0 : ∀ k, n ≤ k + 1 → w.first.at' k = 0
  second : w.second.len = n
  second0 : ∀ k, k = 0 ∨ n ≤ k → w.second.at' k = 0

theorem Arr.ext' {a b : Arr Int} (h1 : a.len = b.len) (h2 : ∀ k, a.at' k = b.at' k) : a = b := by
  cases a
  cases b
  simp only at h1 h2
  rw [h1, funext h2]

theorem reversed_line (n : Nat) (D : Nat → Int) : reversed (lineArr n D) = lineArr n (fun k => D (n - 1 - k)) := by
  refine Arr.ext' rfl fun k => ?_
  show (if k < n then (if n - 1 - k < n then D (n - 1 - k) else 0) else if k < n then D k else 0) = if k < n then D (n - 1 - k) else 0
  by_cases h : k < n
  · rw [if_pos h, if_pos h, if_pos (by omega)]
  · rw [if_neg h, if_neg h, if_neg h]

theorem int32_ok {z : Int} {μ : Type} (m : μ) (h1 : -2147483648 ≤ z) (h2 : z < 2147483648) : int32 z m = .ok z m := by
  rw [int32, if_pos ⟨h1, h2⟩]
  rfl

/-- All values of a line are between 0 and `B`. -/
def Within (n : Nat) (D : Nat → Int) (B : Int) : Prop := ∀ k, k < n → 0 ≤ D k ∧ D k ≤ B

theorem minusStep_ok {v out : Arr Int} {o k : Nat} (h1 : k + 1 < v.len) (h2 : o + k < out.len) (h3 : -2147483648 ≤ v.at' (k + 1) - v.at' k)
    (h4 : v.at' (k + 1) - v.at' k < 2147483648) :
    minusStep v o k out () = .ok ⟨out.len, fun j => if j = o + k then v.at' (k + 1) - v.at' k else out.at' j⟩ () := by
  rw [minusStep]
  refine (bind_ok (Arr.rd_ok h1 ())).trans ((bind_ok (Arr.rd_ok (by omega) ())).trans ((bind_ok (int32_ok () h3 h4)).trans ?_))
  exact Arr.wr_ok _ h2 ()

/-- `std::transform( v.begin() + 1, v.end(), v.begin(), out.begin() + o, std::minus<int>() )` -/
theorem minus_ok {v out : Arr Int} {o : Nat} (hn : v.len < fuelMax) (h2 : o + (v.len - 1) ≤ out.len)
    (h3 : ∀ k, k + 1 < v.len → -2147483648 ≤ v.at' (k + 1) - v.at' k ∧ v.at' (k + 1) - v.at' k < 2147483648) :
    forLoop 0 (v.len - 1) (minusStep v o) out () =
      .ok ⟨out.len, fun j => if o ≤ j ∧ j < o + (v.len - 1) then v.at' (j - o + 1) - v.at' (j - o) else out.at' j⟩ () := by
  obtain ⟨x', h, hp⟩ := forLoop_keep (a := 0) (n := v.len - 1) (body := minusStep v o) (x := out) (m := ())
    (P := fun k x => x = ⟨out.len, fun j => if o ≤ j ∧ j < o + k then v.at' (j - o + 1) - v.at' (j - o) else out.at' j⟩)
    (Nat.zero_le _) (by omega) (Arr.ext' rfl fun j => (by
      dsimp only
      rw [if_neg (by omega)])) (by
      intro k x _ hk hx
      obtain ⟨a, b⟩ := h3 k (by omega)
      refine ⟨_, minusStep_ok (by omega) (by rw [hx]; show o + k < out.len; omega) a b, ?_⟩
      refine Arr.ext' (by rw [hx]) fun j => ?_
      dsimp only
      rw [hx]
      dsimp only
      by_cases hj : j = o + k
      · rw [if_pos hj, if_pos (by omega), hj]
        have e : o + k - o = k := by omega
        rw [e]
      · rw [if_neg hj]
        by_cases hj2 : o ≤ j ∧ j < o + k
        · rw [if_pos hj2, if_pos (by omega)]
        · rw [if_neg hj2, if_neg (by omega)])
  rw [h, hp]

theorem getDerivatives_ok {n : Nat} {D : Nat → Int} {B : Int} {a b : Arr Int} (hn : 0 < n) (hn2 : n < fuelMax) (hD : Within n D B)
    (hB : 2 * B < 2147483648) (a1 : a.len = n) (a2 : ∀ k, n ≤ k + 1 → a.at' k = 0) (b1 : b.len = n) (b2 : ∀ k, k = 0 ∨ n ≤ k → b.at' k = 0) :
    getDerivatives (lineArr n D) a b () = .ok (firstArr n D, secondArr n D) () := by
  have hat : ∀ k, k < n → (lineArr n D).at' k = D k := fun k hk => if_pos hk
  have s1 : forLoop 0 ((lineArr n D).len - 1) (minusStep (lineArr n D) 0) a () = .ok (firstArr n D) () := by
    rw [minus_ok (show n < fuelMax from hn2) (by rw [a1]; show 0 + (n - 1) ≤ n; omega) (by
      intro k hk
      have hk' : k + 1 < n := hk
      rw [hat _ hk', hat k (by omega)]
      obtain ⟨p1, p2⟩ := hD k (by omega)
      obtain ⟨q1, q2⟩ := hD (k + 1) hk'
      constructor <;> omega)]
    congr 1
    refine Arr.ext' a1 fun k => ?_
    show (if 0 ≤ k ∧ k < 0 + (n - 1) then (lineArr n D).at' (k - 0 + 1) - (lineArr n D).at' (k - 0) else a.at' k) = if k + 1 < n then firstOf D k else 0
    by_cases hk : k + 1 < n
    · rw [if_pos hk, if_pos (by omega), Nat.sub_zero, hat _ hk, hat k (by omega), firstOf]
    · rw [if_neg hk, if_neg (by omega), a2 k (by omega)]
  have hf : ∀ k, -B ≤ (firstArr n D).at' k ∧ (firstArr n D).at' k ≤ B := by
    intro k
    show -B ≤ (if k + 1 < n then firstOf D k else 0) ∧ (if k + 1 < n then firstOf D k else 0) ≤ B
    obtain ⟨z1, z2⟩ := hD 0 hn
    by_cases hk : k + 1 < n
    · rw [if_pos hk, firstOf]
      obtain ⟨p1, p2⟩ := hD k (by omega)
      obtain ⟨q1, q2⟩ := hD (k + 1) hk
      constructor <;> omega
    · rw [if_neg hk]
      constructor <;> omega
  rw [getDerivatives, bind_ok s1]
  have s2 : forLoop 0 ((firstArr n D).len - 1) (minusStep (firstArr n D) 1) b () = .ok (secondArr n D) () := by
    rw [minus_ok (show n < fuelMax from hn2) (by rw [b1]; show 1 + (n - 1) ≤ n; omega) (by
      intro k hk
      obtain ⟨p1, p2⟩ := hf k
      obtain ⟨q1, q2⟩ := hf (k + 1)
      constructor <;> omega)]
    congr 1
    refine Arr.ext' b1 fun k => ?_
    show (if 1 ≤ k ∧ k < 1 + (n - 1) then (firstArr n D).at' (k - 1 + 1) - (firstArr n D).at' (k - 1) else b.at' k) =
      if k = 0 ∨ n ≤ k then 0 else (firstArr n D).at' k - (firstArr n D).at' (k - 1)
    by_cases hk : k = 0 ∨ n ≤ k
    · rw [if_pos hk, if_neg (by omega), b2 k hk]
    · rw [if_neg hk, if_pos (by omega), Nat.sub_add_cancel (by omega)]
  rw [bind_ok s2]
  rfl

theorem firstArr_at {n : Nat} {D : Nat → Int} {k : Nat} (h : k + 1 < n) : (firstArr n D).at' k = firstOf D k := if_pos h

theorem secondArr_at {n : Nat} {D : Nat → Int} {k : Nat} (h0 : 0 < k) (h : k + 1 < n) : (secondArr n D).at' k = secondOf D k := by
  show (if k = 0 ∨ n ≤ k then 0 else (firstArr n D).at' k - (firstArr n D).at' (k - 1)) = _
  rw [if_neg (by omega), firstArr_at h, firstArr_at (by omega)]
  rfl

/-! ### Maximum, minimum and sum -/

theorem extreme_ok {d : Arr Int} {l r : Nat} (larger : Bool) (hl : l ≤ r) (hr : r < d.len) (hn : d.len < fuelMax) :
    ∃ v, extreme larger d l (r + 1) () = .ok v () ∧ (∃ j, l ≤ j ∧ j ≤ r ∧ v = d.at' j) ∧
      ∀ j, l ≤ j → j ≤ r → if larger then d.at' j ≤ v else v ≤ d.at' j := by
  obtain ⟨j', v, m', h1, ⟨p1, p2, p3, p4⟩, h3⟩ := loop_inv (cond := fun j => j != r + 1) (next := fun j => j + 1) (body := extremeStep larger d)
    (fun j v _ => l < j ∧ j ≤ r + 1 ∧ (∃ k, l ≤ k ∧ k ≤ r ∧ v = d.at' k) ∧ ∀ k, l ≤ k → k < j → if larger then d.at' k ≤ v else v ≤ d.at' k)
    (fun j => r + 1 - j) (by
      intro j v m ⟨q1, q2, q3, q4⟩ hc
      have hj : j ≠ r + 1 := by simpa using hc
      refine ⟨if (if larger then v < d.at' j else d.at' j < v) then d.at' j else v, m, ?_, ⟨by omega, by omega, ?_, ?_⟩, by omega⟩
      · rw [extremeStep, bind_ok (Arr.rd_ok (by omega) m)]
        rfl
      · by_cases hb : (if larger then v < d.at' j else d.at' j < v)
        · rw [if_pos hb]
          exact ⟨j, by omega, by omega, rfl⟩
        · rw [if_neg hb]
          exact q3
      · intro k hk1 hk2
        have hkj : k < j ∨ k = j := by omega
        cases larger with
        | true =>
          simp only [if_true] at q4 ⊢
          rcases hkj with h | h
          · have := q4 k hk1 h
            split <;> omega
          · subst h
            split <;> omega
        | false =>
          simp only [Bool.false_eq_true, if_false] at q4 ⊢
          rcases hkj with h | h
          · have := q4 k hk1 h
            split <;> omega
          · subst h
            split <;> omega) fuelMax (l + 1) (d.at' l) () (by omega) ⟨by omega, by omega, ⟨l, Nat.le_refl _, hl, rfl⟩, by
      intro k h1 h2
      have : k = l := by omega
      subst this
      split <;> omega⟩
  have hj : j' = r + 1 := by simpa using h3
  subst hj
  refine ⟨v, ?_, p3, fun j a b => p4 j a (by omega)⟩
  rw [extreme, bind_ok (Arr.rd_ok (by omega) ()), if_neg (by omega)]
  exact h1

/-- The sum of `c` elements from `b` on, each step rounded -/
def sumOf (fl : ℚ → ℚ) (D : Nat → Int) (b : Nat) : Nat → ℚ
  | 0 => 0
  | c + 1 => fl (sumOf fl D b c + fl (D (b + c)))

theorem accumulate_ok {d : Arr Int} {b c : Nat} (fl : ℚ → ℚ) (h : b + c ≤ d.len) (hn : d.len < fuelMax) :
    accumulate fl d b (b + c) () = .ok (sumOf fl d.at' b c) () := by
  obtain ⟨j', v, m', h1, ⟨p1, p2, p3⟩, h3⟩ := loop_inv (cond := fun j => j != b + c) (next := fun j => j + 1) (body := sumStep fl d)
    (fun j v _ => b ≤ j ∧ j ≤ b + c ∧ v = sumOf fl d.at' b (j - b)) (fun j => b + c - j) (by
      intro j v m ⟨q1, q2, q3⟩ hc
      have hj : j ≠ b + c := by simpa using hc
      refine ⟨fl (v + fl (d.at' j)), m, ?_, ⟨by omega, by omega, ?_⟩, by omega⟩
      · rw [sumStep, bind_ok (Arr.rd_ok (by omega) m)]
        rfl
      · have e : j + 1 - b = (j - b) + 1 := by omega
        rw [e, sumOf, ← q3, Nat.add_sub_cancel' q1]) fuelMax b 0 () (by omega) ⟨Nat.le_refl _, by omega, by rw [Nat.sub_self]; rfl⟩
  have hj : j' = b + c := by simpa using h3
  subst hj
  rw [accumulate, h1, p3]
  congr 2
  omega

/-! ### One place -/

/-- The mean of the `right` values after `pos` exceeds the mean of the `left + 1` values up to `pos` by `minC`. -/
def Contrasts (rnd fl : ℚ → ℚ) (D : Nat → Int) (minC : Int) (left right pos n : Nat) : Prop :=
  left ≤ pos ∧ pos + right < n ∧
    (minC : ℚ) ≤ rnd (rnd (sumOf fl D (pos + 1) right / right) - rnd (sumOf fl D (pos - left) (left + 1) / ((left : ℚ) + 1)))

instance (rnd fl : ℚ → ℚ) (D : Nat → Int) (minC : Int) (left right pos n : Nat) : Decidable (Contrasts rnd fl D minC left right pos n) :=
  inferInstanceAs (Decidable (_ ∧ _ ∧ _))

theorem contrastCheck_ok {rnd fl : ℚ → ℚ} {d : Arr Int} {minC : Int} {check : Bool} {left right pos : Nat} (hn : d.len < 4294967296)
    (hp : pos + 1 < d.len) (hr : check = true → 0 < right ∧ right + d.len ≤ 4294967296) :
    contrastCheck rnd fl d minC check left right pos d.len () =
      .ok (check && !decide (Contrasts rnd fl d.at' minC left right pos d.len)) () := by
  have hf : d.len < fuelMax := by
    rw [fuelMax]
    omega
  cases check with
  | false =>
    rw [contrastCheck, if_neg (by simp)]
    rfl
  | true =>
    obtain ⟨hr0, hr1⟩ := hr rfl
    have e1 : u32 (right + pos) = right + pos := u32_of_lt (by omega)
    have e1' : u32 (pos + right) = pos + right := u32_of_lt (by omega)
    by_cases hc : left ≤ pos ∧ pos + right < d.len
    · obtain ⟨h1, h2⟩ := hc
      have e2 : usub pos left = pos - left := usub_of_le h1 (by omega)
      have e3 : u32 (pos + 1) = pos + 1 := u32_of_lt (by omega)
      have e4 : usub pos (pos - left) = left := by
        rw [usub_of_le (by omega) (by omega)]
        omega
      have e5 : usub (pos + right) (pos + 1) = right - 1 := by
        rw [usub_of_le (by omega) (by omega)]
        omega
      have a1 := accumulate_ok (d := d) (b := pos - left) (c := left + 1) fl (by omega) hf
      have a2 := accumulate_ok (d := d) (b := pos + 1) (c := right) fl (by omega) hf
      rw [show pos - left + (left + 1) = pos + 1 by omega] at a1
      rw [show pos + 1 + right = pos + right + 1 by omega] at a2
      rw [contrastCheck, if_pos ⟨rfl, h1, by omega⟩, e1', e2, e3, bind_ok a1, bind_ok a2, e4, e5, u32_of_lt (by omega : left + 1 < 4294967296),
        Nat.sub_add_cancel hr0, u32_of_lt (by omega : right < 4294967296)]
      show Res.ok _ _ = _
      congr 1
      by_cases hk : (minC : ℚ) ≤ rnd (rnd (sumOf fl d.at' (pos + 1) right / right) - rnd (sumOf fl d.at' (pos - left) (left + 1) / ((left : ℚ) + 1)))
      · rw [decide_eq_true (show Contrasts rnd fl d.at' minC left right pos d.len from ⟨h1, h2, hk⟩)]
        rw [if_pos (by push_cast; exact hk)]
        rfl
      · rw [decide_eq_false (show ¬ Contrasts rnd fl d.at' minC left right pos d.len from fun h => hk h.2.2)]
        rw [if_neg (by push_cast; exact hk)]
        rfl
    · rw [contrastCheck, if_neg (by rw [e1]; intro h; exact hc ⟨h.2.1, by omega⟩)]
      rw [decide_eq_false (show ¬ Contrasts rnd fl d.at' minC left right pos d.len from fun h => hc ⟨h.1, h.2.1⟩)]
      rfl

/-- The zero of the line through the second derivatives at `i` and `i + 1`; the middle if they are equal -/
def positionOf (rnd : ℚ → ℚ) (S : Nat → Int) (i : Nat) : ℚ :=
  if S i ≠ S (i + 1) then rnd (i + rnd ((S i : ℚ) / ((S i - S (i + 1) : Int) : ℚ))) else rnd (i + 1 / 2)

theorem position_ok {rnd : ℚ → ℚ} {s : Arr Int} {i : Nat} (hn : s.len < 4294967296) (hp : i + 1 < s.len)
    (h1 : -2147483648 ≤ s.at' i - s.at' (i + 1)) (h2 : s.at' i - s.at' (i + 1) < 2147483648) :
    position rnd s i () = .ok (positionOf rnd s.at' i) () := by
  rw [position, u32_of_lt (by omega : i + 1 < 4294967296)]
  refine (bind_ok (Arr.rd_ok (by omega) ())).trans ((bind_ok (Arr.rd_ok hp ())).trans ?_)
  rw [positionOf]
  by_cases h : s.at' i ≠ s.at' (i + 1)
  · rw [if_pos h, if_pos h, bind_ok (int32_ok () h1 h2)]
    rfl
  · rw [if_neg h, if_neg h]
    rfl

/-- Two values from places `l` to `r` differ by at least `minC`. -/
def Spread (D : Nat → Int) (minC : Int) (l r : Nat) : Prop :=
  ∃ a b, l ≤ a ∧ a ≤ r ∧ l ≤ b ∧ b ≤ r ∧ minC ≤ D a - D b

open Classical in
theorem findPoint_ok {rnd fl : ℚ → ℚ} {d s : Arr Int} {l r : Nat} {minC : Int} {check : Bool} {left right pos : Nat} {B : Int}
    (hn : d.len < 4294967296) (hs : s.len = d.len)
    (hp : pos + 1 < d.len) (hr : check = true → 0 < right ∧ right + d.len ≤ 4294967296) (hl : l ≤ r) (hr2 : r < d.len)
    (hD : Within d.len d.at' B) (hB : B < 2147483648)
    (h1 : -2147483648 ≤ s.at' pos - s.at' (pos + 1)) (h2 : s.at' pos - s.at' (pos + 1) < 2147483648) :
    findPoint rnd fl d s l r minC check left right pos d.len () =
      .ok (if Spread d.at' minC l r ∧ (check = true → Contrasts rnd fl d.at' minC left right pos d.len) then some (positionOf rnd s.at' pos) else none) () := by
  have hf : d.len < fuelMax := by
    rw [fuelMax]
    omega
  obtain ⟨mx, x1, ⟨jx, x2, x3, x4⟩, x5⟩ := extreme_ok (d := d) true hl hr2 hf
  obtain ⟨mn, y1, ⟨jn, y2, y3, y4⟩, y5⟩ := extreme_ok (d := d) false hl hr2 hf
  simp only [if_true] at x5
  simp only [Bool.false_eq_true, if_false] at y5
  obtain ⟨b1, b2⟩ := hD jx (by omega)
  obtain ⟨c1, c2⟩ := hD jn (by omega)
  rw [findPoint, bind_ok x1, bind_ok y1, bind_ok (int32_ok () (by omega) (by omega))]
  by_cases hd : mx - mn < minC
  · rw [if_pos hd, if_neg]
    · rfl
    · rintro ⟨⟨a, b, a1, a2, a3, a4, a5⟩, _⟩
      have := x5 a a1 a2
      have := y5 b a3 a4
      omega
  · rw [if_neg hd, bind_ok (contrastCheck_ok hn hp hr)]
    have hsp : Spread d.at' minC l r := ⟨jx, jn, x2, x3, y2, y3, by omega⟩
    by_cases hc : check = true ∧ ¬ Contrasts rnd fl d.at' minC left right pos d.len
    · rw [if_pos (by rw [hc.1, decide_eq_false hc.2]; rfl), if_neg (fun h => hc.2 (h.2 hc.1))]
      rfl
    · have hc' : check = true → Contrasts rnd fl d.at' minC left right pos d.len := fun h => by
        by_contra hh
        exact hc ⟨h, hh⟩
      rw [if_neg, if_pos ⟨hsp, hc'⟩, bind_ok (position_ok (by omega) (by omega) h1 h2)]
      · rfl
      · intro h
        rw [Bool.and_eq_true] at h
        rw [decide_eq_true (hc' h.1)] at h
        exact absurd h.2 (by simp)

/-- `l` is the nearest place up to `j` where `f` is below `bound`; `f` is not above `top` in between. -/
def LeftSide (f : Nat → Int) (bound top : Int) (j l : Nat) : Prop :=
  l ≤ j ∧ f l < bound ∧ ∀ k, l < k → k ≤ j → bound ≤ f k ∧ f k ≤ top

/-- The same for the places from `j` on and before `N`. -/
def RightSide (f : Nat → Int) (bound top : Int) (j N r : Nat) : Prop :=
  j ≤ r ∧ r < N ∧ f r < bound ∧ ∀ k, j ≤ k → k < r → bound ≤ f k ∧ f k ≤ top

theorem normalSide_some {x j : Nat} {v half : Int} : normalSide (some x) v half j = some x := by
  rw [normalSide, if_neg (by simp)]

theorem normalSide_lt {j : Nat} {v half : Int} (h : v < half) : normalSide none v half j = some j := by
  rw [normalSide, if_pos ⟨rfl, h⟩]

theorem normalSide_ge {normal : Option Nat} {j : Nat} {v half : Int} (h : half ≤ v) : normalSide normal v half j = normal := by
  rw [normalSide, if_neg (fun hh => by omega)]

theorem leftSide_here {f : Nat → Int} {bound top : Int} {j l : Nat} (h : f j < bound) : LeftSide f bound top j l ↔ j = l := by
  constructor
  · rintro ⟨h1, h2, h3⟩
    by_contra hne
    have := (h3 j (by omega) (Nat.le_refl _)).1
    omega
  · rintro rfl
    exact ⟨Nat.le_refl _, h, fun k a b => by omega⟩

theorem leftSide_high {f : Nat → Int} {bound top : Int} {j l : Nat} (h1 : bound ≤ f j) (h : top < f j) : ¬ LeftSide f bound top j l := by
  rintro ⟨h2, h3, h4⟩
  by_cases e : l = j
  · subst e
    omega
  · have := (h4 j (by omega) (Nat.le_refl _)).2
    omega

theorem leftSide_next {f : Nat → Int} {bound top : Int} {j l : Nat} (h1 : bound ≤ f (j + 1)) (h : f (j + 1) ≤ top) :
    LeftSide f bound top (j + 1) l ↔ LeftSide f bound top j l := by
  constructor
  · rintro ⟨h2, h3, h4⟩
    have hne : l ≠ j + 1 := by
      rintro rfl
      omega
    exact ⟨by omega, h3, fun k a b => h4 k a (by omega)⟩
  · rintro ⟨h2, h3, h4⟩
    refine ⟨by omega, h3, fun k a b => ?_⟩
    by_cases e : k = j + 1
    · subst e
      exact ⟨h1, h⟩
    · exact h4 k a (by omega)

theorem leftScan_ok {a : Arr Int} {half third top : Int} (h1 : third ≤ half) (h2 : half ≤ top) : ∀ (j : Nat) (normal : Option Nat), j < a.len →
    ∃ r1 r2, leftScan a half third top j normal () = .ok (r1, r2) () ∧ (∀ l, r2 = some l ↔ LeftSide a.at' third top j l) ∧
      (∀ x, normal = some x → r1 = some x) ∧ (normal = none → ∀ l, r1 = some l ↔ LeftSide a.at' half top j l) := by
  intro j
  induction j with
  | zero =>
    intro normal hj
    refine ⟨normalSide normal (a.at' 0) half 0, if a.at' 0 < third then some 0 else none, ?_, ?_, ?_, ?_⟩
    · rw [leftScan, bind_ok (Arr.rd_ok hj ())]
      rfl
    · intro l
      by_cases hv : a.at' 0 < third
      · rw [if_pos hv, leftSide_here hv, Option.some.injEq]
      · rw [if_neg hv]
        constructor
        · intro h
          exact absurd h (by simp)
        · rintro ⟨b1, b2, _⟩
          have : l = 0 := by omega
          subst this
          exact absurd b2 hv
    · rintro x rfl
      exact normalSide_some
    · rintro rfl l
      by_cases hv : a.at' 0 < half
      · rw [normalSide_lt hv, leftSide_here hv, Option.some.injEq]
      · rw [normalSide_ge (by omega)]
        constructor
        · intro h
          exact absurd h (by simp)
        · rintro ⟨b1, b2, _⟩
          have : l = 0 := by omega
          subst this
          exact absurd b2 hv
  | succ j ih =>
    intro normal hj
    by_cases hv : a.at' (j + 1) < third
    · refine ⟨normalSide normal (a.at' (j + 1)) half (j + 1), some (j + 1), ?_, ?_, ?_, ?_⟩
      · rw [leftScan, bind_ok (Arr.rd_ok hj ()), if_pos hv]
        rfl
      · intro l
        rw [leftSide_here hv, Option.some.injEq]
      · rintro x rfl
        exact normalSide_some
      · rintro rfl l
        rw [normalSide_lt (by omega), leftSide_here (by omega), Option.some.injEq]
    · by_cases ht : a.at' (j + 1) > top
      · refine ⟨normalSide normal (a.at' (j + 1)) half (j + 1), none, ?_, ?_, ?_, ?_⟩
        · rw [leftScan, bind_ok (Arr.rd_ok hj ()), if_neg hv, if_pos ht]
          rfl
        · intro l
          exact iff_of_false (by simp) (leftSide_high (by omega) ht)
        · rintro x rfl
          exact normalSide_some
        · rintro rfl l
          rw [normalSide_ge (by omega)]
          exact iff_of_false (by simp) (leftSide_high (by omega) ht)
      · obtain ⟨r1, r2, g1, g2, g3, g4⟩ := ih (normalSide normal (a.at' (j + 1)) half (j + 1)) (by omega)
        refine ⟨r1, r2, ?_, ?_, ?_, ?_⟩
        · rw [leftScan, bind_ok (Arr.rd_ok hj ()), if_neg hv, if_neg ht]
          exact g1
        · intro l
          rw [g2 l, leftSide_next (by omega) (by omega)]
        · rintro x rfl
          exact g3 x normalSide_some
        · rintro rfl l
          by_cases hh : a.at' (j + 1) < half
          · rw [g3 _ (normalSide_lt hh), leftSide_here hh, Option.some.injEq]
          · rw [g4 (normalSide_ge (by omega)) l, leftSide_next (by omega) (by omega)]

theorem rightSide_here {f : Nat → Int} {bound top : Int} {j N l : Nat} (hN : j < N) (h : f j < bound) : RightSide f bound top j N l ↔ j = l := by
  constructor
  · rintro ⟨h1, h2, h3, h4⟩
    by_contra hne
    have := (h4 j (Nat.le_refl _) (by omega)).1
    omega
  · rintro rfl
    exact ⟨Nat.le_refl _, hN, h, fun k a b => by omega⟩

theorem rightSide_high {f : Nat → Int} {bound top : Int} {j N l : Nat} (h1 : bound ≤ f j) (h : top < f j) : ¬ RightSide f bound top j N l := by
  rintro ⟨h2, h3, h4, h5⟩
  by_cases e : l = j
  · subst e
    omega
  · have := (h5 j (Nat.le_refl _) (by omega)).2
    omega

theorem rightSide_next {f : Nat → Int} {bound top : Int} {j N l : Nat} (h1 : bound ≤ f j) (h : f j ≤ top) :
    RightSide f bound top j N l ↔ RightSide f bound top (j + 1) N l := by
  constructor
  · rintro ⟨h2, h3, h4, h5⟩
    have hne : l ≠ j := by
      rintro rfl
      omega
    exact ⟨by omega, h3, h4, fun k a b => h5 k (by omega) b⟩
  · rintro ⟨h2, h3, h4, h5⟩
    refine ⟨by omega, h3, h4, fun k a b => ?_⟩
    by_cases e : k = j
    · subst e
      exact ⟨h1, h⟩
    · exact h5 k (by omega) b

theorem rightScan_ok {a : Arr Int} {half third top : Int} (h1 : third ≤ half) (h2 : half ≤ top) : ∀ (k j : Nat) (normal : Option Nat), j + k ≤ a.len →
    ∃ r1 r2, rightScan a half third top k j normal () = .ok (r1, r2) () ∧ (∀ l, r2 = some l ↔ RightSide a.at' third top j (j + k) l) ∧
      (∀ x, normal = some x → r1 = some x) ∧ (normal = none → ∀ l, r1 = some l ↔ RightSide a.at' half top j (j + k) l) := by
  intro k
  induction k with
  | zero =>
    intro j normal _
    refine ⟨normal, none, rfl, ?_, fun x h => h, ?_⟩
    · intro l
      exact iff_of_false (by simp) (fun h => by have := h.1; have := h.2.1; omega)
    · rintro rfl l
      exact iff_of_false (by simp) (fun h => by have := h.1; have := h.2.1; omega)
  | succ k ih =>
    intro j normal hj
    have hj' : j < a.len := by omega
    by_cases hv : a.at' j < third
    · refine ⟨normalSide normal (a.at' j) half j, some j, ?_, ?_, ?_, ?_⟩
      · rw [rightScan, bind_ok (Arr.rd_ok hj' ()), if_pos hv]
        rfl
      · intro l
        rw [rightSide_here (by omega) hv, Option.some.injEq]
      · rintro x rfl
        exact normalSide_some
      · rintro rfl l
        rw [normalSide_lt (by omega), rightSide_here (by omega) (by omega), Option.some.injEq]
    · by_cases ht : a.at' j > top
      · refine ⟨normalSide normal (a.at' j) half j, none, ?_, ?_, ?_, ?_⟩
        · rw [rightScan, bind_ok (Arr.rd_ok hj' ()), if_neg hv, if_pos ht]
          rfl
        · intro l
          exact iff_of_false (by simp) (rightSide_high (by omega) ht)
        · rintro x rfl
          exact normalSide_some
        · rintro rfl l
          rw [normalSide_ge (by omega)]
          exact iff_of_false (by simp) (rightSide_high (by omega) ht)
      · obtain ⟨r1, r2, g1, g2, g3, g4⟩ := ih (j + 1) (normalSide normal (a.at' j) half j) (by omega)
        have e : j + (k + 1) = j + 1 + k := by omega
        refine ⟨r1, r2, ?_, ?_, ?_, ?_⟩
        · rw [rightScan, bind_ok (Arr.rd_ok hj' ()), if_neg hv, if_neg ht]
          exact g1
        · intro l
          rw [g2 l, rightSide_next (j := j) (by omega) (by omega), e]
        · rintro x rfl
          exact g3 x normalSide_some
        · rintro rfl l
          by_cases hh : a.at' j < half
          · rw [g3 _ (normalSide_lt hh), rightSide_here (by omega) hh, Option.some.injEq]
          · rw [g4 (normalSide_ge (by omega)) l, rightSide_next (j := j) (by omega) (by omega), e]

/-- One half and one third of the steepest gradient, at least 1 -/
def halfOf (top : Int) : Int := if top < 2 then 1 else top / 2
def thirdOf (top : Int) : Int := if top < 3 then 1 else top / 3

theorem bounds_ok {top : Int} (h : 0 < top) : 1 ≤ thirdOf top ∧ thirdOf top ≤ halfOf top ∧ halfOf top ≤ top := by
  rw [thirdOf, halfOf]
  split <;> split <;> omega

/-- What is asked for a pair of sides -/
def PairAt (rnd fl : ℚ → ℚ) (P : Params) (n : Nat) (D f : Nat → Int) (bound top : Int) (i : Nat) : Prop :=
  ∃ l r, LeftSide f bound top i l ∧ RightSide f bound top (i + 1) (n - 1) r ∧ Spread D (P.contrast * P.group : Nat) l r ∧
    (0 < P.left → 0 < P.right → Contrasts rnd fl D (P.contrast * P.group : Nat) P.left P.right i n)

/-- The parameters and a line of `n` values: no arithmetic wraps. -/
structure LineOk (P : Params) (n : Nat) (D : Nat → Int) : Prop where
  four : 4 ≤ n
  size : n < 4294967296
  group : P.group * 1020 < 2147483648
  contrast : P.contrast ≤ 255
  right : 0 < P.left → P.right + n ≤ 4294967296
  values : Within n D (255 * P.group)

theorem LineOk.minC {P : Params} {n : Nat} {D : Nat → Int} (h : LineOk P n D) :
    toInt (u32 (P.contrast * P.group)) = ((P.contrast * P.group : Nat) : Int) := by
  have h1 : P.contrast * P.group ≤ 255 * P.group := Nat.mul_le_mul_right _ h.contrast
  have h2 := h.group
  rw [u32_of_lt (by omega), toInt, if_pos (by omega)]

theorem pair_unique_left {f : Nat → Int} {bound top : Int} {i l l' : Nat} (h : LeftSide f bound top i l) (h' : LeftSide f bound top i l') : l = l' := by
  obtain ⟨a1, a2, a3⟩ := h
  obtain ⟨b1, b2, b3⟩ := h'
  rcases Nat.lt_trichotomy l l' with hlt | heq | hgt
  · have := (a3 l' hlt b1).1
    omega
  · exact heq
  · have := (b3 l hgt a1).1
    omega

theorem pair_unique_right {f : Nat → Int} {bound top : Int} {i N l l' : Nat} (h : RightSide f bound top i N l) (h' : RightSide f bound top i N l') :
    l = l' := by
  obtain ⟨a1, a2, a3, a4⟩ := h
  obtain ⟨b1, b2, b3, b4⟩ := h'
  rcases Nat.lt_trichotomy l l' with hlt | heq | hgt
  · have := (b4 l a1 hlt).1
    omega
  · exact heq
  · have := (a4 l' b1 hgt).1
    omega

theorem second_bound {P : Params} {n : Nat} {D : Nat → Int} (o : LineOk P n D) {i : Nat} (h0 : 0 < i) (h : i + 2 < n) :
    -2147483648 ≤ secondOf D i - secondOf D (i + 1) ∧ secondOf D i - secondOf D (i + 1) < 2147483648 := by
  have hg := o.group
  obtain ⟨a1, a2⟩ := o.values (i - 1) (by omega)
  obtain ⟨b1, b2⟩ := o.values i (by omega)
  obtain ⟨c1, c2⟩ := o.values (i + 1) (by omega)
  obtain ⟨d1, d2⟩ := o.values (i + 2) (by omega)
  simp only [secondOf, firstOf, Nat.sub_add_cancel h0, Nat.add_sub_cancel]
  rw [show i + 1 + 1 = i + 2 from rfl]
  constructor <;> omega

theorem positionOf_congr {rnd : ℚ → ℚ} {S T : Nat → Int} {i : Nat} (h1 : S i = T i) (h2 : S (i + 1) = T (i + 1)) :
    positionOf rnd S i = positionOf rnd T i := by
  rw [positionOf, positionOf, h1, h2]

theorem sumOf_congr {fl : ℚ → ℚ} {D E : Nat → Int} {b c : Nat} (h : ∀ k, b ≤ k → k < b + c → D k = E k) : sumOf fl D b c = sumOf fl E b c := by
  induction c with
  | zero => rfl
  | succ c ih => rw [sumOf, sumOf, ih fun k a b => h k a (by omega), h (b + c) (by omega) (by omega)]

theorem contrasts_congr {rnd fl : ℚ → ℚ} {D E : Nat → Int} {minC : Int} {left right pos n : Nat} (h : ∀ k, k < n → D k = E k) :
    Contrasts rnd fl D minC left right pos n ↔ Contrasts rnd fl E minC left right pos n := by
  rw [Contrasts, Contrasts]
  by_cases h1 : left ≤ pos ∧ pos + right < n
  · rw [sumOf_congr (D := D) (E := E) (b := pos + 1) fun k a b => h k (by omega),
      sumOf_congr (D := D) (E := E) (b := pos - left) fun k a b => h k (by omega)]
  · constructor
    · intro hh
      exact absurd ⟨hh.1, hh.2.1⟩ h1
    · intro hh
      exact absurd ⟨hh.1, hh.2.1⟩ h1

theorem spread_congr {D E : Nat → Int} {minC : Int} {l r n : Nat} (hr : r < n) (h : ∀ k, k < n → D k = E k) : Spread D minC l r ↔ Spread E minC l r := by
  constructor
  · rintro ⟨a, b, a1, a2, a3, a4, a5⟩
    exact ⟨a, b, a1, a2, a3, a4, by rw [← h a (by omega), ← h b (by omega)]; exact a5⟩
  · rintro ⟨a, b, a1, a2, a3, a4, a5⟩
    exact ⟨a, b, a1, a2, a3, a4, by rw [h a (by omega), h b (by omega)]; exact a5⟩

theorem leftSide_congr {f g : Nat → Int} {bound top : Int} {j l : Nat} (h : ∀ k, k ≤ j → f k = g k) : LeftSide f bound top j l ↔ LeftSide g bound top j l := by
  constructor
  · rintro ⟨a1, a2, a3⟩
    exact ⟨a1, by rw [← h l a1]; exact a2, fun k b c => by rw [← h k c]; exact a3 k b c⟩
  · rintro ⟨a1, a2, a3⟩
    exact ⟨a1, by rw [h l a1]; exact a2, fun k b c => by rw [h k c]; exact a3 k b c⟩

theorem rightSide_congr {f g : Nat → Int} {bound top : Int} {j N l : Nat} (h : ∀ k, k < N → f k = g k) :
    RightSide f bound top j N l ↔ RightSide g bound top j N l := by
  constructor
  · rintro ⟨a1, a2, a3, a4⟩
    exact ⟨a1, a2, by rw [← h l a2]; exact a3, fun k b c => by rw [← h k (by omega)]; exact a4 k b c⟩
  · rintro ⟨a1, a2, a3, a4⟩
    exact ⟨a1, a2, by rw [h l a2]; exact a3, fun k b c => by rw [h k (by omega)]; exact a4 k b c⟩

open Classical in
theorem between_ok {rnd fl : ℚ → ℚ} {P : Params} {n : Nat} {D : Nat → Int} (o : LineOk P n D) {i : Nat} (h0 : 0 < i) (h : i + 2 < n) {bound top : Int}
    {a b : Option Nat} (ha : ∀ l, a = some l ↔ LeftSide (firstOf D) bound top i l)
    (hb : ∀ r, b = some r ↔ RightSide (firstOf D) bound top (i + 1) (n - 1) r) :
    between rnd fl (lineArr n D) (secondArr n D) P i (a, b) () =
      .ok (if PairAt rnd fl P n D (firstOf D) bound top i then some (positionOf rnd (secondOf D) i) else none) () := by
  have hsz := o.size
  cases a with
  | none =>
    rw [if_neg]
    · cases b <;> rfl
    · rintro ⟨l, r, h1, _⟩
      exact absurd ((ha l).2 h1) (by simp)
  | some l =>
    cases b with
    | none =>
      rw [if_neg]
      · rfl
      · rintro ⟨l, r, _, h2, _⟩
        exact absurd ((hb r).2 h2) (by simp)
    | some r =>
      have hl := (ha l).1 rfl
      have hr := (hb r).1 rfl
      have hl1 := hl.1
      have hr1 := hr.1
      have hr2 := hr.2.1
      have hg := o.group
      have hs1 : (secondArr n D).at' i = secondOf D i := secondArr_at h0 (by omega)
      have hs2 : (secondArr n D).at' (i + 1) = secondOf D (i + 1) := secondArr_at (by omega) (by omega)
      have hat : ∀ k, k < n → (lineArr n D).at' k = D k := fun k hk => if_pos hk
      obtain ⟨b1, b2⟩ := second_bound o h0 h
      have hf := findPoint_ok (rnd := rnd) (fl := fl) (d := lineArr n D) (s := secondArr n D) (l := l) (r := r) (minC := ((P.contrast * P.group : Nat) : Int))
        (check := P.left > 0 && P.right > 0) (left := P.left) (right := P.right) (pos := i) (B := 255 * P.group)
        hsz rfl (show i + 1 < n by omega) (by
          intro hc
          simp only [Bool.and_eq_true, decide_eq_true_eq] at hc
          exact ⟨hc.2, o.right hc.1⟩) (by omega) (show r < n by omega)
        (by
          intro k hk
          rw [hat k hk]
          exact o.values k hk) (by omega) (by rw [hs1, hs2]; exact b1) (by rw [hs1, hs2]; exact b2)
      rw [between, o.minC, hf, positionOf_congr hs1 hs2]
      congr 1
      refine if_congr ?_ rfl rfl
      have e1 : Spread (lineArr n D).at' ((P.contrast * P.group : Nat) : Int) l r ↔ Spread D ((P.contrast * P.group : Nat) : Int) l r :=
        spread_congr (n := n) (by omega) hat
      have e2 : Contrasts rnd fl (lineArr n D).at' ((P.contrast * P.group : Nat) : Int) P.left P.right i (lineArr n D).len ↔
          Contrasts rnd fl D ((P.contrast * P.group : Nat) : Int) P.left P.right i n := contrasts_congr hat
      rw [e1, e2]
      simp only [Bool.and_eq_true, decide_eq_true_eq]
      constructor
      · rintro ⟨c1, c2⟩
        exact ⟨l, r, hl, hr, c1, fun x y => c2 ⟨x, y⟩⟩
      · rintro ⟨l', r', g1, g2, g3, g4⟩
        rw [pair_unique_left g1 hl, pair_unique_right g2 hr] at g3
        exact ⟨g3, fun x => g4 x.1 x.2⟩

/-- There is an edge at `i`: the gradient is steepest there, it falls below one half or one third of its largest value on both sides, and the
    contrast is large enough. -/
structure EdgeAt (rnd fl : ℚ → ℚ) (P : Params) (n : Nat) (D : Nat → Int) (i : Nat) : Prop where
  before : 0 ≤ secondOf D i
  after : secondOf D (i + 1) ≤ 0
  rises : 0 < max (firstOf D i) (firstOf D (i + 1))
  pair : PairAt rnd fl P n D (firstOf D) (halfOf (max (firstOf D i) (firstOf D (i + 1)))) (max (firstOf D i) (firstOf D (i + 1))) i ∨
    PairAt rnd fl P n D (firstOf D) (thirdOf (max (firstOf D i) (firstOf D (i + 1)))) (max (firstOf D i) (firstOf D (i + 1))) i

open Classical in
theorem searchSides_ok {rnd fl : ℚ → ℚ} {P : Params} {n : Nat} {D : Nat → Int} (o : LineOk P n D) {i : Nat} (h0 : 0 < i) (h : i + 2 < n) {top : Int}
    (ht : 0 < top) : searchSides rnd fl (lineArr n D) (firstArr n D) (secondArr n D) P i top () =
      .ok (if PairAt rnd fl P n D (firstOf D) (halfOf top) top i ∨ PairAt rnd fl P n D (firstOf D) (thirdOf top) top i
        then some (positionOf rnd (secondOf D) i) else none) () := by
  have hsz := o.size
  obtain ⟨b1, b2, b3⟩ := bounds_ok ht
  obtain ⟨l1, l2, g1, g2, _, g4⟩ := leftScan_ok (a := firstArr n D) b2 b3 i none (show i < n by omega)
  have e : usub (lineArr n D).len 1 - (i + 1) = n - 1 - (i + 1) := by
    rw [show usub (lineArr n D).len 1 = n - 1 from usub_of_le (show 1 ≤ n by omega) hsz]
  obtain ⟨r1, r2, k1, k2, _, k4⟩ := rightScan_ok (a := firstArr n D) b2 b3 (n - 1 - (i + 1)) (i + 1) none (by show i + 1 + (n - 1 - (i + 1)) ≤ n; omega)
  have e2 : i + 1 + (n - 1 - (i + 1)) = n - 1 := by omega
  rw [e2] at k2 k4
  have hL : ∀ bound l, LeftSide (firstArr n D).at' bound top i l ↔ LeftSide (firstOf D) bound top i l := fun bound l =>
    leftSide_congr fun k hk => firstArr_at (by omega)
  have hR : ∀ bound l, RightSide (firstArr n D).at' bound top (i + 1) (n - 1) l ↔ RightSide (firstOf D) bound top (i + 1) (n - 1) l := fun bound l =>
    rightSide_congr fun k hk => firstArr_at (by omega)
  have g2' : ∀ l, l2 = some l ↔ LeftSide (firstOf D) (thirdOf top) top i l := fun l => (g2 l).trans (hL _ l)
  have g4' : ∀ l, l1 = some l ↔ LeftSide (firstOf D) (halfOf top) top i l := fun l => (g4 rfl l).trans (hL _ l)
  have k2' : ∀ l, r2 = some l ↔ RightSide (firstOf D) (thirdOf top) top (i + 1) (n - 1) l := fun l => (k2 l).trans (hR _ l)
  have k4' : ∀ l, r1 = some l ↔ RightSide (firstOf D) (halfOf top) top (i + 1) (n - 1) l := fun l => (k4 rfl l).trans (hR _ l)
  rw [thirdOf] at g1 k1
  rw [halfOf] at g1 k1
  rw [searchSides, bind_ok g1]
  by_cases hn : (l1.isNone && l2.isNone) = true
  · rw [if_pos hn, if_neg]
    · rfl
    · rw [Bool.and_eq_true, Option.isNone_iff_eq_none, Option.isNone_iff_eq_none] at hn
      rintro (⟨l, r, q, _⟩ | ⟨l, r, q, _⟩)
      · rw [← g4', hn.1] at q
        exact absurd q (by simp)
      · rw [← g2', hn.2] at q
        exact absurd q (by simp)
  · rw [if_neg hn, e, bind_ok k1, bind_ok (between_ok o h0 h g4' k4')]
    by_cases hp : PairAt rnd fl P n D (firstOf D) (halfOf top) top i
    · rw [if_pos hp, if_pos (show (some (positionOf rnd (secondOf D) i)).isSome = true from rfl), if_pos (Or.inl hp)]
      rfl
    · rw [if_neg hp, if_neg (by simp), between_ok o h0 h g2' k2']
      congr 1
      exact if_congr ⟨Or.inr, fun q => q.resolve_left hp⟩ rfl rfl

open Classical in
theorem candidate_ok {rnd fl : ℚ → ℚ} {P : Params} {n : Nat} {D : Nat → Int} (o : LineOk P n D) {i : Nat} (h0 : 0 < i) (h : i + 2 < n) :
    candidate rnd fl (lineArr n D) (firstArr n D) (secondArr n D) P i () =
      .ok (if EdgeAt rnd fl P n D i then some (positionOf rnd (secondOf D) i) else none) () := by
  have hs1 : (secondArr n D).at' i = secondOf D i := secondArr_at h0 (by omega)
  have hs2 : (secondArr n D).at' (i + 1) = secondOf D (i + 1) := secondArr_at (by omega) (by omega)
  have hf1 : (firstArr n D).at' i = firstOf D i := firstArr_at (by omega)
  have hf2 : (firstArr n D).at' (i + 1) = firstOf D (i + 1) := firstArr_at (by omega)
  rw [candidate, bind_ok (Arr.rd_ok (show i < n by omega) ()), hs1]
  by_cases ha : secondOf D i < 0
  · rw [if_pos ha, if_neg (fun hh => by have := hh.before; omega)]
    rfl
  · rw [if_neg ha, bind_ok (Arr.rd_ok (show i + 1 < n by omega) ()), hs2]
    by_cases hb : secondOf D (i + 1) > 0
    · rw [if_pos hb, if_neg (fun hh => by have := hh.after; omega)]
      rfl
    · rw [if_neg hb, bind_ok (Arr.rd_ok (show i < n by omega) ()), bind_ok (Arr.rd_ok (show i + 1 < n by omega) ()), hf1, hf2]
      have et : (if firstOf D i > firstOf D (i + 1) then firstOf D i else firstOf D (i + 1)) = max (firstOf D i) (firstOf D (i + 1)) := by
        split <;> omega
      rw [et]
      by_cases ht : max (firstOf D i) (firstOf D (i + 1)) ≤ 0
      · rw [if_pos ht, if_neg (fun hh => by have := hh.rises; omega)]
        rfl
      · rw [if_neg ht, searchSides_ok o h0 h (by omega)]
        congr 1
        exact if_congr ⟨fun q => ⟨by omega, by omega, by omega, q⟩, fun q => q.pair⟩ rfl rfl

open Classical in
/-- The positions of all edges of a line -/
noncomputable def allEdges (rnd fl : ℚ → ℚ) (P : Params) (n : Nat) (D : Nat → Int) : List ℚ :=
  ((List.range' 1 (n - 3)).filter fun i => EdgeAt rnd fl P n D i).map (positionOf rnd (secondOf D))

open Classical in
theorem getEdgePoints_ok {rnd fl : ℚ → ℚ} {P : Params} {n : Nat} {D : Nat → Int} (o : LineOk P n D) :
    getEdgePoints rnd fl (lineArr n D) (firstArr n D) (secondArr n D) P () = .ok (allEdges rnd fl P n D) () := by
  have hsz := o.size
  have h4 := o.four
  have e : usub (lineArr n D).len 2 = n - 2 := usub_of_le (show 2 ≤ n by omega) hsz
  rw [getEdgePoints, e]
  obtain ⟨x, h, hp⟩ := forLoop_keep (a := 1) (n := n - 2) (body := edgeStep rnd fl (lineArr n D) (firstArr n D) (secondArr n D) P) (x := []) (m := ())
    (P := fun i x => x = ((List.range' 1 (i - 1)).filter fun i => EdgeAt rnd fl P n D i).map (positionOf rnd (secondOf D)))
    (by omega) (by rw [fuelMax]; omega) rfl (by
      intro i x h1 h2 hx
      refine ⟨_, (bind_ok (candidate_ok o (by omega) (by omega))).trans rfl, ?_⟩
      obtain ⟨j, rfl⟩ : ∃ j, i = j + 1 := ⟨i - 1, by omega⟩
      rw [hx]
      simp only [Nat.add_sub_cancel]
      rw [List.range'_concat, List.filter_append, List.map_append, Nat.one_mul, Nat.add_comm 1 j]
      refine List.append_right_inj _ |>.2 ?_
      by_cases hc : EdgeAt rnd fl P n D (j + 1)
      · rw [if_pos hc, List.filter_cons_of_pos (by simpa using hc)]
        rfl
      · rw [if_neg hc, List.filter_cons_of_neg (by simpa using hc)]
        rfl)
  rw [h, hp, allEdges, show n - 2 - 1 = n - 3 by omega]

end PV.Edge
