import Verif.HoughLemmas
import Verif.PropsReduce
/-
  C63: HoughTransform puts every point in exactly one of the two lists, keeping the order.
  C80: no line of a searched angle has more points in its band than the line found.
-/
namespace PV.Props
open PV PV.Hough

/-- Exact arithmetic. -/
local notation "same" => (fun x : ℚ => x)

/-- What is assumed about the library and the parameters: std::sort sorts, the constants are positive,
    the number of steps on one side is below the greatest `int`. -/
structure Searchable (L : Lib) (input : List Pt) (tol step : ℚ) : Prop where
  sorts : ∀ l, (L.sort l).Perm l ∧ (L.sort l).Pairwise (· ≤ ·)
  minStep : 0 < L.minStep
  minTol : 0 < L.minTol
  fits : max (max tol L.minStep) (max step L.minStep) / max step L.minStep + 1 / 2 < 2147483647
  size : input.length < 18446744073709551616

/-- The points are split in two lists: nothing is lost, nothing is added, the order is kept. -/
structure SplitInTwo (input on off : List Pt) : Prop where
  on_order : on.Sublist input
  off_order : off.Sublist input
  all : (on ++ off).Perm input
  apart : ∀ p, p ∈ on → p ∈ off → False

/-- The distance of a point from the line through the origin with the given direction. -/
def fromLine (L : Lib) (angle : ℚ) (p : Pt) : ℚ := p.x * L.sin angle + p.y * L.cos angle

/-- `i` is the number of a searched angle. -/
def Searched (L : Lib) (tol step : ℚ) (i : Int) : Prop :=
  |(i : ℚ)| ≤ max (max tol L.minStep) (max step L.minStep) / max step L.minStep + 1 / 2

/-- The points inside of a band around a line. -/
def inBand (L : Lib) (angle c t : ℚ) (p : Pt) : Prop := |fromLine L angle p - c| ≤ t

theorem near_abs {c t d : ℚ} : near c t d = true ↔ |d - c| ≤ t := by
  rw [near_iff, abs_le]
  constructor
  · rintro ⟨h1, h2⟩
    constructor <;> linarith
  · rintro ⟨h1, h2⟩
    constructor <;> linarith

theorem stepOf_max (L : Lib) (step : ℚ) : stepOf L step = max step L.minStep := by
  rw [stepOf]
  split
  · next h => exact (max_eq_right h.le).symm
  · next h => exact (max_eq_left (not_lt.1 h)).symm

theorem toleranceOf_max (L : Lib) (tol step : ℚ) : toleranceOf L tol step = max (max tol L.minStep) (max step L.minStep) := by
  have e : (if tol < L.minStep then L.minStep else tol) = max tol L.minStep := stepOf_max L tol
  rw [toleranceOf, e, stepOf_max]
  split
  · next h => exact (max_eq_right h.le).symm
  · next h => exact (max_eq_left (not_lt.1 h)).symm

theorem bandOf_max (L : Lib) (line : ℚ) : bandOf L line = max line L.minTol := by
  rw [bandOf]
  split
  · next h => exact (max_eq_right h.le).symm
  · next h => exact (max_eq_left (not_lt.1 h)).symm

theorem hough_run {L : Lib} {input : List Pt} {tol step : ℚ} (h : Searchable L input tol step) (initial line : ℚ) (h2 : 2 ≤ input.length) (m : Out) :
    ∃ (i : Int) (c : ℚ), Searched L tol step i ∧
      HoughTransform same same L input initial tol step line m
        = .ok true (input.filter (fun p => near c (max line L.minTol) (dist same L (angleOf initial (max step L.minStep) i) p)),
                    input.filter (fun p => !near c (max line L.minTol) (dist same L (angleOf initial (max step L.minStep) i) p))) ∧
      ∀ j, Searched L tol step j → ∀ c',
        onLine L input (angleOf initial (max step L.minStep) j) c' (max line L.minTol)
          ≤ onLine L input (angleOf initial (max step L.minStep) i) c (max line L.minTol) := by
  have hs : 0 < max step L.minStep := lt_of_lt_of_le h.minStep (le_max_right _ _)
  have hb : 0 ≤ max line L.minTol := le_trans h.minTol.le (le_max_right _ _)
  obtain ⟨v, hv⟩ : ∃ v, max (max tol L.minStep) (max step L.minStep) / max step L.minStep + 1 / 2 = v := ⟨_, rfl⟩
  have hv1 : v < 2147483647 := by
    rw [← hv]
    exact h.fits
  have hv0 : 0 ≤ v := by
    rw [← hv]
    have : 0 ≤ max (max tol L.minStep) (max step L.minStep) / max step L.minStep :=
      div_nonneg (le_trans hs.le (le_max_right _ _)) hs.le
    linarith
  have hn0 : 0 ≤ ⌊v⌋ := Int.floor_nonneg.2 hv0
  have hn1 : ⌊v⌋ < 2147483647 := Int.floor_lt.2 (by exact_mod_cast hv1)
  have hcast : toInt32 v m = .ok ⌊v⌋ m := by
    rw [toInt32, if_pos hv0, if_neg (by omega)]
    rfl
  have hsearch : ∀ j : Int, Searched L tol step j ↔ -⌊v⌋ ≤ j ∧ j ≤ ⌊v⌋ := by
    intro j
    rw [Searched, hv, abs_le, ← Int.le_floor]
    constructor
    · rintro ⟨h1, h3⟩
      refine ⟨?_, h3⟩
      have : -j ≤ ⌊v⌋ := Int.le_floor.2 (by push_cast; linarith)
      omega
    · rintro ⟨h1, h3⟩
      refine ⟨?_, h3⟩
      have : -j ≤ ⌊v⌋ := by omega
      have := Int.le_floor.1 this
      push_cast at this
      linarith
  obtain ⟨b, b1, b2⟩ := angles_ok (L := L) h.sorts (input := input) (initial := initial) (step := max step L.minStep) hb h2 h.size hn0 hn1 m
  obtain ⟨r1, r2, r3⟩ := b2.range (by omega)
  refine ⟨b.angle, b.average, (hsearch _).2 ⟨r1, by omega⟩, ?_, fun j hj c' => ?_⟩
  · rw [HoughTransform, if_neg (by omega), stepOf_max, toleranceOf_max, bandOf_max, hv]
    refine (bind_ok hcast).trans ((bind_ok b1).trans ((bind_ok (rfl : clearBoth m = .ok () ([], []))).trans ?_))
    refine (bind_ok (sortPoints_ok input _)).trans ?_
    rw [List.nil_append, List.nil_append]
    rfl
  · obtain ⟨h1, h3⟩ := (hsearch j).1 hj
    exact le_trans (b2.most j h1 (by omega) c') r3

theorem filter_split (input : List Pt) (P : Pt → Bool) : SplitInTwo input (input.filter P) (input.filter fun p => !P p) := by
  refine ⟨List.filter_sublist, List.filter_sublist, List.filter_append_perm P input, fun p h1 h2 => ?_⟩
  have e1 := (List.mem_filter.1 h1).2
  have e2 := (List.mem_filter.1 h2).2
  rw [e1] at e2
  exact absurd e2 (by decide)

/-- C63: two points or more are split in the points on the line and the others; with fewer points false is returned and the lists are left alone. -/
theorem C63_hough_partial {L : Lib} {input : List Pt} {tol step : ℚ} (h : Searchable L input tol step) (initial line : ℚ) (on off : List Pt) :
    (2 ≤ input.length → ∃ on' off', HoughTransform same same L input initial tol step line (on, off) = .ok true (on', off') ∧ SplitInTwo input on' off') ∧
    (input.length < 2 → HoughTransform same same L input initial tol step line (on, off) = .ok false (on, off)) := by
  constructor
  · intro h2
    obtain ⟨i, c, -, h3, -⟩ := hough_run h initial line h2 (on, off)
    exact ⟨_, _, h3, filter_split input _⟩
  · intro h2
    rw [HoughTransform, if_pos h2]
    rfl

/-- C80: the points on the line found are exactly the points of a band around a line of a searched angle,
    and no band of this width around a line of a searched angle contains more points. -/
theorem C80_hough_partial {L : Lib} {input : List Pt} {tol step : ℚ} (h : Searchable L input tol step) (initial line : ℚ) (h2 : 2 ≤ input.length)
    (o : Out) :
    ∃ on off, HoughTransform same same L input initial tol step line o = .ok true (on, off) ∧
      (∃ (i : Int) (c : ℚ), Searched L tol step i ∧
        (∀ p, p ∈ on ↔ p ∈ input ∧ inBand L (-(initial + max step L.minStep * i)) c (max line L.minTol) p) ∧
        ∀ p, p ∈ off ↔ p ∈ input ∧ ¬ inBand L (-(initial + max step L.minStep * i)) c (max line L.minTol) p) ∧
      ∀ (j : Int) (c : ℚ), Searched L tol step j → ∀ ps : List Pt, ps.Sublist input →
        (∀ p, p ∈ ps → inBand L (-(initial + max step L.minStep * j)) c (max line L.minTol) p) → ps.length ≤ on.length := by
  obtain ⟨i, c, h1, h3, h4⟩ := hough_run h initial line h2 o
  refine ⟨_, _, h3, ⟨i, c, h1, fun p => ?_, fun p => ?_⟩, fun j c' hj ps hps hin => ?_⟩
  · rw [List.mem_filter, near_abs]
    rfl
  · rw [List.mem_filter, Bool.not_eq_true', ← Bool.not_eq_true, near_abs]
    rfl
  · have e : ps.countP (fun p => near c' (max line L.minTol) (dist same L (angleOf initial (max step L.minStep) j) p)) = ps.length :=
      List.countP_eq_length.2 fun p hp => near_abs.2 (hin p hp)
    rw [← e, ← List.countP_eq_length_filter]
    exact le_trans (hps.countP_le) (h4 j hj c')

/-- Library functions to look at: `sin` is the identity, `cos` is 1. -/
def slopes : Lib := ⟨fun a => a, fun _ => 1, fun l => l.insertionSort (· ≤ ·), 1 / 100, 1 / 100⟩

theorem slopes_sorts (l : List ℚ) : (slopes.sort l).Perm l ∧ (slopes.sort l).Pairwise (· ≤ ·) :=
  ⟨List.perm_insertionSort _ _, List.pairwise_insertionSort _ _⟩

/-- Four points, three of which are on the line y = x. -/
def fourPts : List Pt := [⟨0, 0⟩, ⟨1, 1⟩, ⟨2, 5⟩, ⟨3, 3⟩]

example : Searchable slopes fourPts 1 1 := by
  refine ⟨slopes_sorts, ?_, ?_, ?_, by decide⟩ <;> simp only [slopes] <;> norm_num

/-- The result of a search. -/
def houghResult (r : Res Out Bool) : Option (Bool × Out) := match r with | .ok b o => some (b, o) | _ => none

theorem fourPts_found : houghResult (HoughTransform same same slopes fourPts 0 1 1 0 ([], [])) = some (true, [⟨0, 0⟩, ⟨1, 1⟩, ⟨3, 3⟩], [⟨2, 5⟩]) := by
  decide +kernel

/-- C63 is false without the bound: converting the number of steps to `int` is undefined behaviour. -/
theorem C63_wrong : isUb (HoughTransform same same slopes fourPts 0 100000000 (1 / 100) 0 ([], [])) = true := by
  decide +kernel

end PV.Props
