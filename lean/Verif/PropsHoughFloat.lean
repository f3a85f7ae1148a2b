import Verif.PropsHough
import Verif.Rounding
import Verif.Rounding24
/-
  C63 with rounded arithmetic: HoughTransform puts every point in exactly one of the two lists, keeping the order, whatever the rounding
  errors are.  The rounding has to be monotone and to leave numbers alone which are results of operations.
-/
namespace PV.Props
open PV PV.Hough

/-- What is assumed about the rounding of the operations of a number type. -/
structure Stable (fl : ℚ → ℚ) : Prop where
  mono : ∀ a b, a ≤ b → fl a ≤ fl b
  idem : ∀ a, fl (fl a) = fl a
  zero : fl 0 = 0

/-! ### IEEE numbers -/

theorem rne_fixed (p : ℕ) {l : ℤ} {r : ℚ} (n : ℤ) (hr : r = n * 2 ^ (l - (p : ℤ))) (h1 : 2 ^ l ≤ |r|) (h2 : |r| ≤ 2 ^ (l + 1)) :
    (rne (r / 2 ^ (Int.log 2 |r| - (p : ℤ))) : ℚ) * 2 ^ (Int.log 2 |r| - (p : ℤ)) = r := by
  have hp : (0 : ℚ) < 2 ^ l := zpow_pos (by norm_num) _
  have hpos : 0 < |r| := lt_of_lt_of_le hp h1
  have hlo : l ≤ Int.log 2 |r| := (Int.zpow_le_iff_le_log (by norm_num) hpos).1 (by push_cast; exact h1)
  have key : ∃ k : ℤ, r / 2 ^ (Int.log 2 |r| - (p : ℤ)) = k := by
    rcases lt_or_eq_of_le h2 with hlt | heq
    · have hhi : Int.log 2 |r| < l + 1 := (Int.lt_zpow_iff_log_lt (by norm_num) hpos).1 (by push_cast; exact hlt)
      have e : Int.log 2 |r| = l := by omega
      refine ⟨n, ?_⟩
      have hz : (2 : ℚ) ^ (l - (p : ℤ)) ≠ 0 := (zpow_pos (by norm_num) _).ne'
      rw [e, div_eq_iff hz]
      exact hr
    · have e : Int.log 2 |r| = l + 1 := by
        rw [heq]
        have := Int.log_zpow (R := ℚ) (b := 2) (by norm_num) (l + 1)
        push_cast at this
        exact this
      have e2 : (2 : ℚ) ^ (l + 1) = 2 ^ p * 2 ^ (l + 1 - (p : ℤ)) := by
        rw [← zpow_natCast, ← zpow_add₀ (by norm_num)]
        congr 1
        omega
      have hz : (2 : ℚ) ^ (l + 1 - (p : ℤ)) ≠ 0 := (zpow_pos (by norm_num) _).ne'
      rcases abs_choice r with h | h
      · refine ⟨2 ^ p, ?_⟩
        rw [e, div_eq_iff hz, ← h, heq, e2]
        push_cast
        ring
      · refine ⟨-2 ^ p, ?_⟩
        rw [e, div_eq_iff hz, show r = -|r| by rw [h, neg_neg], heq, e2]
        push_cast
        ring
  obtain ⟨k, hk⟩ := key
  have hz : (2 : ℚ) ^ (Int.log 2 |r| - (p : ℤ)) ≠ 0 := (zpow_pos (by norm_num) _).ne'
  rw [hk, rne_int, ← hk, div_mul_cancel₀ _ hz]

theorem double_idem (a : ℚ) : double (double a) = double a := by
  by_cases h0 : a = 0
  · rw [h0, double_zero, double_zero]
  have hb : 2 ^ (Int.log 2 |a|) ≤ |double a| ∧ |double a| ≤ 2 ^ (Int.log 2 |a| + 1) := by
    rcases lt_or_gt_of_ne h0 with h | h
    · have b := double_neg_bounds h
      have hp : (0 : ℚ) < 2 ^ (Int.log 2 |a|) := zpow_pos (by norm_num) _
      rw [abs_of_neg (a := double a) (by linarith [b.2])]
      constructor <;> linarith [b.1, b.2]
    · have b := double_pos_bounds h
      have hp : (0 : ℚ) < 2 ^ (Int.log 2 |a|) := zpow_pos (by norm_num) _
      rw [abs_of_pos (a := double a) (by linarith [b.1])]
      exact b
  exact rne_fixed 52 _ rfl hb.1 hb.2

theorem single_idem (a : ℚ) : single (single a) = single a := by
  by_cases h0 : a = 0
  · rw [h0, single_zero, single_zero]
  have hb : 2 ^ (Int.log 2 |a|) ≤ |single a| ∧ |single a| ≤ 2 ^ (Int.log 2 |a| + 1) := by
    rcases lt_or_gt_of_ne h0 with h | h
    · have b := single_neg_bounds h
      have hp : (0 : ℚ) < 2 ^ (Int.log 2 |a|) := zpow_pos (by norm_num) _
      rw [abs_of_neg (a := single a) (by linarith [b.2])]
      constructor <;> linarith [b.1, b.2]
    · have b := single_pos_bounds h
      have hp : (0 : ℚ) < 2 ^ (Int.log 2 |a|) := zpow_pos (by norm_num) _
      rw [abs_of_pos (a := single a) (by linarith [b.1])]
      exact b
  exact rne_fixed 23 _ rfl hb.1 hb.2

theorem Stable.double : Stable PV.double := ⟨fun _ _ h => double_mono h, double_idem, double_zero⟩

theorem Stable.single : Stable PV.single := ⟨fun _ _ h => single_mono h, single_idem, single_zero⟩

/-! ### The search never leaves the vectors -/

/-- A window within the distances. -/
def WindowIn (ds : List ℚ) (w : Window) : Prop := 1 ≤ w.count ∧ w.first + w.count ≤ ds.length

theorem scan_total {fl : ℚ → ℚ} (hf : Stable fl) {ds : List ℚ} (hd : ∀ x ∈ ds, fl x = x) {range : ℚ} (hr : 0 ≤ range)
    (hl : ds.length < fuelMax) (m : Out) (d : Nat) :
    ∀ (f p e : Nat) (w : Window), p + d = ds.length → d < f → p ≤ e → e ≤ ds.length → WindowIn ds w →
    ∃ w', scan fl ds range f p e w m = .ok w' m ∧ WindowIn ds w' := by
  have hl' : ds.length < 18446744073709551616 := hl
  induction d with
  | zero =>
    intro f p e w hd hf' hpe hel hw
    obtain ⟨f, rfl⟩ : ∃ g, f = g + 1 := ⟨f - 1, by omega⟩
    refine ⟨w, ?_, hw⟩
    rw [scan, if_neg (by omega)]
    rfl
  | succ d ih =>
    intro f p e w hd' hf' hpe hel hw
    obtain ⟨f, rfl⟩ : ∃ g, f = g + 1 := ⟨f - 1, by omega⟩
    have hp : p < ds.length := by omega
    by_cases he : e < ds.length
    · obtain ⟨e', a1, a2, a3, a4, a5⟩ := advance_ok (ds := ds) (tol := fl (range + ds[p])) m (ds.length - e) fuelMax e (by omega) (by omega)
      have hpe' : p < e' := by
        by_contra hn
        have e1 : e' = p := by omega
        have h1 := a5 (by omega)
        simp only [e1] at h1
        have h2 := hf.mono ds[p] (range + ds[p]) (by linarith)
        rw [hd _ (List.getElem_mem hp)] at h2
        linarith
      have hs : sub64 e' p = e' - p := sub64_eq (by omega) (by omega)
      rw [scan, if_pos he, bind_ok (rdL_ok hp m), bind_ok a1, hs]
      refine ih f (p + 1) e' _ (by omega) (by omega) (by omega) a3 ?_
      by_cases hw' : w.count < e' - p
      · rw [if_pos hw']
        exact ⟨by show 1 ≤ e' - p; omega, by show p + (e' - p) ≤ _; omega⟩
      · rw [if_neg hw']
        exact hw
    · refine ⟨w, ?_, hw⟩
      rw [scan, if_neg he]
      rfl

theorem better_total (fl : ℚ → ℚ) {ds : List ℚ} (id : Int) {w : Window} (hl : ds.length < fuelMax) (hw : WindowIn ds w) (b : Found) (m : Out) :
    ∃ b', better fl ds id w b m = .ok b' m := by
  obtain ⟨hpos, hin⟩ := hw
  have hl' : ds.length < 18446744073709551616 := hl
  have h1 : w.first < ds.length := by omega
  have h2 : w.first + w.count - 1 < ds.length := by omega
  rw [better]
  by_cases h : b.count ≤ w.count
  · rw [if_pos h, sub64_eq (by omega) (by omega), bind_ok (rdL_ok h2 m), bind_ok (rdL_ok h1 m)]
    exact ⟨_, rfl⟩
  · rw [if_neg h]
    exact ⟨_, rfl⟩

theorem tryAngle_total {fl : ℚ → ℚ} (hf : Stable fl) {L : Lib} (hs : Sorts L.sort) {input : List Pt} {range : ℚ} (hr : 0 ≤ range)
    (h2 : 2 ≤ input.length) (hl : input.length < fuelMax) {id : Int} (hid : id < 2147483647) (a : ℚ) (b : Found) (m : Out) :
    ∃ b', tryAngle fl L input range (id, a) b m = .ok b' m := by
  let ds := L.sort (input.map (dist fl L a))
  obtain ⟨hp, -⟩ := hs (input.map (dist fl L a))
  have hlen : ds.length = input.length := by
    rw [hp.length_eq, List.length_map]
  have hd : ∀ x ∈ ds, fl x = x := by
    intro x hx
    obtain ⟨q, -, rfl⟩ := List.mem_map.1 (hp.mem_iff.1 hx)
    exact hf.idem _
  obtain ⟨w, w1, w2⟩ := scan_total hf hd hr (by rw [hlen]; exact hl) m ds.length fuelMax 0 1 ⟨1, 0⟩ (by omega)
    (by rw [hlen]; exact hl) (by omega) (by omega) ⟨le_rfl, by show 0 + 1 ≤ ds.length; omega⟩
  obtain ⟨b', hb'⟩ := better_total fl id (by rw [hlen]; exact hl) w2 b m
  refine ⟨b', (bind_ok w1).trans ((bind_ok hb').trans ?_)⟩
  rw [if_neg (show ¬ id = 2147483647 by omega)]
  rfl

theorem angles_total {fl : ℚ → ℚ} (hf : Stable fl) {L : Lib} (hs : Sorts L.sort) {input : List Pt} {range : ℚ} (hr : 0 ≤ range)
    (h2 : 2 ≤ input.length) (hl : input.length < fuelMax) {n : Int} (hn : 0 ≤ n) (hn2 : n < 2147483647) (step start : ℚ) (b0 : Found) (m : Out) :
    ∃ b, loop (fun s : Int × ℚ => decide (s.1 ≤ n)) (fun s => (s.1 + 1, fl (s.2 - step)))
      (fun s b => tryAngle fl L input range s b) fuelMax (-n, start) b0 m = .ok b m := by
  have e := loop_eq_fold (μ := Out) (cond := fun s : Int × ℚ => decide (s.1 ≤ n)) (next := fun s => (s.1 + 1, fl (s.2 - step)))
    (body := fun s b => tryAngle fl L input range s b) (fun k => (-n + (k : Int), (fun a => fl (a - step))^[k] start))
    (2 * n + 1).toNat fuelMax b0 (by rw [fuelMax]; omega) (fun k hk => by simp only [decide_eq_true_eq]; omega)
    (by simp only [decide_eq_false_iff_not]; omega)
    (fun k hk => by
      simp only [Prod.mk.injEq, Function.iterate_succ_apply']
      refine ⟨by push_cast; omega, trivial⟩)
  have e0 : (-n + ((0 : Nat) : Int), (fun a => fl (a - step))^[0] start) = (-n, start) := by simp
  rw [e0] at e
  rw [e]
  have key : ∀ k : Nat, (k : Int) ≤ 2 * n + 1 → ∃ b,
      fold (fun (k : Nat) b => tryAngle fl L input range (-n + (k : Int), (fun a => fl (a - step))^[k] start) b) (List.range k) b0 m = .ok b m := by
    intro k
    induction k with
    | zero =>
      intro _
      exact ⟨_, rfl⟩
    | succ k ih =>
      intro hk
      obtain ⟨b, h1⟩ := ih (by omega)
      obtain ⟨b', h4⟩ := tryAngle_total hf hs hr h2 hl (id := -n + (k : Int)) (by omega) ((fun a => fl (a - step))^[k] start) b m
      refine ⟨b', ?_⟩
      rw [List.range_succ, fold_append, bind_ok h1, fold_cons, bind_ok h4]
      rfl
  exact key (2 * n + 1).toNat (by omega)

/-- The points which are kept: not outside of the band, as computed. -/
def kept (fl : ℚ → ℚ) (L : Lib) (a lo hi : ℚ) (p : Pt) : Bool := !(decide (dist fl L a p < lo) || decide (hi < dist fl L a p))

theorem sortPoints_total (fl : ℚ → ℚ) (L : Lib) (a lo hi : ℚ) (input : List Pt) : ∀ (o : Out),
    sortPoints fl L a lo hi input o = .ok () (o.1 ++ input.filter (kept fl L a lo hi), o.2 ++ input.filter (fun p => !kept fl L a lo hi p)) := by
  induction input with
  | nil =>
    intro o
    simp only [List.filter_nil, List.append_nil]
    rfl
  | cons p ps ih =>
    intro o
    rw [sortPoints]
    have e : (decide (dist fl L a p < lo) || decide (hi < dist fl L a p)) = !kept fl L a lo hi p := by rw [kept, Bool.not_not]
    rw [e]
    refine (bind_ok (show put (!kept fl L a lo hi p) p o = .ok () _ from rfl)).trans ?_
    rw [ih]
    cases hn : kept fl L a lo hi p <;>
      simp [hn]

/-! ### The property -/

/-- What is assumed: std::sort sorts, the constants are positive, the number of steps on one side, as computed, is below the greatest `int`. -/
structure SearchableFl (fl rnd : ℚ → ℚ) (L : Lib) (input : List Pt) (tol step : ℚ) : Prop where
  sorts : ∀ l, (L.sort l).Perm l ∧ (L.sort l).Pairwise (· ≤ ·)
  minStep : 0 < L.minStep
  minTol : 0 < L.minTol
  fits : rnd (fl (max (max tol L.minStep) (max step L.minStep) / max step L.minStep) + 1 / 2) < 2147483647
  size : input.length < 18446744073709551616

/-- **C63** with rounding (`float`: `fl` is the rounding of `float`, `rnd` the one of `double`; `double`: both are the same): the points are
    split in two, nothing is undefined. -/
theorem C63_rounded_partial {fl rnd : ℚ → ℚ} (hf : Stable fl) (hr : Stable rnd) {L : Lib} {input : List Pt} {tol step : ℚ}
    (h : SearchableFl fl rnd L input tol step) (initial line : ℚ) (on off : List Pt) :
    (2 ≤ input.length → ∃ on' off', HoughTransform fl rnd L input initial tol step line (on, off) = .ok true (on', off')
      ∧ SplitInTwo input on' off') ∧
    (input.length < 2 → HoughTransform fl rnd L input initial tol step line (on, off) = .ok false (on, off)) := by
  constructor
  · intro h2
    have hs : 0 < max step L.minStep := lt_of_lt_of_le h.minStep (le_max_right _ _)
    have hb : 0 ≤ max line L.minTol := le_trans h.minTol.le (le_max_right _ _)
    have pos : ∀ {f : ℚ → ℚ}, Stable f → ∀ {a}, 0 ≤ a → 0 ≤ f a := by
      intro f hf a ha
      have := hf.mono 0 a ha
      rwa [hf.zero] at this
    obtain ⟨v, hv⟩ : ∃ v, rnd (fl (max (max tol L.minStep) (max step L.minStep) / max step L.minStep) + 1 / 2) = v := ⟨_, rfl⟩
    have hv1 : v < 2147483647 := by
      rw [← hv]
      exact h.fits
    have hv0 : 0 ≤ v := by
      rw [← hv]
      have h3 : 0 ≤ max (max tol L.minStep) (max step L.minStep) / max step L.minStep :=
        div_nonneg (le_trans hs.le (le_max_right _ _)) hs.le
      exact pos hr (by have := pos hf h3; linarith)
    have hn0 : 0 ≤ ⌊v⌋ := Int.floor_nonneg.2 hv0
    have hn1 : ⌊v⌋ < 2147483647 := Int.floor_lt.2 (by exact_mod_cast hv1)
    have hcast : toInt32 v (on, off) = .ok ⌊v⌋ (on, off) := by
      rw [toInt32, if_pos hv0, if_neg (by omega)]
      rfl
    obtain ⟨b, hb1⟩ := angles_total hf (L := L) h.sorts (input := input) (pos hf (by linarith : 0 ≤ max line L.minTol * 2)) h2 h.size hn0 hn1
      (max step L.minStep) (-fl (initial - fl (max step L.minStep * fl ⌊v⌋))) ⟨0, -⌊v⌋, 0⟩ (on, off)
    refine ⟨_, _, ?_, filter_split input (kept fl L (-fl (initial + fl (max step L.minStep * fl b.angle)))
      (fl (b.average - max line L.minTol)) (fl (b.average + max line L.minTol)))⟩
    rw [HoughTransform, if_neg (by omega), stepOf_max, toleranceOf_max, bandOf_max, hv]
    refine (bind_ok hcast).trans ((bind_ok hb1).trans ((bind_ok (rfl : clearBoth (on, off) = .ok () ([], []))).trans ?_))
    refine (bind_ok (sortPoints_total fl L _ _ _ input _)).trans ?_
    rw [List.nil_append, List.nil_append]
    rfl
  · intro h2
    rw [HoughTransform, if_pos h2]
    rfl

example : SearchableFl single double slopes fourPts 1 1 := by
  have e : double (single (max (max 1 slopes.minStep) (max 1 slopes.minStep) / max 1 slopes.minStep) + 1 / 2) < 2147483647 := by
    decide +kernel
  exact ⟨slopes_sorts, by simp only [slopes]; norm_num, by simp only [slopes]; norm_num, e, by decide⟩

/-! ### C80 with rounding -/

/-- Sine and cosine as `double` for the angles 0, 1 and -1 -/
def oneStep : Lib where
  sin a := if a = 0 then 0 else if 0 < a then double (8414709848078965 / 10 ^ 16) else -double (8414709848078965 / 10 ^ 16)
  cos a := if a = 0 then 1 else double (5403023058681398 / 10 ^ 16)
  sort l := l.insertionSort (· ≤ ·)
  minStep := 1 / 100
  minTol := 1 / 100

/-- Four points on two horizontal lines, at the `double` numbers 0.5 and 1.7 -/
def twoRows : List Pt := [⟨0, 1 / 2⟩, ⟨1000, 1 / 2⟩, ⟨0, double (17 / 10)⟩, ⟨1000, double (17 / 10)⟩]

/-- C80 does not hold with the rounding of `double`: all four points are within the tolerance 0.6 of a horizontal line, and this angle is searched,
    but only two of them are reported.  The distance of the line, 1.1, plus or minus the tolerance is rounded before it is compared. -/
theorem C80_rounded_wrong :
    Searched oneStep 1 1 0 ∧ (∀ p, p ∈ twoRows → inBand oneStep (-(0 + max 1 oneStep.minStep * (0 : Int))) ((1 / 2 + double (17 / 10)) / 2) (max (double (6 / 10)) oneStep.minTol) p) ∧
    (houghResult (HoughTransform double double oneStep twoRows 0 1 1 (double (6 / 10)) ([], []))).map (fun r => (r.1, r.2.1.length)) = some (true, 2) := by
  refine ⟨?_, ?_, by decide +kernel⟩
  · unfold Searched
    decide +kernel
  · unfold inBand
    decide +kernel

end PV.Props
