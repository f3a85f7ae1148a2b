import Mathlib.Data.List.Sort
import Mathlib.Tactic.Linarith
import Mathlib.Tactic.Ring
import Verif.Hough
/-
  Lemmas about the Hough transform.
-/
namespace PV.Hough

/-- Exact arithmetic. -/
local notation "same" => (fun x : ℚ => x)

theorem sub64_eq {a b : Nat} (h : b ≤ a) (ha : a < 18446744073709551616) : sub64 a b = a - b := by
  rw [sub64, u64]
  omega

theorem rdL_ok {l : List ℚ} {i : Nat} (h : i < l.length) (m : Out) : rdL l i m = .ok l[i] m := by
  rw [rdL, List.getElem?_eq_getElem h]
  rfl

/-- Distances in ascending order. -/
def Asc (ds : List ℚ) : Prop := ∀ i j (hi : i < ds.length) (hj : j < ds.length), i ≤ j → ds[i] ≤ ds[j]

theorem advance_ok {ds : List ℚ} {tol : ℚ} (m : Out) (d : Nat) : ∀ (f e : Nat), e + d = ds.length → d < f →
    ∃ e', advance ds tol f e m = .ok e' m ∧ e ≤ e' ∧ e' ≤ ds.length ∧
      (∀ i (hi : i < ds.length), e ≤ i → i < e' → ds[i] ≤ tol) ∧ (∀ (h : e' < ds.length), tol < ds[e']) := by
  induction d with
  | zero =>
    intro f e he hf
    obtain ⟨f, rfl⟩ : ∃ g, f = g + 1 := ⟨f - 1, by omega⟩
    refine ⟨e, ?_, le_refl _, by omega, fun i hi h1 h2 => absurd h1 (by omega), fun h => absurd h (by omega)⟩
    rw [advance, if_neg (by omega)]
    rfl
  | succ d ih =>
    intro f e he hf
    obtain ⟨f, rfl⟩ : ∃ g, f = g + 1 := ⟨f - 1, by omega⟩
    have hel : e < ds.length := by omega
    rw [advance, if_pos hel, bind_ok (rdL_ok hel m)]
    by_cases h : tol < ds[e]
    · rw [if_pos h]
      exact ⟨e, rfl, le_refl _, by omega, fun i hi h1 h2 => absurd h1 (by omega), fun _ => h⟩
    · rw [if_neg h]
      obtain ⟨e', h1, h2, h3, h4, h5⟩ := ih f (e + 1) (by omega) (by omega)
      refine ⟨e', h1, by omega, h3, fun i hi hi1 hi2 => ?_, h5⟩
      by_cases hie : i = e
      · subst hie
        exact not_lt.1 h
      · exact h4 i hi (by omega) hi2

/-- The window found: it lies inside, is not wider than `range`, and no window that narrow has more points. -/
structure Best (ds : List ℚ) (range : ℚ) (w : Window) : Prop where
  pos : 1 ≤ w.count
  inside : w.first + w.count ≤ ds.length
  narrow : ∀ (h1 : w.first < ds.length) (h2 : w.first + w.count - 1 < ds.length), ds[w.first + w.count - 1] ≤ ds[w.first] + range
  most : ∀ p q (hp : p < ds.length) (hq : q < ds.length), p ≤ q → ds[q] ≤ ds[p] + range → q + 1 - p ≤ w.count

theorem scan_ok {ds : List ℚ} {range : ℚ} (ha : Asc ds) (hr : 0 ≤ range) (hl : ds.length < fuelMax) (m : Out) (d : Nat) :
    ∀ (f p e : Nat) (w : Window), p + d = ds.length → d < f → p ≤ e → e ≤ ds.length → (e = ds.length → 0 < p) →
    1 ≤ w.count → w.first + w.count ≤ ds.length →
    (∀ (h1 : w.first < ds.length) (h2 : w.first + w.count - 1 < ds.length), ds[w.first + w.count - 1] ≤ ds[w.first] + range) →
    (∀ p' q (hp : p' < ds.length) (hq : q < ds.length), p' < p → p' ≤ q → ds[q] ≤ ds[p'] + range → q + 1 - p' ≤ w.count) →
    e - p ≤ w.count →
    (∀ i (hi : i < ds.length) (hp : p < ds.length), i < e → ds[i] ≤ ds[p] + range) →
    ∃ w', scan same ds range f p e w m = .ok w' m ∧ Best ds range w' := by
  have hl' : ds.length < 18446744073709551616 := hl
  induction d with
  | zero =>
    intro f p e w hd hf hpe hel _ h1 h2 h3 h4 h5 h6
    obtain ⟨f, rfl⟩ : ∃ g, f = g + 1 := ⟨f - 1, by omega⟩
    refine ⟨w, ?_, h1, h2, h3, fun p' q hp hq hpq hle => h4 p' q hp hq (by omega) hpq hle⟩
    rw [scan, if_neg (by omega)]
    rfl
  | succ d ih =>
    intro f p e w hd hf hpe hel hz h1 h2 h3 h4 h5 h6
    obtain ⟨f, rfl⟩ : ∃ g, f = g + 1 := ⟨f - 1, by omega⟩
    have hp : p < ds.length := by omega
    by_cases he : e < ds.length
    · obtain ⟨e', a1, a2, a3, a4, a5⟩ := advance_ok (ds := ds) (tol := range + ds[p]) m (ds.length - e) fuelMax e (by omega) (by omega)
      have hpe' : p < e' := by
        by_contra hn
        have e1 : e' = p := by omega
        have := a5 (by omega)
        simp only [e1] at this
        linarith
      have hwin : ∀ i (hi : i < ds.length), i < e' → ds[i] ≤ ds[p] + range := by
        intro i hi hie
        by_cases hi2 : i < e
        · exact h6 i hi hp hi2
        · have := a4 i hi (by omega) hie
          linarith
      have hs : sub64 e' p = e' - p := sub64_eq (by omega) (by omega)
      have hmost : ∀ q (hq : q < ds.length), p ≤ q → ds[q] ≤ ds[p] + range → q < e' := by
        intro q hq hpq hle
        by_contra hn
        have h7 := a5 (by omega)
        have h8 := ha e' q (by omega) hq (by omega)
        linarith
      have step : ∀ w' : Window, 1 ≤ w'.count → w'.first + w'.count ≤ ds.length →
          (∀ (h1 : w'.first < ds.length) (h2 : w'.first + w'.count - 1 < ds.length), ds[w'.first + w'.count - 1] ≤ ds[w'.first] + range) →
          w.count ≤ w'.count → e' - p ≤ w'.count → ∃ w2, scan same ds range f (p + 1) e' w' m = .ok w2 m ∧ Best ds range w2 := by
        intro w' g1 g2 g3 g4 g5
        refine ih f (p + 1) e' w' (by omega) (by omega) (by omega) a3 (by omega) g1 g2 g3 (fun p' q hp' hq hlt hpq hle => ?_) (by omega)
          (fun i hi hp1 hie => ?_)
        · by_cases ep : p' = p
          · subst ep
            have := hmost q hq hpq hle
            omega
          · exact le_trans (h4 p' q hp' hq (by omega) hpq hle) g4
        · exact le_trans (hwin i hi hie) (by have := ha p (p + 1) hp hp1 (by omega); linarith)
      rw [scan, if_pos he, bind_ok (rdL_ok hp m), bind_ok a1, hs]
      by_cases hw : w.count < e' - p
      · rw [if_pos hw]
        refine step ⟨e' - p, p⟩ (by show 1 ≤ e' - p; omega) (by show p + (e' - p) ≤ _; omega) (fun g1 g2 => ?_) (le_of_lt hw) (le_refl _)
        exact hwin _ _ (by show p + (e' - p) - 1 < e'; omega)
      · rw [if_neg hw]
        exact step w h1 h2 h3 (le_refl _) (by omega)
    · have hee : e = ds.length := by omega
      refine ⟨w, ?_, h1, h2, h3, fun p' q hp' hq hpq hle => ?_⟩
      · rw [scan, if_neg he]
        rfl
      · by_cases hlt : p' < p
        · exact h4 p' q hp' hq hlt hpq hle
        · omega

/-- Numbers of elements with a property. -/
theorem countP_le {P : ℚ → Bool} {ds : List ℚ} {p q : Nat} (h : ∀ i (hi : i < ds.length), P ds[i] = true → p ≤ i ∧ i ≤ q) :
    ds.countP P ≤ q + 1 - p := by
  have e : ds = ds.take p ++ ((ds.drop p).take (q + 1 - p) ++ (ds.drop p).drop (q + 1 - p)) := by
    rw [List.take_append_drop, List.take_append_drop]
  rw [e, List.countP_append, List.countP_append]
  have h1 : (ds.take p).countP P = 0 := by
    refine List.countP_eq_zero.2 fun x hx hP => ?_
    obtain ⟨i, hi, rfl⟩ := List.mem_iff_getElem.1 hx
    rw [List.getElem_take] at hP
    rw [List.length_take] at hi
    have := h i (by omega) hP
    omega
  have h2 : ((ds.drop p).drop (q + 1 - p)).countP P = 0 := by
    refine List.countP_eq_zero.2 fun x hx hP => ?_
    obtain ⟨i, hi, rfl⟩ := List.mem_iff_getElem.1 hx
    rw [List.getElem_drop, List.getElem_drop] at hP
    rw [List.length_drop, List.length_drop] at hi
    have := h _ _ hP
    omega
  rw [h1, h2]
  have := List.countP_le_length (p := P) (l := (ds.drop p).take (q + 1 - p))
  rw [List.length_take] at this
  omega

theorem le_countP {P : ℚ → Bool} {ds : List ℚ} {a c : Nat} (hl : a + c ≤ ds.length)
    (h : ∀ i (hi : i < ds.length), a ≤ i → i < a + c → P ds[i] = true) : c ≤ ds.countP P := by
  have e : ds = ds.take a ++ ((ds.drop a).take c ++ (ds.drop a).drop c) := by
    rw [List.take_append_drop, List.take_append_drop]
  rw [e, List.countP_append, List.countP_append]
  have h1 : ((ds.drop a).take c).countP P = c := by
    rw [List.countP_eq_length.2]
    · rw [List.length_take, List.length_drop]
      omega
    · intro x hx
      obtain ⟨i, hi, rfl⟩ := List.mem_iff_getElem.1 hx
      rw [List.length_take, List.length_drop] at hi
      rw [List.getElem_take, List.getElem_drop]
      exact h _ _ (by omega) (by omega)
  omega

/-- What is required of std::sort. -/
def Sorts (sort : List ℚ → List ℚ) : Prop := ∀ l, (sort l).Perm l ∧ (sort l).Pairwise (· ≤ ·)

theorem asc_of_pairwise {ds : List ℚ} (h : ds.Pairwise (· ≤ ·)) : Asc ds := by
  intro i j hi hj hij
  rcases Nat.lt_or_eq_of_le hij with h1 | h1
  · exact List.pairwise_iff_getElem.1 h i j hi hj h1
  · subst h1
    exact le_refl _

/-- The points within `t` of `c`. -/
def near (c t : ℚ) (d : ℚ) : Bool := decide (c - t ≤ d) && decide (d ≤ c + t)

theorem near_iff {c t d : ℚ} : near c t d = true ↔ c - t ≤ d ∧ d ≤ c + t := by
  rw [near, Bool.and_eq_true, decide_eq_true_eq, decide_eq_true_eq]

theorem Best.upper {ds : List ℚ} {t : ℚ} {w : Window} (h : Best ds (t * 2) w) (c : ℚ) : ds.countP (near c t) ≤ w.count := by
  classical
  by_cases he : ∃ i, ∃ hi : i < ds.length, near c t ds[i] = true
  · have hq : ∃ q, ∃ hq : q < ds.length, near c t ds[q] = true ∧ ∀ i (hi : i < ds.length), near c t ds[i] = true → i ≤ q := by
      obtain ⟨i, hi, hP⟩ := he
      have h1 := Nat.findGreatest_spec (P := fun q => ∃ hq : q < ds.length, near c t ds[q] = true) (n := ds.length) hi.le ⟨hi, hP⟩
      obtain ⟨h1, h2⟩ := h1
      refine ⟨_, h1, h2, fun j hj hPj => ?_⟩
      exact Nat.le_findGreatest (P := fun q => ∃ hq : q < ds.length, near c t ds[q] = true) hj.le ⟨hj, hPj⟩
    obtain ⟨q, hq, hPq, hmax⟩ := hq
    obtain ⟨hp, hPp⟩ := Nat.find_spec he
    have hmin : ∀ i (hi : i < ds.length), near c t ds[i] = true → Nat.find he ≤ i := fun i hi hP => Nat.find_min' he ⟨hi, hP⟩
    have h1 := near_iff.1 hPq
    have h2 := near_iff.1 hPp
    refine le_trans (countP_le fun i hi hP => ⟨hmin i hi hP, hmax i hi hP⟩) (h.most _ q hp hq (hmin q hq hPq) ?_)
    linarith [h1.2, h2.1]
  · have : ds.countP (near c t) = 0 := List.countP_eq_zero.2 fun x hx hP => by
      obtain ⟨i, hi, rfl⟩ := List.mem_iff_getElem.1 hx
      exact he ⟨i, hi, hP⟩
    omega

theorem Best.lower {ds : List ℚ} {t : ℚ} {w : Window} (ha : Asc ds) (h : Best ds (t * 2) w) (h1 : w.first < ds.length)
    (h2 : w.first + w.count - 1 < ds.length) : w.count ≤ ds.countP (near ((ds[w.first + w.count - 1] + ds[w.first]) / 2) t) := by
  have hn := h.narrow h1 h2
  refine le_countP h.inside fun i hi hi1 hi2 => near_iff.2 ?_
  have h3 := ha w.first i h1 hi hi1
  have h4 := ha i (w.first + w.count - 1) hi h2 (by omega)
  constructor <;> linarith

theorem better_ok {ds : List ℚ} {range : ℚ} {id : Int} {w : Window} (hl : ds.length < fuelMax) (hb : Best ds range w) (b : Found) (m : Out) :
    better same ds id w b m = .ok b m ∧ w.count ≤ b.count ∨
    ∃ (h1 : w.first < ds.length) (h2 : w.first + w.count - 1 < ds.length),
      better same ds id w b m = .ok ⟨w.count, id, (ds[w.first + w.count - 1] + ds[w.first]) / 2⟩ m ∧ b.count ≤ w.count := by
  have hin := hb.inside
  have hpos := hb.pos
  have hl' : ds.length < 18446744073709551616 := hl
  have h1 : w.first < ds.length := by omega
  have h2 : w.first + w.count - 1 < ds.length := by omega
  rw [better]
  by_cases h : b.count ≤ w.count
  · rw [if_pos h, sub64_eq (by omega) (by omega), bind_ok (rdL_ok h2 m), bind_ok (rdL_ok h1 m)]
    by_cases hc : b.count < w.count ∨ |(ds[w.first + w.count - 1] + ds[w.first]) / 2| < |b.average|
    · rw [if_pos hc]
      exact Or.inr ⟨h1, h2, rfl, h⟩
    · rw [if_neg hc]
      exact Or.inl ⟨rfl, by omega⟩
  · rw [if_neg h]
    exact Or.inl ⟨rfl, by omega⟩

/-- The angle looked at for number `id`. -/
def angleOf (initial step : ℚ) (id : Int) : ℚ := -(initial + step * id)

/-- The number of input points within `t` of the line of angle `a` and distance `c`. -/
def onLine (L : Lib) (input : List Pt) (a c t : ℚ) : Nat := input.countP fun p => near c t (dist same L a p)

theorem onLine_sorted {L : Lib} (hs : Sorts L.sort) (input : List Pt) (a c t : ℚ) :
    (L.sort (input.map (dist same L a))).countP (near c t) = onLine L input a c t := by
  rw [(hs _).1.countP_eq, List.countP_map]
  rfl

/-- What is known when the angles -n, ..., id - 1 have been tried. -/
structure Tried (L : Lib) (input : List Pt) (initial step t : ℚ) (n id : Int) (b : Found) : Prop where
  none : id = -n → b = ⟨0, -n, 0⟩
  range : -n < id → -n ≤ b.angle ∧ b.angle < id ∧ b.count ≤ onLine L input (angleOf initial step b.angle) b.average t
  most : ∀ i, -n ≤ i → i < id → ∀ c, onLine L input (angleOf initial step i) c t ≤ b.count

theorem tryAngle_ok {L : Lib} (hs : Sorts L.sort) {input : List Pt} {initial step t : ℚ} {n id : Int} {b : Found} (ht : 0 ≤ t)
    (h2 : 2 ≤ input.length) (hl : input.length < fuelMax) (hid : id < 2147483647) (hn : -n ≤ id) (h : Tried L input initial step t n id b) (m : Out) :
    ∃ b', tryAngle same L input (t * 2) (id, angleOf initial step id) b m = .ok b' m ∧ Tried L input initial step t n (id + 1) b' := by
  let ds := L.sort (input.map (dist same L (angleOf initial step id)))
  obtain ⟨hp, hsort⟩ := hs (input.map (dist same L (angleOf initial step id)))
  have hlen : ds.length = input.length := by
    rw [hp.length_eq, List.length_map]
  have ha : Asc ds := asc_of_pairwise hsort
  obtain ⟨w, w1, w2⟩ := scan_ok (range := t * 2) ha (by linarith) (by rw [hlen]; exact hl) m ds.length fuelMax 0 1 ⟨1, 0⟩ (by omega)
    (by rw [hlen]; exact hl) (by omega) (by omega) (by omega) (le_refl _) (by show 0 + 1 ≤ ds.length; omega) (fun g1 g2 => by
      show ds[0] ≤ ds[0] + t * 2
      linarith) (fun p' q _ _ hlt => absurd hlt (by omega)) (le_refl _) (fun i hi hp hi1 => by
      have : i = 0 := by omega
      subst this
      linarith)
  have hup : ∀ c, onLine L input (angleOf initial step id) c t ≤ w.count := by
    intro c
    rw [← onLine_sorted hs]
    exact w2.upper c
  have fin : ∀ b', better same ds id w b m = .ok b' m →
      tryAngle same L input (t * 2) (id, angleOf initial step id) b m = .ok b' m := by
    intro b' hb'
    refine (bind_ok w1).trans ((bind_ok hb').trans ?_)
    rw [if_neg (show ¬ id = 2147483647 by omega)]
    rfl
  rcases better_ok (id := id) (by rw [hlen]; exact hl) w2 b m with ⟨h1, h2⟩ | ⟨g1, g2, h1, h2⟩
  · refine ⟨b, fin b h1, fun e => absurd e (by omega), fun hlt => ?_, fun i hi1 hi2 c => ?_⟩
    · by_cases e : id = -n
      · have := h.none e
        have hpos := w2.pos
        rw [this] at h2
        exact absurd h2 (by show ¬ w.count ≤ 0; omega)
      · obtain ⟨r1, r2, r3⟩ := h.range (by omega)
        exact ⟨r1, by omega, r3⟩
    · by_cases e : i = id
      · rw [e]
        exact le_trans (hup c) h2
      · exact h.most i hi1 (by omega) c
  · refine ⟨_, fin _ h1, fun e => absurd e (by omega), fun hlt => ⟨hn, by show id < id + 1; omega, ?_⟩, fun i hi1 hi2 c => ?_⟩
    · rw [← onLine_sorted hs]
      exact w2.lower ha g1 g2
    · by_cases e : i = id
      · rw [e]
        exact hup c
      · exact le_trans (h.most i hi1 (by omega) c) h2

theorem angles_ok {L : Lib} (hs : Sorts L.sort) {input : List Pt} {initial step t : ℚ} {n : Int} (ht : 0 ≤ t)
    (h2 : 2 ≤ input.length) (hl : input.length < fuelMax) (hn : 0 ≤ n) (hn2 : n < 2147483647) (m : Out) :
    ∃ b, loop (fun s : Int × ℚ => decide (s.1 ≤ n)) (fun s => (s.1 + 1, s.2 - step))
      (fun s b => tryAngle same L input (t * 2) s b) fuelMax (-n, -(initial - step * n)) ⟨0, -n, 0⟩ m = .ok b m ∧
      Tried L input initial step t n (n + 1) b := by
  have e := loop_eq_fold (μ := Out) (cond := fun s : Int × ℚ => decide (s.1 ≤ n)) (next := fun s => (s.1 + 1, s.2 - step))
    (body := fun s b => tryAngle same L input (t * 2) s b) (fun k => (-n + (k : Int), angleOf initial step (-n + (k : Int))))
    (2 * n + 1).toNat fuelMax (⟨0, -n, 0⟩ : Found) (by rw [fuelMax]; omega) (fun k hk => by simp only [decide_eq_true_eq]; omega)
    (by simp only [decide_eq_false_iff_not]; omega)
    (fun k hk => by
      simp only [Prod.mk.injEq, angleOf]
      refine ⟨by push_cast; omega, by push_cast; ring⟩)
  have e0 : (-n + ((0 : Nat) : Int), angleOf initial step (-n + ((0 : Nat) : Int))) = (-n, -(initial - step * n)) := by
    simp only [Prod.mk.injEq, angleOf]
    refine ⟨by omega, by push_cast; ring⟩
  rw [e0] at e
  rw [e]
  have key : ∀ k : Nat, (k : Int) ≤ 2 * n + 1 → ∃ b,
      fold (fun (k : Nat) b => tryAngle same L input (t * 2) (-n + (k : Int), angleOf initial step (-n + (k : Int))) b) (List.range k) ⟨0, -n, 0⟩ m = .ok b m ∧
      Tried L input initial step t n (-n + k) b := by
    intro k
    induction k with
    | zero =>
      intro _
      exact ⟨_, rfl, fun _ => rfl, fun h => absurd h (by omega), fun i h1 h2 => absurd h1 (by omega)⟩
    | succ k ih =>
      intro hk
      obtain ⟨b, h1, h3⟩ := ih (by omega)
      obtain ⟨b', h4, h5⟩ := tryAngle_ok hs ht h2 hl (by omega) (by omega) h3 m
      refine ⟨b', ?_, ?_⟩
      · rw [List.range_succ, fold_append, bind_ok h1, fold_cons, bind_ok h4]
        rfl
      · have : -n + ((k + 1 : Nat) : Int) = -n + (k : Int) + 1 := by push_cast; omega
        rw [this]
        exact h5
  obtain ⟨b, h1, h3⟩ := key (2 * n + 1).toNat (by omega)
  refine ⟨b, h1, ?_⟩
  have : -n + ((2 * n + 1).toNat : Int) = n + 1 := by omega
  rw [← this]
  exact h3

theorem sortPoints_ok {L : Lib} {a c t : ℚ} (input : List Pt) : ∀ (o : Out),
    sortPoints same L a (c - t) (c + t) input o
      = .ok () (o.1 ++ input.filter (fun p => near c t (dist same L a p)), o.2 ++ input.filter (fun p => !near c t (dist same L a p))) := by
  induction input with
  | nil =>
    intro o
    simp only [List.filter_nil, List.append_nil]
    rfl
  | cons p ps ih =>
    intro o
    rw [sortPoints]
    have e : (decide (dist same L a p < c - t) || decide (c + t < dist same L a p)) = !near c t (dist same L a p) := by
      rw [near, Bool.not_and, ← decide_not, ← decide_not]
      simp only [not_le]
    rw [e]
    refine (bind_ok (show put (!near c t (dist same L a p)) p o = .ok () _ from rfl)).trans ?_
    rw [ih]
    cases hn : near c t (dist same L a p) <;>
      simp [hn]

end PV.Hough
