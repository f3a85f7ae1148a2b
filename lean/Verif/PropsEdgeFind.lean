import Verif.EdgeShape
import Verif.PropsEdge
/-
  C57 and C91 - C94: what edge detection finds.
-/
namespace PV.Props

open PV.Edge

/-! ### C57 : edge detection stays inside of the ROI -/

theorem find_checks {m : BMem} {v : View} {w h : Nat} {P : Params} (c : EdgeCall m v w h P) :
    verifyGray [v.img] m = .ok () m ∧ validateRoi v w h m = .ok () m ∧ P.verify m = .ok () m := by
  obtain ⟨f1, f2, f3, f4, f5, f6, f7, f8, f9, f10⟩ := View.facts c.wf c.fit
  refine ⟨?_, validateRoi_ok m c.fit (by omega) (by omega), ?_⟩
  · rw [verifyGray]
    simp only [List.any_cons, List.any_nil, Bool.or_false, c.gray]
    rfl
  · have h1 := c.group0
    have h2 := c.skip0
    have h3 := c.contrast0
    have e : (P.group == 0 || P.skip == 0 || P.contrast == 0) = false := by
      simp only [Bool.or_eq_false_iff, beq_eq_false_iff_ne]
      omega
    rw [Params.verify, e]
    rfl

/-- Nothing is found in lines of less than four pixels. -/
theorem C57_short {rnd fl : ℚ → ℚ} {m : BMem} {v : View} {w h : Nat} {P : Params} (c : EdgeCall m v w h P) (h4 : edgeLength P w h < 4) :
    find rnd fl v w h P m = .ok ([], []) m := by
  obtain ⟨c1, c2, c3⟩ := find_checks c
  rw [find, bind_ok c1, bind_ok c2, bind_ok c3]
  have ehor : P.horizontal = edgeAcross P := rfl
  rw [edgeLength] at h4
  rw [ehor, if_pos]
  · rfl
  · by_cases ha : edgeAcross P = true
    · rw [if_pos ha] at h4
      exact Or.inl ⟨ha, h4⟩
    · rw [if_neg ha] at h4
      exact Or.inr ⟨ha, h4⟩

/-- Parameters equal to zero, colour images and regions outside of the image are rejected. -/
theorem C57_rejects {rnd fl : ℚ → ℚ} {m : BMem} {v : View} {w h : Nat} {P : Params} (hv : v.U32) (hw : w < 4294967296) (hh : h < 4294967296)
    (hbad : v.img.cc ≠ 1 ∨ ¬ v.Fits w h ∨ P.group = 0 ∨ P.skip = 0 ∨ P.contrast = 0) : find rnd fl v w h P m = .throw m := by
  by_cases h1 : v.img.cc ≠ 1
  · have e : verifyGray [v.img] m = .throw m := by
      rw [verifyGray]
      simp only [List.any_cons, List.any_nil, Bool.or_false]
      rw [show (v.img.cc != 1) = true by simpa using h1]
      rfl
    rw [find, bind_throw e]
  · have e1 : verifyGray [v.img] m = .ok () m := by
      rw [verifyGray]
      simp only [List.any_cons, List.any_nil, Bool.or_false]
      rw [show (v.img.cc != 1) = false by simpa using h1]
      rfl
    rw [find, bind_ok e1]
    by_cases h2 : v.Fits w h
    · rw [bind_ok (validateRoi_ok m h2 hv.hw hv.hh)]
      have e : P.verify m = .throw m := by
        have : (P.group == 0 || P.skip == 0 || P.contrast == 0) = true := by
          simp only [Bool.or_eq_true, beq_iff_eq]
          tauto
        rw [Params.verify, this]
        rfl
      rw [bind_throw e]
    · rw [bind_throw (validateRoi_throw m h2 hv hw hh)]

/-- The point lies inside of the ROI. -/
def InRoi (v : View) (w h : Nat) (q : ℚ × ℚ) : Prop :=
  (v.x : ℚ) ≤ q.1 ∧ q.1 ≤ (v.x + w - 1 : Nat) ∧ (v.y : ℚ) ≤ q.2 ∧ q.2 ≤ (v.y + h - 1 : Nat)

theorem edgeCoordinate_bounds {rnd : ℚ → ℚ} (R : Rounding rnd) {P : Params} {v : View} {r n : Nat} (hg : 0 < P.group) (hr : r + P.group ≤ n)
    (hn : (if edgeAcross P then v.y else v.x) + n < 4294967296) :
    ((if edgeAcross P then v.y else v.x : Nat) : ℚ) ≤ edgeCoordinate rnd P v r ∧
      edgeCoordinate rnd P v r ≤ ((if edgeAcross P then v.y else v.x) + n - 1 : Nat) := by
  rw [edgeCoordinate]
  generalize (if edgeAcross P = true then v.y else v.x) = s at hn ⊢
  have g1 : (0 : ℚ) ≤ (P.group : ℚ) - 1 := by
    have : (1 : ℚ) ≤ P.group := by exact_mod_cast hg
    linarith
  have e : ((P.group - 1 : Nat) : ℚ) = (P.group : ℚ) - 1 := by rw [Nat.cast_sub hg, Nat.cast_one]
  obtain ⟨b1, b2⟩ := rnd_between R (a := 0) (b := P.group - 1) (q := ((P.group : ℚ) - 1) / 2) (by omega) (by omega)
    (by rw [Nat.cast_zero]; linarith) (by rw [e]; linarith)
  rw [Nat.cast_zero] at b1
  have e2 : ((s + n - 1 : Nat) : ℚ) = (s : ℚ) + n - 1 := by
    rw [Nat.cast_sub (by omega), Nat.cast_add, Nat.cast_one]
  have hr' : (r : ℚ) + P.group ≤ n := by exact_mod_cast hr
  refine rnd_between R (by omega) (by omega) ?_ ?_
  · push_cast
    have : (0 : ℚ) ≤ r := by positivity
    linarith
  · rw [e2]
    push_cast
    linarith

theorem place_inside {rnd : ℚ → ℚ} (R : Rounding rnd) {m : BMem} {v : View} {w h : Nat} {P : Params} (c : EdgeCall m v w h P) {r : Nat}
    (hr : r ∈ edgeLines P w h) {e : ℚ} (h0 : 0 ≤ e) (h1 : e ≤ (edgeLength P w h - 1 : Nat)) :
    InRoi v w h (placeUp rnd P v r e) ∧ InRoi v w h (placeDown rnd P v w h r e) := by
  obtain ⟨f1, f2, f3, f4, f5, f6, f7, f8, f9, f10⟩ := View.facts c.wf c.fit
  have hx := c.fit.inX
  have hy := c.fit.inY
  have hw := c.fit.wpos
  have hh := c.fit.hpos
  rw [edgeLines, List.mem_filter, List.mem_range] at hr
  have hrc : r + P.group ≤ edgeCount P w h := by omega
  have key : ∀ s n : Nat, 0 < n → s + n < 4294967296 → e ≤ (n - 1 : Nat) →
      ((s : ℚ) ≤ rnd (s + e) ∧ rnd (s + e) ≤ (s + n - 1 : Nat)) ∧
      ((s : ℚ) ≤ rnd (((s + n - 1 : Nat) : ℚ) - e) ∧ rnd (((s + n - 1 : Nat) : ℚ) - e) ≤ (s + n - 1 : Nat)) := by
    intro s n hn hs he
    have e1 : ((s + n - 1 : Nat) : ℚ) = (s : ℚ) + n - 1 := by
      rw [Nat.cast_sub (by omega), Nat.cast_add, Nat.cast_one]
    have e2 : ((n - 1 : Nat) : ℚ) = (n : ℚ) - 1 := by rw [Nat.cast_sub hn, Nat.cast_one]
    rw [e2] at he
    constructor
    · exact rnd_between R (by omega) (by omega) (by linarith) (by rw [e1]; linarith)
    · exact rnd_between R (by omega) (by omega) (by rw [e1]; linarith) (by linarith)
  by_cases ha : edgeAcross P = true
  · rw [edgeLength, if_pos ha] at h1
    rw [edgeCount, if_pos ha] at hrc
    have hc := edgeCoordinate_bounds R (v := v) c.group0 hrc (by rw [if_pos ha]; omega)
    rw [if_pos ha] at hc
    obtain ⟨k1, k2⟩ := key v.x w hw (by omega) h1
    rw [placeUp, placeDown, if_pos ha, if_pos ha]
    exact ⟨⟨k1.1, k1.2, hc.1, hc.2⟩, ⟨k2.1, k2.2, hc.1, hc.2⟩⟩
  · rw [edgeLength, if_neg ha] at h1
    rw [edgeCount, if_neg ha] at hrc
    have hc := edgeCoordinate_bounds R (v := v) c.group0 hrc (by rw [if_neg ha]; omega)
    rw [if_neg ha] at hc
    obtain ⟨k1, k2⟩ := key v.y h hh (by omega) h1
    rw [placeUp, placeDown, if_neg ha, if_neg ha]
    exact ⟨⟨hc.1, hc.2, k1.1, k1.2⟩, ⟨hc.1, hc.2, k2.1, k2.2⟩⟩

theorem EdgeCall.length {m : BMem} {v : View} {w h : Nat} {P : Params} (c : EdgeCall m v w h P) : edgeLength P w h < 4294967296 := by
  obtain ⟨f1, f2, f3, f4, f5, f6, f7, f8, f9, f10⟩ := View.facts c.wf c.fit
  have := c.fit.inX
  have := c.fit.inY
  rw [edgeLength]
  split <;> omega

/-- C57: the image is not changed and nothing outside of it is read; there are positions for every line that is looked at, which belong to edges of
    the line (of its mirror image for those counted from its end), are in order and at least one pixel apart; all points lie inside of the ROI. -/
theorem C57_partial {rnd fl : ℚ → ℚ} (R : Rounding rnd) {m : BMem} {v : View} {w h : Nat} {P : Params} (c : EdgeCall m v w h P) :
    ∃ E, find rnd fl v w h P m = .ok (positivePoints rnd P v w h E, negativePoints rnd P v w h E) m ∧
      (∀ r ∈ edgeLines P w h, Positions rnd P (edgeLength P w h) (edgeLine P v m r) (E r).1 ∧
        Positions rnd P (edgeLength P w h) (fun k => edgeLine P v m r (edgeLength P w h - 1 - k)) (E r).2) ∧
      (∀ q ∈ positivePoints rnd P v w h E, InRoi v w h q) ∧ ∀ q ∈ negativePoints rnd P v w h E, InRoi v w h q := by
  have fin : ∀ E : Nat → List ℚ × List ℚ, (∀ r ∈ edgeLines P w h, Positions rnd P (edgeLength P w h) (edgeLine P v m r) (E r).1 ∧
        Positions rnd P (edgeLength P w h) (fun k => edgeLine P v m r (edgeLength P w h - 1 - k)) (E r).2) →
      (∀ q ∈ positivePoints rnd P v w h E, InRoi v w h q) ∧ ∀ q ∈ negativePoints rnd P v w h E, InRoi v w h q := by
    intro E hE
    have bound : ∀ (D : Nat → Int) (l : List ℚ), Positions rnd P (edgeLength P w h) D l → ∀ e ∈ l, 0 ≤ e ∧ e ≤ (edgeLength P w h - 1 : Nat) := by
      intro D l hl e he
      obtain ⟨i, h1, h2, h3, h4, _⟩ := hl.edge e he
      have : (i : ℚ) + 1 ≤ (edgeLength P w h - 1 : Nat) := by exact_mod_cast (by omega : i + 1 ≤ edgeLength P w h - 1)
      have : (0 : ℚ) ≤ i := by positivity
      constructor <;> linarith
    have up : ∀ q ∈ upPoints rnd P v w h E, InRoi v w h q := by
      intro q hq
      rw [upPoints, List.mem_flatMap] at hq
      obtain ⟨r, hr, hq⟩ := hq
      rw [List.mem_map] at hq
      obtain ⟨e, he, rfl⟩ := hq
      obtain ⟨b1, b2⟩ := bound _ _ (hE r hr).1 e he
      exact (place_inside R c hr b1 b2).1
    have down : ∀ q ∈ downPoints rnd P v w h E, InRoi v w h q := by
      intro q hq
      rw [downPoints, List.mem_flatMap] at hq
      obtain ⟨r, hr, hq⟩ := hq
      rw [List.mem_map] at hq
      obtain ⟨e, he, rfl⟩ := hq
      obtain ⟨b1, b2⟩ := bound _ _ (hE r hr).2 e he
      exact (place_inside R c hr b1 b2).2
    rw [positivePoints, negativePoints]
    constructor
    · split
      · simp
      · split
        · exact down
        · exact up
    · split
      · simp
      · split
        · exact up
        · exact down
  by_cases h4 : 4 ≤ edgeLength P w h
  · have hE : ∀ r ∈ edgeLines P w h, Positions rnd P (edgeLength P w h) (edgeLine P v m r) (edgesOf rnd fl P v m w h r).1 ∧
        Positions rnd P (edgeLength P w h) (fun k => edgeLine P v m r (edgeLength P w h - 1 - k)) (edgesOf rnd fl P v m w h r).2 :=
      fun r _ => lineEdges_positions R c.length
    exact ⟨_, find_ok c h4, hE, fin _ hE⟩
  · have hE : ∀ r ∈ edgeLines P w h, Positions rnd P (edgeLength P w h) (edgeLine P v m r) ((fun _ => ([], [])) r : List ℚ × List ℚ).1 ∧
        Positions rnd P (edgeLength P w h) (fun k => edgeLine P v m r (edgeLength P w h - 1 - k)) ((fun _ => ([], [])) r : List ℚ × List ℚ).2 :=
      fun r _ => ⟨⟨List.Pairwise.nil, by simp⟩, ⟨List.Pairwise.nil, by simp⟩⟩
    refine ⟨fun _ => ([], []), ?_, hE, fin _ hE⟩
    rw [C57_short c (by omega)]
    simp [positivePoints, negativePoints, upPoints, downPoints]

/-! ### C91 : a step is found exactly -/

/-- Every line has the value `a` before pixel number `p` and the value `b` from there on; the step is at least two pixels away from the ends of the
    line and at least as large as the minimum contrast. -/
structure EdgeStep (fl : ℚ → ℚ) (m : BMem) (v : View) (w h : Nat) (P : Params) (a b : UInt8) (p : Nat) : Prop where
  start : 2 ≤ p
  stop : p + 2 ≤ edgeLength P w h
  pixel : ∀ x y, x < w → y < h → v.get m x y 0 = if (if edgeAcross P then x else y) < p then a else b
  contrast : a.toNat + P.contrast ≤ b.toNat ∨ b.toNat + P.contrast ≤ a.toNat
  checked : StepChecked fl P (edgeLength P w h) (if a < b then p else edgeLength P w h - p)

/-- The point between the pixels `p - 1` and `p` of the ROI in the middle of the group of lines starting with line `r` -/
def stepPoint (P : Params) (v : View) (p r : Nat) : ℚ × ℚ :=
  if edgeAcross P then ((v.x : ℚ) + p - 1 / 2, (v.y : ℚ) + r + ((P.group : ℚ) - 1) / 2)
  else ((v.x : ℚ) + r + ((P.group : ℚ) - 1) / 2, (v.y : ℚ) + p - 1 / 2)

theorem edgeLine_step {fl : ℚ → ℚ} {m : BMem} {v : View} {w h : Nat} {P : Params} {a b : UInt8} {p : Nat} (s : EdgeStep fl m v w h P a b p) {r : Nat}
    (hr : r ∈ edgeLines P w h) {k : Nat} (hk : k < edgeLength P w h) :
    edgeLine P v m r k = if k < p then (P.group : Int) * a.toNat else (P.group : Int) * b.toNat := by
  rw [edgeLines, List.mem_filter, List.mem_range] at hr
  have hr := hr.1
  have sum : ∀ f : Nat → UInt8, (∀ j, j < P.group → f j = if k < p then a else b) →
      ∑ j ∈ Finset.range P.group, ((f j).toNat : Int) = if k < p then (P.group : Int) * a.toNat else (P.group : Int) * b.toNat := by
    intro f hf
    rw [Finset.sum_congr rfl fun j hj => by rw [hf j (Finset.mem_range.1 hj)]]
    split <;> simp
  rw [edgeLine]
  by_cases ha : edgeAcross P = true
  · rw [if_pos ha, edgeRow]
    rw [edgeLength, if_pos ha] at hk
    rw [edgeCount, if_pos ha] at hr
    refine sum _ fun j hj => ?_
    rw [s.pixel k (r + j) hk (by omega), if_pos ha]
  · rw [if_neg ha, edgeColumn]
    rw [edgeLength, if_neg ha] at hk
    rw [edgeCount, if_neg ha] at hr
    refine sum _ fun j hj => ?_
    rw [s.pixel (r + j) k (by omega) hk, if_neg ha]

theorem place_step {rnd : ℚ → ℚ} (H : ∀ z : ℤ, |z| < 2 ^ 53 → rnd ((z : ℚ) / 2) = z / 2) {m : BMem} {v : View} {w h : Nat} {P : Params}
    (c : EdgeCall m v w h P) {p r : Nat} (hp : 0 < p) (hp2 : p ≤ edgeLength P w h) (hr : r ∈ edgeLines P w h) :
    placeUp rnd P v r ((p : ℚ) - 1 / 2) = stepPoint P v p r ∧
      placeDown rnd P v w h r (((edgeLength P w h - p : Nat) : ℚ) - 1 / 2) = stepPoint P v p r := by
  obtain ⟨f1, f2, f3, f4, f5, f6, f7, f8, f9, f10⟩ := View.facts c.wf c.fit
  have hx := c.fit.inX
  have hy := c.fit.inY
  have hw := c.fit.wpos
  have hh := c.fit.hpos
  have hg := c.group0
  have hgs := c.groupSmall
  rw [edgeLines, List.mem_filter, List.mem_range] at hr
  have key : ∀ s n : Nat, 0 < n → s + n < 4294967296 → p ≤ n →
      rnd ((s : ℚ) + ((p : ℚ) - 1 / 2)) = (s : ℚ) + p - 1 / 2 ∧
      rnd (((s + n - 1 : Nat) : ℚ) - (((n - p : Nat) : ℚ) - 1 / 2)) = (s : ℚ) + p - 1 / 2 := by
    intro s n hn hs hpn
    have e : (s : ℚ) + p - 1 / 2 = ((2 * s + 2 * p - 1 : ℤ) : ℚ) / 2 := by
      push_cast
      ring
    have e2 : ((s + n - 1 : Nat) : ℚ) - (((n - p : Nat) : ℚ) - 1 / 2) = (s : ℚ) + p - 1 / 2 := by
      rw [Nat.cast_sub (by omega), Nat.cast_sub hpn]
      push_cast
      ring
    rw [e2, ← add_sub_assoc, e, H _ (by rw [abs_of_nonneg (by omega)]; omega)]
    exact ⟨rfl, rfl⟩
  have co : ∀ s n : Nat, (if edgeAcross P then v.y else v.x) = s → r + P.group ≤ n → s + n < 4294967296 →
      edgeCoordinate rnd P v r = (s : ℚ) + r + ((P.group : ℚ) - 1) / 2 := by
    intro s n hs hn hsn
    rw [edgeCoordinate, hs]
    have e1 : ((P.group : ℚ) - 1) / 2 = ((P.group - 1 : ℤ) : ℚ) / 2 := by push_cast; ring
    have e2 : ((s + r : Nat) : ℚ) + ((P.group - 1 : ℤ) : ℚ) / 2 = ((2 * s + 2 * r + P.group - 1 : ℤ) : ℚ) / 2 := by
      push_cast
      ring
    rw [e1, H _ (by rw [abs_of_nonneg (by omega)]; omega), e2, H _ (by rw [abs_of_nonneg (by omega)]; omega)]
    push_cast
    ring
  by_cases ha : edgeAcross P = true
  · rw [edgeLength, if_pos ha] at hp2
    rw [edgeCount, if_pos ha] at hr
    rw [placeUp, placeDown, stepPoint, if_pos ha, if_pos ha, if_pos ha, edgeLength, if_pos ha]
    obtain ⟨k1, k2⟩ := key v.x w hw (by omega) hp2
    rw [k1, k2, co v.y h (by rw [if_pos ha]) (by omega) (by omega)]
    exact ⟨rfl, rfl⟩
  · rw [edgeLength, if_neg ha] at hp2
    rw [edgeCount, if_neg ha] at hr
    rw [placeUp, placeDown, stepPoint, if_neg ha, if_neg ha, if_neg ha, edgeLength, if_neg ha]
    obtain ⟨k1, k2⟩ := key v.y h hh (by omega) hp2
    rw [k1, k2, co v.x w (by rw [if_neg ha]) (by omega) (by omega)]
    exact ⟨rfl, rfl⟩

theorem flatMap_single' {α β : Type} (l : List α) (f : α → β) : (l.flatMap fun a => [f a]) = l.map f := by
  induction l with
  | nil => rfl
  | cons a l ih =>
    rw [List.flatMap_cons, ih]
    rfl

/-- C91: a step is found exactly once in every group of lines, halfway between its two pixels; it is a positive edge if the values grow in the direction
    of the scan and a negative edge otherwise. -/
theorem C91_step {rnd fl : ℚ → ℚ} (R : Rounding rnd) (H : ∀ z : ℤ, |z| < 2 ^ 53 → rnd ((z : ℚ) / 2) = z / 2) {m : BMem} {v : View} {w h : Nat}
    {P : Params} (c : EdgeCall m v w h P) {a b : UInt8} {p : Nat} (s : EdgeStep fl m v w h P a b p) :
    find rnd fl v w h P m = .ok
      (if (edgeBack P = false ↔ a < b) then (if P.gradient = .negative then [] else (edgeLines P w h).map (stepPoint P v p), [])
        else ([], if P.gradient = .positive then [] else (edgeLines P w h).map (stepPoint P v p))) m := by
  have hs1 := s.start
  have hs2 := s.stop
  have hlen := c.length
  have ha := a.toNat_lt
  have hb := b.toNat_lt
  have hc0 := c.contrast0
  have hg0 := c.group0
  have hab : a < b ↔ a.toNat < b.toNat := UInt8.lt_iff_toNat_lt
  have mulLe : ∀ x y : Nat, x ≤ y → (P.group : Int) * x ≤ P.group * y := fun x y hxy =>
    mul_le_mul_of_nonneg_left (by exact_mod_cast hxy) (by positivity)
  have mulLt : ∀ x y : Nat, x < y → (P.group : Int) * x < P.group * y := fun x y hxy =>
    mul_lt_mul_of_pos_left (by exact_mod_cast hxy) (by exact_mod_cast hg0)
  have con : ∀ x y : Nat, x + P.contrast ≤ y → ((P.contrast * P.group : Nat) : Int) ≤ (P.group : Int) * y - P.group * x := by
    intro x y hxy
    have := mulLe _ _ hxy
    push_cast at this ⊢
    nlinarith
  have small : ∀ x : Nat, x < 256 → (P.group : Int) * x ≤ 255 * P.group := by
    intro x hx
    have := mulLe x 255 (by omega)
    push_cast at this
    linarith
  rw [find_ok c (by omega)]
  by_cases lt : a < b
  · have hE : ∀ r ∈ edgeLines P w h, edgesOf rnd fl P v m w h r = ([(p : ℚ) - 1 / 2], []) := by
      intro r hr
      have hck := s.checked
      rw [if_pos lt] at hck
      exact lineEdges_rise H R.int hs1 hs2 hlen (fun k hk => edgeLine_step s hr hk) (by positivity) (mulLt _ _ (hab.1 lt)) (small _ hb)
        (con _ _ (by have := s.contrast; have := hab.1 lt; omega)) hck
    have hu : upPoints rnd P v w h (edgesOf rnd fl P v m w h) = (edgeLines P w h).map (stepPoint P v p) := by
      rw [upPoints, ← flatMap_single']
      refine flatMap_congr' fun r hr => ?_
      rw [hE r hr, List.map_singleton, (place_step H c (by omega) (by omega) hr).1]
    have hd : downPoints rnd P v w h (edgesOf rnd fl P v m w h) = [] := by
      rw [downPoints, flatMap_congr' (g := fun _ => []) fun r hr => by rw [hE r hr]; rfl]
      simp
    rw [positivePoints, negativePoints, hu, hd]
    congr 1
    cases edgeBack P <;> simp [lt]
  · have hE : ∀ r ∈ edgeLines P w h, edgesOf rnd fl P v m w h r = ([], [((edgeLength P w h - p : Nat) : ℚ) - 1 / 2]) := by
      intro r hr
      have hck := s.checked
      rw [if_neg lt] at hck
      rw [hab] at lt
      exact lineEdges_fall H R.int hs1 hs2 hlen (fun k hk => edgeLine_step s hr hk) (small _ ha) (mulLt _ _ (by have := s.contrast; omega)) (by positivity)
        (con _ _ (by have := s.contrast; omega)) hck
    have hd : downPoints rnd P v w h (edgesOf rnd fl P v m w h) = (edgeLines P w h).map (stepPoint P v p) := by
      rw [downPoints, ← flatMap_single']
      refine flatMap_congr' fun r hr => ?_
      rw [hE r hr, List.map_singleton, (place_step H c (by omega) (by omega) hr).2]
    have hu : upPoints rnd P v w h (edgesOf rnd fl P v m w h) = [] := by
      rw [upPoints, flatMap_congr' (g := fun _ => []) fun r hr => by rw [hE r hr]; rfl]
      simp
    rw [positivePoints, negativePoints, hu, hd]
    congr 1
    cases edgeBack P <;> simp [lt]

/-! ### C92 : rows and columns -/

/-- Columns instead of rows -/
def Params.transposed (P : Params) : Params :=
  { P with direction := match P.direction with
      | .leftToRight => .topToBottom
      | .rightToLeft => .bottomToTop
      | .topToBottom => .leftToRight
      | .bottomToTop => .rightToLeft }

/-- The two ROIs are transposes of each other. -/
structure Transposed (m m' : BMem) (v v' : View) (w h : Nat) : Prop where
  x : v'.x = v.y
  y : v'.y = v.x
  pixel : ∀ x y, x < w → y < h → v'.get m' y x 0 = v.get m x y 0

theorem transposed_across (P : Params) : edgeAcross (Params.transposed P) = !edgeAcross P := by
  rw [edgeAcross, edgeAcross, Params.transposed]
  cases P.direction <;> rfl

theorem transposed_back (P : Params) : edgeBack (Params.transposed P) = edgeBack P := by
  rw [edgeBack, edgeBack, Params.transposed]
  cases P.direction <;> rfl

theorem transposed_length (P : Params) (w h : Nat) : edgeLength (Params.transposed P) h w = edgeLength P w h := by
  rw [edgeLength, edgeLength, transposed_across]
  cases edgeAcross P <;> rfl

theorem transposed_count (P : Params) (w h : Nat) : edgeCount (Params.transposed P) h w = edgeCount P w h := by
  rw [edgeCount, edgeCount, transposed_across]
  cases edgeAcross P <;> rfl

theorem transposed_lines (P : Params) (w h : Nat) : edgeLines (Params.transposed P) h w = edgeLines P w h := by
  rw [edgeLines, edgeLines, transposed_count]
  rfl

theorem EdgeCall.transposed {m m' : BMem} {v v' : View} {w h : Nat} {P : Params} (c : EdgeCall m v w h P) (hw : v'.img.WF m') (hf : v'.Fits h w)
    (hg : v'.img.cc = 1) : EdgeCall m' v' h w (Params.transposed P) where
  wf := hw
  fit := hf
  gray := hg
  group0 := c.group0
  group := by
    rw [transposed_count]
    exact c.group
  groupSmall := c.groupSmall
  skip0 := c.skip0
  skip := c.skip
  contrast0 := c.contrast0
  contrast := c.contrast
  right := by
    rw [transposed_length]
    exact c.right

/-- C92: transposing the image and the direction exchanges the coordinates of the points found. -/
theorem C92_transposed {rnd fl : ℚ → ℚ} {m m' : BMem} {v v' : View} {w h : Nat} {P : Params} (c : EdgeCall m v w h P) (hw : v'.img.WF m')
    (hf : v'.Fits h w) (hg : v'.img.cc = 1) (t : Transposed m m' v v' w h) :
    ∃ pos neg, find rnd fl v w h P m = .ok (pos, neg) m ∧
      find rnd fl v' h w (Params.transposed P) m' = .ok (pos.map Prod.swap, neg.map Prod.swap) m' := by
  have c' := c.transposed (m' := m') hw hf hg
  by_cases h4 : 4 ≤ edgeLength P w h
  · refine ⟨_, _, find_ok c h4, ?_⟩
    rw [find_ok c' (by rw [transposed_length]; exact h4)]
    have hE : ∀ r ∈ edgeLines P w h, edgesOf rnd fl (Params.transposed P) v' m' h w r = edgesOf rnd fl P v m w h r := by
      intro r hr
      rw [edgeLines, List.mem_filter, List.mem_range] at hr
      have hr := hr.1
      rw [edgesOf, edgesOf, transposed_length, transposed_back]
      refine Eq.trans ?_ (lineEdges_congr (D := edgeLine (Params.transposed P) v' m' r) ?_)
      · rw [lineEdges, lineEdges, allEdges_params (Q := Params.transposed P) (P := P) rfl rfl rfl rfl,
          allEdges_params (Q := Params.transposed P) (P := P) rfl rfl rfl rfl]
        rfl
      · intro k hk
        rw [edgeLine, edgeLine, transposed_across]
        rw [edgeLength] at hk
        rw [edgeCount] at hr
        cases ha : edgeAcross P
        · rw [ha, if_neg Bool.false_ne_true] at hk hr
          rw [if_pos (show (!false) = true from rfl), if_neg Bool.false_ne_true, edgeRow, edgeColumn]
          refine Finset.sum_congr rfl fun j hj => ?_
          rw [t.pixel _ _ (by have : j < P.group := Finset.mem_range.1 hj; omega) hk]
        · rw [ha, if_pos rfl] at hk hr
          rw [if_neg (show ¬ (!true) = true from Bool.false_ne_true), if_pos (show true = true from rfl), edgeRow, edgeColumn]
          refine Finset.sum_congr rfl fun j hj => ?_
          rw [t.pixel _ _ hk (by have : j < P.group := Finset.mem_range.1 hj; omega)]
    have hco : ∀ r, edgeCoordinate rnd (Params.transposed P) v' r = edgeCoordinate rnd P v r := by
      intro r
      rw [edgeCoordinate, edgeCoordinate, transposed_across, t.x, t.y]
      cases edgeAcross P <;> rfl
    have hup : ∀ r e, placeUp rnd (Params.transposed P) v' r e = (placeUp rnd P v r e).swap := by
      intro r e
      rw [placeUp, placeUp, hco, transposed_across, t.x, t.y]
      cases edgeAcross P <;> rfl
    have hdown : ∀ r e, placeDown rnd (Params.transposed P) v' h w r e = (placeDown rnd P v w h r e).swap := by
      intro r e
      rw [placeDown, placeDown, hco, transposed_across, t.x, t.y]
      cases edgeAcross P <;> rfl
    have u : upPoints rnd (Params.transposed P) v' h w (edgesOf rnd fl (Params.transposed P) v' m' h w) =
        (upPoints rnd P v w h (edgesOf rnd fl P v m w h)).map Prod.swap := by
      rw [upPoints, upPoints, transposed_lines, List.map_flatMap]
      refine flatMap_congr' fun r hr => ?_
      rw [hE r hr, List.map_map]
      exact List.map_congr_left fun e _ => hup r e
    have d : downPoints rnd (Params.transposed P) v' h w (edgesOf rnd fl (Params.transposed P) v' m' h w) =
        (downPoints rnd P v w h (edgesOf rnd fl P v m w h)).map Prod.swap := by
      rw [downPoints, downPoints, transposed_lines, List.map_flatMap]
      refine flatMap_congr' fun r hr => ?_
      rw [hE r hr, List.map_map]
      exact List.map_congr_left fun e _ => hdown r e
    have gr : (Params.transposed P).gradient = P.gradient := rfl
    rw [positivePoints, negativePoints, positivePoints, negativePoints, u, d, transposed_back, gr]
    congr 2
    · split
      · rfl
      · split <;> rfl
    · split
      · rfl
      · split <;> rfl
  · exact ⟨[], [], C57_short c (by omega), C57_short c' (by rw [transposed_length]; omega)⟩

/-! ### C93 : the opposite direction -/

/-- The opposite direction, gradient and selection -/
def Params.opposite (P : Params) : Params :=
  { P with
    direction := match P.direction with
      | .leftToRight => .rightToLeft
      | .rightToLeft => .leftToRight
      | .topToBottom => .bottomToTop
      | .bottomToTop => .topToBottom
    gradient := match P.gradient with
      | .positive => .negative
      | .negative => .positive
      | .any => .any
    edge := match P.edge with
      | .first => .last
      | .last => .first
      | .all => .all }

theorem opposite_across (P : Params) : edgeAcross (Params.opposite P) = edgeAcross P := by
  rw [edgeAcross, edgeAcross, Params.opposite]
  cases P.direction <;> rfl

theorem opposite_back (P : Params) : edgeBack (Params.opposite P) = !edgeBack P := by
  rw [edgeBack, edgeBack, Params.opposite]
  cases P.direction <;> rfl

theorem opposite_length (P : Params) (w h : Nat) : edgeLength (Params.opposite P) w h = edgeLength P w h := by
  rw [edgeLength, edgeLength, opposite_across]

theorem opposite_count (P : Params) (w h : Nat) : edgeCount (Params.opposite P) w h = edgeCount P w h := by
  rw [edgeCount, edgeCount, opposite_across]

theorem opposite_lines (P : Params) (w h : Nat) : edgeLines (Params.opposite P) w h = edgeLines P w h := by
  rw [edgeLines, edgeLines, opposite_count]
  rfl

theorem EdgeCall.opposite {m : BMem} {v : View} {w h : Nat} {P : Params} (c : EdgeCall m v w h P) : EdgeCall m v w h (Params.opposite P) where
  wf := c.wf
  fit := c.fit
  gray := c.gray
  group0 := c.group0
  group := by
    rw [opposite_count]
    exact c.group
  groupSmall := c.groupSmall
  skip0 := c.skip0
  skip := c.skip
  contrast0 := c.contrast0
  contrast := c.contrast
  right := by
    rw [opposite_length]
    exact c.right

/-- C93: the same points are found in the opposite direction, where positive edges are negative edges, and the first ones the last ones. -/
theorem C93_opposite {rnd fl : ℚ → ℚ} {m : BMem} {v : View} {w h : Nat} {P : Params} (c : EdgeCall m v w h P) :
    ∃ pos neg, find rnd fl v w h P m = .ok (pos, neg) m ∧ find rnd fl v w h (Params.opposite P) m = .ok (neg, pos) m := by
  have c' := c.opposite
  by_cases h4 : 4 ≤ edgeLength P w h
  · refine ⟨_, _, find_ok c h4, ?_⟩
    rw [find_ok c' (by rw [opposite_length]; exact h4)]
    have hl : edgeLine (Params.opposite P) v m = edgeLine P v m := by
      funext r k
      rw [edgeLine, edgeLine, opposite_across]
      rfl
    have hE : edgesOf rnd fl (Params.opposite P) v m w h = edgesOf rnd fl P v m w h := by
      funext r
      rw [edgesOf, edgesOf, opposite_length, opposite_back, hl, lineEdges, lineEdges,
        allEdges_params (Q := Params.opposite P) (P := P) rfl rfl rfl rfl, allEdges_params (Q := Params.opposite P) (P := P) rfl rfl rfl rfl]
      refine choose_back (P := P) ?_ ?_ _
      · rw [Params.opposite]
        cases P.edge <;> simp
      · rw [Params.opposite]
        cases P.edge <;> simp
    have hco : ∀ r, edgeCoordinate rnd (Params.opposite P) v r = edgeCoordinate rnd P v r := by
      intro r
      rw [edgeCoordinate, edgeCoordinate, opposite_across]
      rfl
    have hup : ∀ r, placeUp rnd (Params.opposite P) v r = placeUp rnd P v r := by
      intro r
      funext e
      rw [placeUp, placeUp, hco, opposite_across]
    have hdown : ∀ r, placeDown rnd (Params.opposite P) v w h r = placeDown rnd P v w h r := by
      intro r
      funext e
      rw [placeDown, placeDown, hco, opposite_across]
    have u : ∀ E, upPoints rnd (Params.opposite P) v w h E = upPoints rnd P v w h E := by
      intro E
      rw [upPoints, upPoints, opposite_lines]
      exact flatMap_congr' fun r _ => by rw [hup]
    have d : ∀ E, downPoints rnd (Params.opposite P) v w h E = downPoints rnd P v w h E := by
      intro E
      rw [downPoints, downPoints, opposite_lines]
      exact flatMap_congr' fun r _ => by rw [hdown]
    have g1 : (Params.opposite P).gradient = .negative ↔ P.gradient = .positive := by
      rw [Params.opposite]
      cases P.gradient <;> simp
    have g2 : (Params.opposite P).gradient = .positive ↔ P.gradient = .negative := by
      rw [Params.opposite]
      cases P.gradient <;> simp
    rw [hE, positivePoints, negativePoints, positivePoints, negativePoints, u, d, opposite_back]
    simp only [g1, g2]
    cases edgeBack P <;> rfl
  · exact ⟨[], [], C57_short c (by omega), C57_short c' (by rw [opposite_length]; omega)⟩

/-! ### C94 : the first and the last edges -/

/-- Of the edges of every line the one nearest to the start of the scan: positions `(E r).1` are counted from the start of the line and `(E r).2` from its
    end. -/
def nearest (P : Params) (e : List ℚ × List ℚ) : List ℚ × List ℚ :=
  if edgeBack P then (e.1.getLast?.toList, e.2.head?.toList) else (e.1.head?.toList, e.2.getLast?.toList)

/-- The one farthest away from the start of the scan -/
def farthest (P : Params) (e : List ℚ × List ℚ) : List ℚ × List ℚ :=
  if edgeBack P then (e.1.head?.toList, e.2.getLast?.toList) else (e.1.getLast?.toList, e.2.head?.toList)

theorem leaveFirst_eq (l : List ℚ) : leaveFirst l = l.head?.toList := by
  rw [leaveFirst]
  match l with
  | [] => rfl
  | [a] => rfl
  | a :: b :: l => rfl

theorem leaveLast_eq (l : List ℚ) : leaveLast l = l.getLast?.toList := by
  rw [leaveLast]
  match l with
  | [] => rfl
  | [a] => rfl
  | a :: b :: l =>
    rw [if_pos (by simp), List.getLast?_eq_some_getLast (by simp), Option.toList_some, List.drop_length_sub_one (by simp)]

theorem lineEdges_nearest {rnd fl : ℚ → ℚ} (P : Params) (n : Nat) (D : Nat → Int) :
    lineEdges rnd fl { P with edge := .first } (!edgeBack P) n D = nearest P (lineEdges rnd fl { P with edge := .all } (!edgeBack P) n D) := by
  rw [lineEdges, lineEdges, allEdges_params (Q := { P with edge := .first }) (P := { P with edge := .all }) rfl rfl rfl rfl,
    allEdges_params (Q := { P with edge := .first }) (P := { P with edge := .all }) rfl rfl rfl rfl, choose, choose, nearest]
  cases edgeBack P <;> simp [leaveFirst_eq, leaveLast_eq]

theorem lineEdges_farthest {rnd fl : ℚ → ℚ} (P : Params) (n : Nat) (D : Nat → Int) :
    lineEdges rnd fl { P with edge := .last } (!edgeBack P) n D = farthest P (lineEdges rnd fl { P with edge := .all } (!edgeBack P) n D) := by
  rw [lineEdges, lineEdges, allEdges_params (Q := { P with edge := .last }) (P := { P with edge := .all }) rfl rfl rfl rfl,
    allEdges_params (Q := { P with edge := .last }) (P := { P with edge := .all }) rfl rfl rfl rfl, choose, choose, farthest]
  cases edgeBack P <;> simp [leaveFirst_eq, leaveLast_eq]

/-- C94: there is one list of edges for every line; it is what is found for `ALL`, its element nearest to the start of the scan is what is found for
    `FIRST`, the farthest one for `LAST`. -/
theorem C94_select {rnd fl : ℚ → ℚ} (R : Rounding rnd) {m : BMem} {v : View} {w h : Nat} {P : Params} (c : EdgeCall m v w h P) :
    ∃ E, (∀ r ∈ edgeLines P w h, (E r).1.Pairwise (· ≤ ·) ∧ (E r).2.Pairwise (· ≤ ·)) ∧
      find rnd fl v w h { P with edge := .all } m = .ok (positivePoints rnd P v w h E, negativePoints rnd P v w h E) m ∧
      find rnd fl v w h { P with edge := .first } m =
        .ok (positivePoints rnd P v w h (fun r => nearest P (E r)), negativePoints rnd P v w h (fun r => nearest P (E r))) m ∧
      find rnd fl v w h { P with edge := .last } m =
        .ok (positivePoints rnd P v w h (fun r => farthest P (E r)), negativePoints rnd P v w h (fun r => farthest P (E r))) m := by
  have c' : ∀ k, EdgeCall m v w h { P with edge := k } := fun k =>
    ⟨c.wf, c.fit, c.gray, c.group0, c.group, c.groupSmall, c.skip0, c.skip, c.contrast0, c.contrast, c.right⟩
  by_cases h4 : 4 ≤ edgeLength P w h
  · refine ⟨edgesOf rnd fl { P with edge := .all } v m w h, fun r _ => ?_, find_ok (c' _) h4, ?_, ?_⟩
    · obtain ⟨p1, p2⟩ := lineEdges_positions (fl := fl) R (P := { P with edge := .all }) (forward := !edgeBack { P with edge := .all })
        (D := edgeLine { P with edge := .all } v m r) (c' .all).length
      exact ⟨p1.apart.imp fun h => h.1, p2.apart.imp fun h => h.1⟩
    · have hk := find_ok (rnd := rnd) (fl := fl) (c' .first) h4
      have e : edgesOf rnd fl { P with edge := .first } v m w h = fun r => nearest P (edgesOf rnd fl { P with edge := .all } v m w h r) := by
        funext r
        exact lineEdges_nearest P _ _
      rw [e] at hk
      exact hk
    · have hk := find_ok (rnd := rnd) (fl := fl) (c' .last) h4
      have e : edgesOf rnd fl { P with edge := .last } v m w h = fun r => farthest P (edgesOf rnd fl { P with edge := .all } v m w h r) := by
        funext r
        exact lineEdges_farthest P _ _
      rw [e] at hk
      exact hk
  · refine ⟨fun _ => ([], []), fun r _ => ⟨List.Pairwise.nil, List.Pairwise.nil⟩, ?_, ?_, ?_⟩
    · rw [C57_short (c' _) (by show edgeLength P w h < 4; omega)]
      simp [positivePoints, negativePoints, upPoints, downPoints]
    · rw [C57_short (c' _) (by show edgeLength P w h < 4; omega)]
      simp [positivePoints, negativePoints, upPoints, downPoints, nearest]
    · rw [C57_short (c' _) (by show edgeLength P w h < 4; omega)]
      simp [positivePoints, negativePoints, upPoints, downPoints, farthest]

/-! ### Examples and disagreements -/

/-- A 6x2 image with a step between its third and fourth column, rows of 8 bytes; block 2 is its transpose with rows of 2 bytes. -/
def edgeMem : BMem := ⟨fun b => if b = 1 then 16 else if b = 2 then 12 else 0,
  fun b i => if b = 1 then [10, 10, 10, 200, 200, 200, 0, 0, 10, 10, 10, 200, 200, 200, 0, 0].getD i 0
    else [10, 10, 10, 10, 10, 10, 200, 200, 200, 200, 200, 200].getD i 0⟩

def edgeImg : View := ⟨⟨1, 6, 2, 1, 8⟩, 0, 0⟩
def edgeImgT : View := ⟨⟨2, 2, 6, 1, 2⟩, 0, 0⟩

def edgeParams : Params := ⟨.leftToRight, .any, .all, 1, 1, 0, 0, 10⟩

/-- The points found -/
def edgesFound (r : Res BMem (List (ℚ × ℚ) × List (ℚ × ℚ))) : Option (List (ℚ × ℚ) × List (ℚ × ℚ)) :=
  match r with
  | .ok e _ => some e
  | _ => none

theorem edgeCall_ex : EdgeCall edgeMem edgeImg 6 2 edgeParams :=
  ⟨⟨by decide, by decide, by decide⟩, ⟨by decide, by decide, by decide, by decide, by decide, by decide⟩, rfl, by decide, by decide, by decide, by decide,
    by decide, by decide, by decide, by decide⟩

theorem edgeCall_checked : EdgeCall edgeMem edgeImg 6 2 { edgeParams with left := 2, right := 3, group := 2 } :=
  ⟨⟨by decide, by decide, by decide⟩, ⟨by decide, by decide, by decide, by decide, by decide, by decide⟩, rfl, by decide, by decide, by decide, by decide,
    by decide, by decide, by decide, by decide⟩

example : edgeLines edgeParams 6 2 = [0, 1] := by decide
example : edgesFound (find id id edgeImg 6 2 edgeParams edgeMem) = some ([(5 / 2, 0), (5 / 2, 1)], []) := by decide +kernel
example : edgesFound (find id id edgeImg 6 2 { edgeParams with direction := .rightToLeft } edgeMem) = some ([], [(5 / 2, 0), (5 / 2, 1)]) := by
  decide +kernel
example : edgesFound (find id id edgeImg 6 2 { edgeParams with left := 2, right := 3, group := 2 } edgeMem) = some ([(5 / 2, 1 / 2)], []) := by
  decide +kernel

theorem edgeImg_pixel : ∀ x, x < 6 → ∀ y, y < 2 → edgeImg.get edgeMem x y 0 = if x < 3 then 10 else 200 := by decide

theorem edgeStep_ex : EdgeStep id edgeMem edgeImg 6 2 edgeParams 10 200 3 :=
  ⟨by decide, by decide, fun x y hx hy => edgeImg_pixel x hx y hy, by decide, Or.inl rfl⟩

theorem edgeStep_checked : EdgeStep id edgeMem edgeImg 6 2 { edgeParams with left := 2, right := 3, group := 2 } 10 200 3 :=
  ⟨by decide, by decide, fun x y hx hy => edgeImg_pixel x hx y hy, by decide, Or.inr (Or.inr ⟨by decide, by decide, fun _ _ => rfl, by decide, by decide⟩)⟩

example : find id id edgeImg 6 2 edgeParams edgeMem = .ok ([(5 / 2, 0), (5 / 2, 1)], []) edgeMem := by
  rw [C91_step Rounding.exact (fun _ _ => rfl) edgeCall_ex edgeStep_ex]
  have e : (edgeLines edgeParams 6 2).map (stepPoint edgeParams edgeImg 3) = [(5 / 2, 0), (5 / 2, 1)] := by decide +kernel
  rw [e]
  rfl

/-- Round-to-nearest of `double` meets the conditions of C91. -/
example {fl : ℚ → ℚ} {m : BMem} {v : View} {w h : Nat} {P : Params} (c : EdgeCall m v w h P) {a b : UInt8} {p : Nat} (s : EdgeStep fl m v w h P a b p) :
    find PV.double fl v w h P m = .ok
      (if (edgeBack P = false ↔ a < b) then (if P.gradient = .negative then [] else (edgeLines P w h).map (stepPoint P v p), [])
        else ([], if P.gradient = .positive then [] else (edgeLines P w h).map (stepPoint P v p))) m :=
  C91_step Rounding.double double_half c s

example : Transposed edgeMem edgeMem edgeImg edgeImgT 6 2 := ⟨rfl, rfl, fun x y hx hy =>
  (by decide : ∀ x, x < 6 → ∀ y, y < 2 → edgeImgT.get edgeMem y x 0 = edgeImg.get edgeMem x y 0) x hx y hy⟩
example : edgeImgT.img.WF edgeMem ∧ edgeImgT.Fits 2 6 :=
  ⟨⟨by decide, by decide, by decide⟩, ⟨by decide, by decide, by decide, by decide, by decide, by decide⟩⟩

/-- Two edges in a line: the first and the last one are told apart. -/
def stairMem : BMem := ⟨fun b => if b = 1 then 9 else 0, fun _ i => [0, 0, 0, 100, 100, 100, 250, 250, 250].getD i 0⟩
def stairImg : View := ⟨⟨1, 9, 1, 1, 9⟩, 0, 0⟩

example : EdgeCall stairMem stairImg 9 1 edgeParams :=
  ⟨⟨by decide, by decide, by decide⟩, ⟨by decide, by decide, by decide, by decide, by decide, by decide⟩, rfl, by decide, by decide, by decide, by decide,
    by decide, by decide, by decide, by decide⟩
example : edgesFound (find id id stairImg 9 1 edgeParams stairMem) = some ([(5 / 2, 0), (11 / 2, 0)], []) := by decide +kernel
example : edgesFound (find id id stairImg 9 1 { edgeParams with edge := .first } stairMem) = some ([(5 / 2, 0)], []) := by decide +kernel
example : edgesFound (find id id stairImg 9 1 { edgeParams with edge := .first, direction := .rightToLeft } stairMem) = some ([], [(11 / 2, 0)]) := by
  decide +kernel

/-- C57 is false if more lines are to be summed up than there are: the number of rows to look at wraps around and rows behind the end of the image are
    read. -/
theorem C57_wrong_group : isUb (find id id stairImg 9 1 { edgeParams with group := 3 } stairMem) = true := by
  decide +kernel

/-- C57 is false for a large right side contrast check offset: the sum `position + offset` wraps around and passes the check, values before the start of
    the line are summed up. -/
theorem C57_wrong_offset : isUb (find id id edgeImg 6 2 { edgeParams with left := 1, right := 4294967295 } edgeMem) = true := by
  decide +kernel

end PV.Props
