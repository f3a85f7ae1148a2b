import Verif.Filter
/-
  Lemmas about the model of src/filtering.cpp.
-/
namespace PV

open Simd

variable {α : Type}

theorem usub_of_le {a b : Nat} (h : b ≤ a) (ha : a < 4294967296) : usub a b = a - b := by
  rw [usub, u32]
  omega

/-! ### Parts of a rectangle -/

/-- The view moved by (a, b). -/
def View.part (v : View) (a b : Nat) : View := ⟨v.img, v.x + a, v.y + b⟩

theorem View.part_cell (v : View) (a b x y c : Nat) : (v.part a b).cell x y c = v.cell (a + x) (b + y) c := by
  simp only [View.cell, View.part, Nat.add_assoc]

theorem View.part_get (v : View) (m : Mem α) (a b x y c : Nat) : (v.part a b).get m x y c = v.get m (a + x) (b + y) c := by
  rw [View.get, View.part_cell]
  rfl

theorem View.part_fits {v : View} {w h a b w' h' : Nat} (f : v.Fits w h) (hw : 0 < w') (hh : 0 < h')
    (ha : a + w' ≤ w) (hb : b + h' ≤ h) : (v.part a b).Fits w' h' :=
  ⟨f.nonempty, f.colors, hw, hh, by have := f.inX; simp only [View.part]; omega,
    by have := f.inY; simp only [View.part]; omega⟩

theorem Apart.part {vi vo : View} {w h wo ho a b w' h' a' b' wo' ho' : Nat} (h1 : Apart vi w h vo wo ho)
    (ha : a + w' ≤ w) (hb : b + h' ≤ h) (ha' : a' + wo' ≤ wo) (hb' : b' + ho' ≤ ho) :
    Apart (vi.part a b) w' h' (vo.part a' b') wo' ho' := by
  intro x y c x' y' c' hx hy hc hx' hy' hc' hd
  rw [View.part_cell, View.part_cell]
  exact h1 _ _ _ _ _ _ (by omega) (by omega) hc (by omega) (by omega) hc' hd

theorem _root_.PV.Simd.Off.wf {m m1 : Mem α} {out : View} {w h : Nat} (ho : Off m m1 out w h) {img : Image} (wf : img.WF m) : img.WF m1 :=
  ⟨wf.row, by rw [ho.size_eq]; exact wf.block, wf.small⟩

theorem _root_.PV.Simd.Off.get {m m1 : Mem α} {out v : View} {w h wi hi : Nat} (ho : Off m m1 out w h) (hap : Apart v wi hi out w h)
    {x y c : Nat} (hx : x < wi) (hy : y < hi) (hc : c < v.img.cc) : v.get m1 x y c = v.get m x y c := by
  refine ho.outside _ _ ?_
  rintro ⟨hb, x', y', c', hx', hy', hc', he⟩
  exact hap _ _ _ _ _ _ hx hy hc hx' hy' hc' hb he

/-- The positions in `P` have their final value `F`, and nothing outside the rectangle changed. -/
structure Done (m m1 : Mem α) (out : View) (w h : Nat) (F : Nat → Nat → Nat → α) (P : Nat → Nat → Prop) : Prop where
  off : Off m m1 out w h
  val : ∀ x y c, x < w → y < h → c < out.img.cc → P x y → out.get m1 x y c = F x y c

theorem Done.start (m : Mem α) (out : View) (w h : Nat) (F : Nat → Nat → Nat → α) :
    Done m m out w h F fun _ _ => False :=
  ⟨Off.refl .., fun _ _ _ _ _ _ h => h.elim⟩

/-- Writing a part of the rectangle. -/
theorem Done.sub {m m1 m2 : Mem α} {out : View} {w h a b w' h' : Nat} {F G : Nat → Nat → Nat → α} {P : Nat → Nat → Prop}
    (wf : out.img.WF m) (fit : out.Fits w h)
    (d : Done m m1 out w h F P) (ha : a + w' ≤ w) (hb : b + h' ≤ h) (hw : WritesRoi m1 m2 (out.part a b) w' h' G)
    (hG : ∀ x y c, x < w' → y < h' → c < out.img.cc → G x y c = F (a + x) (b + y) c) :
    Done m m2 out w h F fun x y => P x y ∨ (a ≤ x ∧ x < a + w' ∧ b ≤ y ∧ y < b + h') := by
  refine ⟨⟨hw.size_eq.trans d.off.size_eq, fun bl i hi => ?_⟩, fun x y c hx hy hc hP => ?_⟩
  · rw [hw.outside bl i, d.off.outside bl i hi]
    rintro ⟨h1, x, y, c, hx, hy, hc, he⟩
    rw [View.part_cell] at he
    exact hi ⟨h1, _, _, c, (by omega : a + x < w), (by omega : b + y < h), hc, he⟩
  · by_cases hin : a ≤ x ∧ x < a + w' ∧ b ≤ y ∧ y < b + h'
    · have h1 := hw.inside (x - a) (y - b) c (by omega) (by omega) hc
      rw [View.part_get, hG _ _ _ (by omega) (by omega) hc, show a + (x - a) = x by omega,
        show b + (y - b) = y by omega] at h1
      exact h1
    · rw [← d.val x y c hx hy hc (hP.resolve_right hin)]
      refine hw.outside _ _ ?_
      rintro ⟨h1, x', y', c', hx', hy', hc', he⟩
      rw [View.part_cell] at he
      obtain ⟨e1, e2, _⟩ := cell_inj wf.row fit.inX hx hc (by omega : a + x' < w) hc' hy (by omega : b + y' < h) he
      exact hin (by omega)

theorem Done.writes {m m1 : Mem α} {out : View} {w h : Nat} {F : Nat → Nat → Nat → α} {P : Nat → Nat → Prop}
    (d : Done m m1 out w h F P) (hP : ∀ x y, x < w → y < h → P x y) : WritesRoi m m1 out w h F :=
  ⟨d.off.size_eq, fun x y c hx hy hc => d.val x y c hx hy hc (hP x y hx hy), d.off.outside⟩

/-! ### The window of `Median` -/

/-- The pixels of the window in the order of the loops. -/
def windowAt (m : BMem) (b row k p : Nat) : List UInt8 := (grid k k).map fun q => m.byte b (p + q.1 * row + q.2 * 1)

theorem storeAll_ok {m : BMem} {b : Nat} {pos : Nat × Nat → Nat} (L : List (Nat × Nat)) :
    ∀ (pre post : List UInt8), post.length = L.length → (∀ q ∈ L, m.Valid b (pos q)) →
    fold (fun q (s : List UInt8 × Nat) => do
      let v ← readC b (pos q)
      let d ← storeAt s.1 s.2 v
      pure (d, s.2 + 1)) L (pre ++ post, pre.length) m
      = .ok (pre ++ L.map fun q => m.byte b (pos q), pre.length + L.length) m := by
  induction L with
  | nil =>
    intro pre post hl _
    cases post with
    | nil => rfl
    | cons a l => simp at hl
  | cons q L ih =>
    intro pre post hl hv
    cases post with
    | nil => simp at hl
    | cons a l =>
      have h1 : (do
          let v ← readC b (pos q)
          let d ← storeAt (pre ++ a :: l) pre.length v
          pure (d, pre.length + 1) : M BMem (List UInt8 × Nat)) m
          = .ok (pre ++ [m.byte b (pos q)] ++ l, (pre ++ [m.byte b (pos q)]).length) m := by
        rw [bind_ok (readC_ok (hv q (List.mem_cons_self ..)))]
        have : (storeAt (pre ++ a :: l) pre.length (m.byte b (pos q)) : M BMem _) m
            = .ok (pre ++ [m.byte b (pos q)] ++ l) m := by
          rw [storeAt, if_pos (by simp)]
          simp
        rw [bind_ok this]
        simp
      rw [fold_cons, bind_ok h1, ih _ l (by simpa using hl) fun r hr => hv r (List.mem_cons_of_mem _ hr)]
      simp
      omega

theorem readWindow_ok {m : BMem} {b row k p : Nat} {data : List UInt8} (hr : 0 < row) (hfit : k * row < 4294967296)
    (hk : k < 4294967296) (hd : data.length = k * k) (hv : ∀ q ∈ grid k k, m.Valid b (p + q.1 * row + q.2 * 1)) :
    readWindow b row k p data m = .ok (windowAt m b row k p) m := by
  have e := rowLoop1_eq (μ := BMem) (row := row) (step := 1) (pY := p) (n := k) (height := k)
    (body := fun q (s : List UInt8 × Nat) => do
      let v ← readC b q
      let d ← storeAt s.1 s.2 v
      pure (d, s.2 + 1)) (data, 0) hr (by decide) hfit (by omega)
  rw [Nat.mul_one] at e
  rw [readWindow, e]
  have h1 := storeAll_ok (m := m) (b := b) (pos := fun q => p + q.1 * row + q.2 * 1) (grid k k) [] data
    (by rw [hd, length_grid]) hv
  rw [List.nil_append, List.length_nil] at h1
  rw [bind_ok h1]
  rfl

theorem length_windowAt (m : BMem) (b row k p : Nat) : (windowAt m b row k p).length = k * k := by
  rw [windowAt, List.length_map, length_grid]

/-- What the C++ standard guarantees for `std::nth_element( first, first + n, last )`: the range
    is permuted such that nothing before position `n` is greater, and nothing behind it less, than the
    element at position `n`. -/
structure NthElement (nth : List UInt8 → Nat → List UInt8) : Prop where
  perm : ∀ l n, n < l.length → (nth l n).Perm l
  before : ∀ l n i a v, n < l.length → i < n → (nth l n)[i]? = some a → (nth l n)[n]? = some v → a ≤ v
  behind : ∀ l n i a v, n < l.length → n < i → (nth l n)[i]? = some a → (nth l n)[n]? = some v → v ≤ a

/-- `v` is the median of the values `l`: at most half of them are less than `v`, and more than half of them
    are at most `v` (halves rounded down). -/
def IsMedian (l : List UInt8) (v : UInt8) : Prop :=
  (l.filter (· < v)).length ≤ l.length / 2 ∧ l.length / 2 < (l.filter (· ≤ v)).length

theorem IsMedian.unique {l : List UInt8} {v v' : UInt8} (h : IsMedian l v) (h' : IsMedian l v') : v = v' := by
  have key : ∀ {a b : UInt8}, IsMedian l a → IsMedian l b → ¬ a < b := by
    intro a b ha hb hlt
    have : (l.filter (· ≤ a)).length ≤ (l.filter (· < b)).length := by
      rw [← List.countP_eq_length_filter, ← List.countP_eq_length_filter]
      refine List.countP_mono_left fun x _ hx => ?_
      have hx' : x ≤ a := of_decide_eq_true hx
      refine decide_eq_true ?_
      rw [UInt8.lt_iff_toNat_lt] at *
      rw [UInt8.le_iff_toNat_le] at hx'
      omega
    have h1 := ha.2
    have h2 := hb.1
    omega
  have h1 := key h h'
  have h2 := key h' h
  apply UInt8.toNat_inj.1
  rw [UInt8.lt_iff_toNat_lt] at h1 h2
  omega

theorem nth_median {nth : List UInt8 → Nat → List UInt8} (hn : NthElement nth) {l : List UInt8} (hl : 0 < l.length) :
    ∃ v, (nth l (l.length / 2))[l.length / 2]? = some v ∧ IsMedian l v := by
  have hlt : l.length / 2 < l.length := Nat.div_lt_self hl (by decide)
  have hp := hn.perm l _ hlt
  have hb := hn.before l (l.length / 2)
  have hB := hn.behind l (l.length / 2)
  generalize hd : nth l (l.length / 2) = d at hp
  rw [hd] at hb hB
  have hdl := hp.length_eq
  generalize hk : l.length / 2 = n at *
  have hnd : n < d.length := by omega
  refine ⟨d[n], List.getElem?_eq_getElem hnd, ?_⟩
  have hv : d[n]? = some d[n] := List.getElem?_eq_getElem hnd
  generalize d[n] = v at hv
  have split : d = d.take n ++ v :: d.drop (n + 1) := by
    have h1 := List.take_append_drop n d
    have h2 : d.drop n = v :: d.drop (n + 1) := by
      rw [List.drop_eq_getElem_cons hnd]
      rw [List.getElem?_eq_getElem hnd] at hv
      injection hv with hv
      rw [hv]
    rw [h2] at h1
    exact h1.symm
  unfold IsMedian
  rw [hk, ← List.countP_eq_length_filter, ← List.countP_eq_length_filter, ← hp.countP_eq, ← hp.countP_eq]
  have htl : (d.take n).length = n := by rw [List.length_take]; omega
  constructor
  · rw [split, List.countP_append, List.countP_cons]
    have z : (d.drop (n + 1)).countP (· < v) = 0 := by
      rw [List.countP_eq_zero]
      intro a ha
      obtain ⟨i, hi⟩ := List.mem_iff_getElem?.1 ha
      rw [List.getElem?_drop] at hi
      have := hB (n + 1 + i) a v hlt (by omega) hi hv
      rw [decide_eq_true_eq, UInt8.lt_iff_toNat_lt]
      rw [UInt8.le_iff_toNat_le] at this
      omega
    have s : decide (v < v) = false := by
      rw [decide_eq_false_iff_not, UInt8.lt_iff_toNat_lt]
      omega
    have t := List.countP_le_length (p := fun x => decide (x < v)) (l := d.take n)
    rw [z, s]
    simp only [Bool.false_eq_true, ↓reduceIte]
    omega
  · rw [split, List.countP_append, List.countP_cons]
    have z : (d.take n).countP (· ≤ v) = (d.take n).length := by
      rw [List.countP_eq_length]
      intro a ha
      obtain ⟨i, hi⟩ := List.mem_iff_getElem?.1 ha
      rw [List.getElem?_take] at hi
      split at hi
      · rename_i hin
        exact decide_eq_true (hb i a v hlt hin hi hv)
      · simp at hi
    have s : decide (v ≤ v) = true := by
      rw [decide_eq_true_eq, UInt8.le_iff_toNat_le]
      exact Nat.le_refl _
    rw [z, s, htl]
    simp only [↓reduceIte]
    omega

theorem medianPixel_ok {nth : List UInt8 → Nat → List UInt8} (hn : NthElement nth) {m : BMem} {bi row bo k o p : Nat}
    {data : List UInt8} (hr : 0 < row) (hk0 : 0 < k) (hfit : k * row < 4294967296) (hk : k < 4294967296)
    (hd : data.length = k * k) (hv : ∀ q ∈ grid k k, m.Valid bi (p + q.1 * row + q.2 * 1)) (ho : m.Valid bo o)
    {v : UInt8} (hm : IsMedian (windowAt m bi row k p) v) :
    ∃ d', d'.length = k * k ∧ medianPixel nth bi row bo k o p data m = .ok d' (m.set bo o v) := by
  have hl := length_windowAt m bi row k p
  have hpos : 0 < (windowAt m bi row k p).length := by rw [hl]; exact Nat.mul_pos hk0 hk0
  obtain ⟨v', h1, h2⟩ := nth_median hn hpos
  have e := hm.unique h2
  subst e
  refine ⟨nth (windowAt m bi row k p) ((windowAt m bi row k p).length / 2), ?_, ?_⟩
  · rw [(hn.perm _ _ (Nat.div_lt_self hpos (by decide))).length_eq, hl]
  · rw [medianPixel, bind_ok (readWindow_ok hr hfit hk hd hv), h1]
    simp only [orUb_some, pure_bind']
    rw [bind_ok (writeC_ok _ ho)]
    rfl

/-- A fold whose carried value does not influence the memory. -/
theorem fold_carry {μ ι A : Type} {body : ι → A → M μ A} {g : ι → Unit → M μ Unit} {Inv : A → Prop} (L : List ι) :
    ∀ (a : A) (m m' : μ), Inv a →
    (∀ p ∈ L, ∀ a, Inv a → ∀ m1 m2, g p () m1 = .ok () m2 → ∃ a', Inv a' ∧ body p a m1 = .ok a' m2) →
    fold g L () m = .ok () m' → ∃ a', Inv a' ∧ fold body L a m = .ok a' m' := by
  induction L with
  | nil =>
    intro a m m' hi _ hf
    injection hf with _ hf
    subst hf
    exact ⟨a, hi, rfl⟩
  | cons p L ih =>
    intro a m m' hi hs hf
    rw [fold_cons] at hf
    obtain ⟨_, m1, h1, h2⟩ := bind_eq_ok.1 hf
    obtain ⟨a1, h3, h4⟩ := hs p (List.mem_cons_self ..) a hi m m1 h1
    obtain ⟨a2, h5, h6⟩ := ih a1 m1 m' h3 (fun q hq => hs q (List.mem_cons_of_mem _ hq)) h2
    exact ⟨a2, h5, by rw [fold_cons, bind_ok h4, h6]⟩

/-- `roi_writes` for gray-scale images. -/
theorem gray_writes {m : Mem α} {vo : View} {w h : Nat} (wf : vo.img.WF m) (fit : vo.Fits w h) (hcc : vo.img.cc = 1)
    {body : Nat × Nat → Unit → M (Mem α) Unit} {val : Nat → Nat → α}
    (hb : ∀ x y, x < w → y < h → ∀ m', OthersOnly m m' vo w h x y 0 →
      body (y, x) () m' = .ok () (m'.set vo.img.data (vo.cell x y 0) (val x y))) :
    ∃ m', fold body (grid h w) () m = .ok () m' ∧ WritesRoi m m' vo w h fun x y _ => val x y := by
  have h1 := roi_writes (L := (grid h w).map fun p => (p.2, p.1, 0)) (body := fun q => body (q.2.1, q.1))
    (val := fun x y _ => val x y) wf fit
    (nodup_map_inj (nodup_grid _ _) fun a _ b _ hab => by
      simp only [Prod.mk.injEq, and_true] at hab
      exact Prod.ext hab.2 hab.1)
    (fun p => by
      simp only [List.mem_map, mem_grid, hcc]
      constructor
      · rintro ⟨q, ⟨h1, h2⟩, rfl⟩
        exact ⟨h2, h1, Nat.zero_lt_one⟩
      · rintro ⟨h1, h2, h3⟩
        exact ⟨(p.2.1, p.1), ⟨h2, h1⟩, Prod.ext rfl (Prod.ext rfl (by simp only; omega))⟩)
    (fun x y c hx hy hc m' ho => by
      have : c = 0 := by omega
      subst this
      exact hb x y hx hy m' ho)
  rw [fold_map] at h1
  exact h1

/-- The value `Median` computes for a window. -/
def medianOf (nth : List UInt8 → Nat → List UInt8) (l : List UInt8) : UInt8 :=
  ((nth l (l.length / 2))[l.length / 2]?).getD 0

theorem medianOf_spec {nth : List UInt8 → Nat → List UInt8} (hn : NthElement nth) {l : List UInt8} (hl : 0 < l.length) :
    IsMedian l (medianOf nth l) := by
  obtain ⟨v, h1, h2⟩ := nth_median hn hl
  rw [medianOf, h1]
  exact h2

/-- The pixels of the `k` x `k` window whose first pixel is (x, y). -/
def window (v : View) (m : BMem) (x y k : Nat) : List UInt8 := (grid k k).map fun q => v.get m (x + q.2) (y + q.1) 0

theorem windowAt_eq {m0 m m' : BMem} {v : View} {w h x y k : Nat} (wf : v.img.WF m0) (fit : v.Fits w h) (hcc : v.img.cc = 1)
    (he : ∀ x y, x < w → y < h → v.get m' x y 0 = v.get m x y 0) (hx : x + k ≤ w) (hy : y + k ≤ h) :
    windowAt m' v.img.data v.img.rowSize k (v.start 1 + y * v.img.rowSize + x * 1) = window v m x y k := by
  refine List.map_congr_left fun q hq => ?_
  obtain ⟨h1, h2⟩ := mem_grid.1 hq
  rw [← he _ _ (by omega : x + q.2 < w) (by omega : y + q.1 < h), View.get, ← View.start_cell wf fit, hcc]
  congr 1
  rw [Nat.add_mul y]
  omega

/-- The middle part of `Median`. -/
theorem medianRows_ok {nth : List UInt8 → Nat → List UInt8} (hn : NthElement nth) {m : BMem} {inp out : View}
    {w h k : Nat} (wfi : inp.img.WF m) (wfo : out.img.WF m) (fiti : inp.Fits w h) (fito : out.Fits w h)
    (gi : inp.img.cc = 1) (go : out.img.cc = 1) (hk0 : 0 < k) (hkw : k ≤ w) (hkh : k ≤ h)
    {O : View} (hO : O = out.part (k / 2) (k / 2)) (hap : Apart inp w h O (w - (k - 1)) (h - (k - 1)))
    {data : List UInt8} (hd : data.length = k * k) :
    ∃ d m', rowLoop2 out.img.rowSize 1 inp.img.rowSize 1
        (medianPixel nth inp.img.data inp.img.rowSize out.img.data k) (O.start 1) (inp.start 1)
        (w - (k - 1)) (h - (k - 1)) data m = .ok d m' ∧
      WritesRoi m m' O (w - (k - 1)) (h - (k - 1)) fun x y _ => medianOf nth (window inp m x y k) := by
  have fitO : O.Fits (w - (k - 1)) (h - (k - 1)) := by
    rw [hO]
    exact View.part_fits fito (by omega) (by omega) (by omega) (by omega)
  have eO : O.img = out.img := by rw [hO]; rfl
  have wfO : O.img.WF m := by rw [eO]; exact wfo
  have gO : O.img.cc = 1 := by rw [eO]; exact go
  obtain ⟨_, hrO, _, _, _, hfO, _, _, hwO, _⟩ := View.facts wfO fitO
  obtain ⟨_, hrI, hrI', _, _, hfI, _, _, hwI, _⟩ := View.facts wfi fiti
  rw [gO] at hwO
  rw [eO] at hrO hfO
  rw [gi] at hwI
  have hkf : k * inp.img.rowSize < 4294967296 :=
    Nat.lt_of_le_of_lt (Nat.mul_le_mul_right _ hkh) hfI
  have e := rowLoop2_eq (μ := BMem) (row := out.img.rowSize) (step := 1) (row₁ := inp.img.rowSize) (step₁ := 1)
    (body := medianPixel nth inp.img.data inp.img.rowSize out.img.data k) (pY := O.start 1) (qY := inp.start 1)
    (n := w - (k - 1)) (height := h - (k - 1)) data hrO (by decide) hfO hwO
  rw [Nat.mul_one] at e
  rw [e]
  have hpos : ∀ x y, x < w - (k - 1) → y < h - (k - 1) → ∀ q ∈ grid k k,
      m.Valid inp.img.data (inp.start 1 + y * inp.img.rowSize + x * 1 + q.1 * inp.img.rowSize + q.2 * 1) := by
    intro x y hx hy q hq
    obtain ⟨h1, h2⟩ := mem_grid.1 hq
    have hv := View.cell_valid (x := x + q.2) (y := y + q.1) (c := 0) wfi fiti (by omega) (by omega) (by omega)
    rw [← View.start_cell wfi fiti, gi, Nat.add_mul] at hv
    rw [show inp.start 1 + y * inp.img.rowSize + x * 1 + q.1 * inp.img.rowSize + q.2 * 1
      = inp.start 1 + (y * inp.img.rowSize + q.1 * inp.img.rowSize) + ((x + q.2) * 1 + 0) by omega]
    exact hv
  have cellO : ∀ x y, O.start 1 + y * out.img.rowSize + x * 1 = O.cell x y 0 := by
    intro x y
    have := View.start_cell wfO fitO x y 0
    rw [gO, eO] at this
    exact this
  classical
  obtain ⟨m', h1, h2⟩ := gray_writes (m := m) wfO fitO gO
    (body := fun p _ m1 => if OthersOnly m m1 O (w - (k - 1)) (h - (k - 1)) p.2 p.1 0
      then .ok () (m1.set O.img.data (O.cell p.2 p.1 0) (medianOf nth (window inp m p.2 p.1 k))) else .ub)
    (val := fun x y => medianOf nth (window inp m x y k))
    (fun x y hx hy m' ho => by simp only; rw [if_pos ho])
  have h3 := fold_carry (Inv := fun d => d.length = k * k)
    (body := fun p => medianPixel nth inp.img.data inp.img.rowSize out.img.data k
      (O.start 1 + p.1 * out.img.rowSize + p.2 * 1) (inp.start 1 + p.1 * inp.img.rowSize + p.2 * 1))
    (grid (h - (k - 1)) (w - (k - 1))) data m m' hd (by
      intro p hp d hd m1 m2 hg
      obtain ⟨hy, hx⟩ := mem_grid.1 hp
      split at hg
      · rename_i ho
        injection hg with _ hg
        rw [← hg]
        have hw := windowAt_eq (m0 := m) (m := m) (m' := m1) (x := p.2) (y := p.1) (k := k) wfi fiti gi
          (fun x y hx hy => ho.get_apart hap hx hy (by omega)) (by omega) (by omega)
        have hvO : m1.Valid out.img.data (O.start 1 + p.1 * out.img.rowSize + p.2 * 1) := by
          rw [cellO]
          have := View.cell_valid (c := 0) wfO fitO hx hy (by omega)
          rw [eO] at this
          exact Mem.valid_of_size ho.size_eq this
        have hmed : IsMedian (windowAt m1 inp.img.data inp.img.rowSize k
            (inp.start 1 + p.1 * inp.img.rowSize + p.2 * 1)) (medianOf nth (window inp m p.2 p.1 k)) := by
          rw [hw]
          refine medianOf_spec hn ?_
          rw [window, List.length_map, length_grid]
          exact Nat.mul_pos hk0 hk0
        obtain ⟨d', h4, h5⟩ := medianPixel_ok hn (o := O.start 1 + p.1 * out.img.rowSize + p.2 * 1) (bo := out.img.data)
          hrI hk0 hkf (by omega) hd
          (fun q hq => Mem.valid_of_size ho.size_eq (hpos p.2 p.1 hx hy q hq)) hvO hmed
        refine ⟨d', h4, ?_⟩
        rw [h5, cellO, eO]
      · cases hg) h1
  obtain ⟨d, _, h3⟩ := h3
  exact ⟨d, m', h3, h2⟩

theorem Fits.sub_eq {v : View} {w h : Nat} {m : Mem α} (wf : v.img.WF m) (f : v.Fits w h) :
    v.x + w < 4294967296 ∧ v.y + h < 4294967296 := by
  obtain ⟨_, _, _, h1, h2, _⟩ := View.facts wf f
  have := f.inX
  have := f.inY
  omega

/-- Copying a part of the rectangle. -/
theorem Done.copy {m m1 : BMem} {inp out I O : View} {w h a b w' h' : Nat} {F : Nat → Nat → Nat → UInt8}
    {P : Nat → Nat → Prop} (wfi : inp.img.WF m) (wfo : out.img.WF m) (fiti : inp.Fits w h) (fito : out.Fits w h)
    (co : out.img.cc = inp.img.cc) (hap : Apart inp w h out w h)
    (d : Done m m1 out w h F P) (hI : I = inp.part a b) (hO : O = out.part a b) (ha : a + w' ≤ w) (hb : b + h' ≤ h)
    (hw : 0 < w') (hh : 0 < h')
    (hF : ∀ x y c, x < w' → y < h' → c < out.img.cc → F (a + x) (b + y) c = inp.get m (a + x) (b + y) c) :
    ∃ m2, CopyRoi I O w' h' m1 = .ok () m2 ∧
      Done m m2 out w h F fun x y => P x y ∨ (a ≤ x ∧ x < a + w' ∧ b ≤ y ∧ y < b + h') := by
  subst hI
  subst hO
  obtain ⟨m2, h1, h2⟩ := CopyRoi_rows (m := m1) (inp := inp.part a b) (out := out.part a b) (w := w') (h := h')
    (d.off.wf wfi) (d.off.wf wfo) (View.part_fits fiti hw hh ha hb) (View.part_fits fito hw hh ha hb) co
    (hap.part ha hb ha hb)
  refine ⟨m2, h1, d.sub wfo fito ha hb h2 fun x y c hx hy hc => ?_⟩
  rw [View.part_get, d.off.get hap (by omega) (by omega) (by rw [← co]; exact hc), hF x y c hx hy hc]

set_option maxHeartbeats 1000000 in
theorem Median_ok {nth : List UInt8 → Nat → List UInt8} (hn : NthElement nth) {m : BMem} {inp out : View}
    {w h k : Nat} (wfi : inp.img.WF m) (wfo : out.img.WF m) (fiti : inp.Fits w h) (fito : out.Fits w h)
    (gi : inp.img.cc = 1) (go : out.img.cc = 1) (hap : Apart inp w h out w h)
    (hk3 : 3 ≤ k) (hodd : k % 2 = 1) (hkw : k < w) (hkh : k < h) :
    ∃ m', Median nth inp out w h k m = .ok () m' ∧
      WritesRoi m m' out w h fun x y c =>
        if k / 2 ≤ x ∧ x < w - k / 2 ∧ k / 2 ≤ y ∧ y < h - k / 2
        then medianOf nth (window inp m (x - k / 2) (y - k / 2) k) else inp.get m x y c := by
  obtain ⟨hxi, hyi⟩ := Fits.sub_eq wfi fiti
  obtain ⟨hxo, hyo⟩ := Fits.sub_eq wfo fito
  obtain ⟨_, hrO, _, hwO, hhO, _, _, _, _, _⟩ := View.facts wfo fito
  obtain ⟨_, hrI, _, hwI, hhI, hfI, _, _, _, hrw⟩ := View.facts wfi fiti
  have hkk : k * k < 4294967296 := by
    refine Nat.lt_of_le_of_lt (Nat.mul_le_mul (Nat.le_of_lt hkh) ?_) hfI
    rw [gi] at hrw
    omega
  have e1 : usub (u32 (inp.y + h)) (k / 2) = inp.y + (h - k / 2) := by
    rw [u32_of_lt hyi, usub_of_le (by omega) hyi]; omega
  have e2 : usub (u32 (out.y + h)) (k / 2) = out.y + (h - k / 2) := by
    rw [u32_of_lt hyo, usub_of_le (by omega) hyo]; omega
  have e3 : u32 (inp.y + k / 2) = inp.y + k / 2 := u32_of_lt (by omega)
  have e4 : u32 (out.y + k / 2) = out.y + k / 2 := u32_of_lt (by omega)
  have e5 : usub k 1 = k - 1 := usub_of_le (by omega) (by omega)
  have e6 : usub h (k - 1) = h - (k - 1) := usub_of_le (by omega) (by omega)
  have e7 : usub w (k - 1) = w - (k - 1) := usub_of_le (by omega) (by omega)
  have e8 : usub (u32 (inp.x + w)) (k / 2) = inp.x + (w - k / 2) := by
    rw [u32_of_lt hxi, usub_of_le (by omega) hxi]; omega
  have e9 : usub (u32 (out.x + w)) (k / 2) = out.x + (w - k / 2) := by
    rw [u32_of_lt hxo, usub_of_le (by omega) hxo]; omega
  generalize hF : (fun x y c => if k / 2 ≤ x ∧ x < w - k / 2 ∧ k / 2 ≤ y ∧ y < h - k / 2
    then medianOf nth (window inp m (x - k / 2) (y - k / 2) k) else inp.get m x y c) = F
  have hFb : ∀ x y c, ¬ (k / 2 ≤ x ∧ x < w - k / 2 ∧ k / 2 ≤ y ∧ y < h - k / 2) → F x y c = inp.get m x y c := by
    intro x y c hc
    rw [← hF]
    exact if_neg hc
  have co : out.img.cc = inp.img.cc := by rw [gi, go]
  obtain ⟨m1, c1, d1⟩ := Done.copy (a := 0) (b := 0) (w' := w) (h' := k / 2) (I := inp) (O := out) wfi wfo fiti fito co hap
    (Done.start m out w h F) rfl rfl (by omega) (by omega) (by omega) (by omega)
    (fun x y c hx hy _ => hFb _ _ _ (by omega))
  obtain ⟨m2, c2, d2⟩ := Done.copy (a := 0) (b := h - k / 2) (w' := w) (h' := k / 2)
    (I := ⟨inp.img, inp.x, inp.y + (h - k / 2)⟩) (O := ⟨out.img, out.x, out.y + (h - k / 2)⟩) wfi wfo fiti fito co hap
    d1 rfl rfl (by omega) (by omega) (by omega) (by omega) (fun x y c hx hy _ => hFb _ _ _ (by omega))
  obtain ⟨m3, c3, d3⟩ := Done.copy (a := 0) (b := k / 2) (w' := k / 2) (h' := h - (k - 1))
    (I := ⟨inp.img, inp.x, inp.y + k / 2⟩) (O := ⟨out.img, out.x, out.y + k / 2⟩) wfi wfo fiti fito co hap
    d2 rfl rfl (by omega) (by omega) (by omega) (by omega) (fun x y c hx hy _ => hFb _ _ _ (by omega))
  obtain ⟨m4, c4, d4⟩ := Done.copy (a := w - k / 2) (b := k / 2) (w' := k / 2) (h' := h - (k - 1))
    (I := ⟨inp.img, inp.x + (w - k / 2), inp.y + k / 2⟩) (O := ⟨out.img, out.x + (w - k / 2), out.y + k / 2⟩)
    wfi wfo fiti fito co hap d3 rfl rfl (by omega) (by omega) (by omega) (by omega)
    (fun x y c hx hy _ => hFb _ _ _ (by omega))
  have hapO : Apart inp w h (out.part (k / 2) (k / 2)) (w - (k - 1)) (h - (k - 1)) := by
    have := hap.part (a := 0) (b := 0) (w' := w) (h' := h) (a' := k / 2) (b' := k / 2) (wo' := w - (k - 1))
      (ho' := h - (k - 1)) (by omega) (by omega) (by omega) (by omega)
    exact this
  obtain ⟨dd, m5, c5, w5⟩ := medianRows_ok hn (m := m4) (k := k) (data := List.replicate (u32 (k * k)) 0) (d4.off.wf wfi)
    (d4.off.wf wfo) fiti fito gi go (by omega) (by omega) (by omega) rfl hapO
    (by rw [List.length_replicate, u32_of_lt hkk])
  have d5 := d4.sub wfo fito (by omega) (by omega) w5 (fun x y c hx hy hc => by
    rw [← hF]
    simp only
    rw [if_pos (by omega), show k / 2 + x - k / 2 = x by omega, show k / 2 + y - k / 2 = y by omega]
    refine congrArg (medianOf nth) (List.map_congr_left fun q hq => ?_)
    obtain ⟨h1, h2⟩ := mem_grid.1 hq
    exact d4.off.get hap (by omega) (by omega) (by omega))
  have hst : u32 ((out.y + k / 2) * out.img.rowSize) + out.x + k / 2 = (out.part (k / 2) (k / 2)).start 1 := by
    have h1 : u32 (out.x + k / 2) = out.x + k / 2 := u32_of_lt (by omega)
    simp only [View.start, View.part, Nat.mul_one]
    rw [h1, Nat.add_assoc]
  refine ⟨m5, ?_, d5.writes fun x y hx hy => by omega⟩
  rw [Median, e1, e2, e3, e4, e5, e6, e7, e8, e9, hst]
  rw [bind_ok (validateRois_ok m (vs := [inp, out]) (by
      intro v hv
      simp only [List.mem_cons, List.not_mem_nil, or_false] at hv
      rcases hv with rfl | rfl
      · exact ⟨fiti, hwI, hhI⟩
      · exact ⟨fito, hwO, hhO⟩)),
    bind_ok (gray_ok (by simp [gi, go]))]
  have hthr : (decide (k < 3) || k % 2 == 0 || decide (k ≥ w) || decide (k ≥ h)) = false := by
    simp
    omega
  rw [hthr, throwIf_false, pure_bind', bind_ok c1, bind_ok c2, bind_ok c3, bind_ok c4, bind_ok c5]
  rfl

end PV
