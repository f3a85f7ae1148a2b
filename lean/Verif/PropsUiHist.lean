import Verif.UiHist
/-
  C154: the picture of a histogram.
-/
namespace PV.Props

open PV PV.Ui PV.Simd

/-! ## Specification -/

/-- `lo` and `hi` are the smallest and the greatest number of the histogram. -/
structure Extremes (hist : List Nat) (lo hi : Nat) : Prop where
  low : lo ∈ hist ∧ ∀ v ∈ hist, lo ≤ v
  high : hi ∈ hist ∧ ∀ v ∈ hist, v ≤ hi

/-- The picture has one column per number of the histogram; column `x` is white from the bottom up
    to `bar v` pixels for its number `v`, and black above. -/
structure BarPicture (m : BMem) (img : Image) (hist : List Nat) (bar : Nat → Nat) : Prop where
  size : img.width = hist.length ∧ img.height = 100 ∧ img.cc = 1
  wf : img.WF m
  pixel : ∀ x v y, hist[x]? = some v → y < 100 →
    (View.mk img 0 0).get m x y 0 = if 100 - y ≤ bar v then 255 else 0

theorem extremes_found {hist : List Nat} {lo hi : Nat} (h : Extremes hist lo hi) :
    hist.min? = some lo ∧ hist.max? = some hi :=
  ⟨List.min?_eq_some_iff.2 h.low, List.max?_eq_some_iff.2 h.high⟩

/-- C154: for every histogram of numbers of 32 bits with two different values the function stays within
    the memory of its picture, which has bars of `(v - lo) * 100 mod 2^32 / (hi - lo)` pixels, and
    changes no other memory. -/
theorem C154_exact {m : BMem} {b : Nat} {hist : List Nat} {lo hi : Nat} (hb : b ≠ 0)
    (hsmall : hist.length * 100 < 4294967296) (he : Extremes hist lo hi) (hlt : lo < hi) :
    ∃ img m', displayHistogram b hist m = .ok (some img) m' ∧ img.data = b ∧
      BarPicture m' img hist (fun v => (v - lo) * 100 % 4294967296 / (hi - lo)) ∧
      ∀ c, c ≠ b → m'.size c = m.size c ∧ ∀ i, m'.byte c i = m.byte c i := by
  obtain ⟨e1, e2⟩ := extremes_found he
  have hpos : 0 < hist.length := List.length_pos_of_mem he.low.1
  have hn : u32 hist.length = hist.length := u32_of_lt (by omega)
  have hr : roundUp 1 (u32 (hist.length * 1)) = hist.length := by
    rw [Nat.mul_one, hn, roundUp, if_neg (by omega)]
  let img : Image := ⟨b, hist.length, 100, 1, hist.length⟩
  let m1 : BMem := { m with size := fun c => if c = b then 100 * hist.length else m.size c }
  have r1 : ownResize b (u32 hist.length) 100 ⟨⟨0, 0, 0, 1, 0⟩, 1⟩ m = .ok ⟨img, 1⟩ m1 := by
    rw [hn, ownResize, if_pos ⟨hpos, by omega, Or.inr (by decide)⟩]
    show ((allocBlock b (100 * roundUp 1 (u32 (hist.length * 1)))) >>= fun _ => pure _) m = _
    rw [hr]
    rfl
  have hs1 : m1.size b = 100 * hist.length := if_pos rfl
  have r2 : memsetC b 0 0 (100 * hist.length) m1 = .ok () (setRange m1 b 0 (100 * hist.length) fun _ => 0) :=
    memset_row fun t ht => ⟨hb, by rw [hs1]; omega⟩
  obtain ⟨m3, r3, w3⟩ := histColumns_ok (m := setRange m1 b 0 (100 * hist.length) fun _ => 0) (b := b) (hist := hist)
    hb hs1 hsmall hlt he.high.2
  have hsz : m3.size = m1.size := w3.size
  refine ⟨img, m3, ?_, rfl, ⟨⟨rfl, rfl, rfl⟩, ⟨?_, ?_, ?_⟩, ?_⟩, ?_⟩
  · unfold displayHistogram
    rw [e1, e2]
    show (if hi ≤ lo then _ else _ : M BMem (Option Image)) m = _
    rw [if_neg (by omega), bind_ok r1]
    show ((memsetC b 0 0 (100 * hist.length)) >>= fun _ => _) m1 = _
    rw [bind_ok r2]
    have hu : u32 (99 * hist.length) = 99 * hist.length := u32_of_lt (by omega)
    show ((histColumns b hist.length lo (hi - lo) hist (u32 (99 * hist.length))) >>= fun _ => _) _ = _
    rw [hu, bind_ok r3]
    rfl
  · show hist.length * 1 ≤ hist.length
    omega
  · show hist.length * 100 ≤ m3.size b
    rw [hsz, hs1]
    omega
  · exact hsmall
  · intro x v y hx hy
    have hxl : x < hist.length := (List.getElem?_eq_some_iff.1 hx).1
    have hcell : (View.mk img 0 0).get m3 x y 0 = m3.byte b (y * hist.length + x) := by
      show m3.byte b _ = _
      congr 1
      show (0 + y) * hist.length + (0 + x) * 1 + 0 = _
      rw [Nat.zero_add, Nat.zero_add, Nat.mul_one, Nat.add_zero]
    rw [hcell]
    have hle := histLimit_le hlt (he.high.2 v (List.mem_of_getElem? hx))
    show _ = if 100 - y ≤ histLimit lo (hi - lo) v then 255 else 0
    split
    · refine w3.on _ ⟨x, v, 99 - y, hx, by omega, ?_⟩
      congr 2
      omega
    · rename_i hno
      rw [w3.off]
      · have h1 : (y + 1) * hist.length ≤ 100 * hist.length := Nat.mul_le_mul_right _ hy
        rw [Nat.add_mul] at h1
        exact if_pos ⟨rfl, Nat.zero_le _, by omega⟩
      · rintro ⟨_, x', v', y', hx', hy', hi'⟩
        have hxl' : x' < hist.length := (List.getElem?_eq_some_iff.1 hx').1
        have hxx : x = x' := by
          have := congrArg (· % hist.length) hi'
          simpa [Nat.add_mod, Nat.mod_eq_of_lt hxl, Nat.mod_eq_of_lt hxl'] using this
        subst hxx
        rw [hx] at hx'
        cases hx'
        have : y = 99 - y' := Nat.eq_of_mul_eq_mul_right hpos (by omega)
        omega
  · intro c hc
    refine ⟨?_, fun i => ?_⟩
    · rw [hsz]
      exact if_neg hc
    · rw [w3.off c i fun h => hc h.1]
      exact if_neg fun h => hc h.1

/-- C154, the part that holds: when a hundred times the greatest difference still is a number of 32 bits,
    bars have the correct lengths in percent of the greatest one. -/
theorem C154_bars_partial {m : BMem} {b : Nat} {hist : List Nat} {lo hi : Nat} (hb : b ≠ 0)
    (hsmall : hist.length * 100 < 4294967296) (he : Extremes hist lo hi) (hlt : lo < hi)
    (hrange : (hi - lo) * 100 < 4294967296) :
    ∃ img m', displayHistogram b hist m = .ok (some img) m' ∧ img.data = b ∧
      BarPicture m' img hist (fun v => (v - lo) * 100 / (hi - lo)) ∧
      ∀ c, c ≠ b → m'.size c = m.size c ∧ ∀ i, m'.byte c i = m.byte c i := by
  obtain ⟨img, m', h1, h2, h3, h4⟩ := C154_exact (m := m) hb hsmall he hlt
  refine ⟨img, m', h1, h2, ⟨h3.size, h3.wf, fun x v y hx hy => ?_⟩, h4⟩
  rw [h3.pixel x v y hx hy]
  have hv := he.high.2 v (List.mem_of_getElem? hx)
  have : (v - lo) * 100 ≤ (hi - lo) * 100 := Nat.mul_le_mul_right _ (by omega)
  rw [Nat.mod_eq_of_lt (by omega)]

/-- C154: the smallest number has no bar and the greatest one the whole column. -/
theorem C154_ends {m : BMem} {b : Nat} {hist : List Nat} {lo hi : Nat} (hb : b ≠ 0)
    (hsmall : hist.length * 100 < 4294967296) (he : Extremes hist lo hi) (hlt : lo < hi)
    (hrange : (hi - lo) * 100 < 4294967296) :
    ∃ img m', displayHistogram b hist m = .ok (some img) m' ∧ ∀ x y, y < 100 →
      (hist[x]? = some lo → (View.mk img 0 0).get m' x y 0 = 0) ∧
      (hist[x]? = some hi → (View.mk img 0 0).get m' x y 0 = 255) := by
  obtain ⟨img, m', h1, _, h3, _⟩ := C154_bars_partial (m := m) hb hsmall he hlt hrange
  refine ⟨img, m', h1, fun x y hy => ⟨fun hx => ?_, fun hx => ?_⟩⟩
  · rw [h3.pixel x lo y hx hy, Nat.sub_self, Nat.zero_mul, Nat.zero_div, if_neg (by omega)]
  · rw [h3.pixel x hi y hx hy, Nat.mul_div_cancel_left _ (by omega), if_pos (by omega)]

/-- C154: nothing is shown for an empty histogram or for one with equal numbers. -/
theorem C154_nothing {m : BMem} {b : Nat} {hist : List Nat} (h : ∀ v ∈ hist, ∀ w ∈ hist, v = w) :
    displayHistogram b hist m = .ok none m := by
  cases hist with
  | nil => rfl
  | cons a l =>
    have he : Extremes (a :: l) a a :=
      ⟨⟨List.mem_cons_self .., fun v hv => Nat.le_of_eq (h a (List.mem_cons_self ..) v hv)⟩,
       ⟨List.mem_cons_self .., fun v hv => Nat.le_of_eq (h v hv a (List.mem_cons_self ..))⟩⟩
    obtain ⟨e1, e2⟩ := extremes_found he
    unfold displayHistogram
    rw [e1, e2]
    show (if a ≤ a then _ else _ : M BMem (Option Image)) m = _
    rw [if_pos (Nat.le_refl a)]
    rfl

/-- C154 is false for great numbers: the product overflows, and in the picture of a histogram of an image
    with 42949673 pixels of one value the column of this value is black, like the empty ones. -/
theorem C154_wrong {m : BMem} : ∃ img m', displayHistogram 1 [0, 42949673] m = .ok (some img) m' ∧
    ∀ x y, x < 2 → y < 100 → (View.mk img 0 0).get m' x y 0 = 0 := by
  obtain ⟨img, m', h1, _, h3, _⟩ := C154_exact (m := m) (b := 1) (hist := [0, 42949673]) (lo := 0) (hi := 42949673)
    (by decide) (by decide) ⟨⟨by decide, by decide⟩, by decide, by decide⟩ (by decide)
  refine ⟨img, m', h1, fun x y hx hy => ?_⟩
  rcases (by omega : x = 0 ∨ x = 1) with rfl | rfl
  · rw [h3.pixel 0 0 y rfl hy, if_neg]
    show ¬ 100 - y ≤ 0
    omega
  · rw [h3.pixel 1 42949673 y rfl hy, if_neg]
    show ¬ 100 - y ≤ 0
    omega

/-! ### Concrete cases -/

example : Extremes [7, 3, 12, 3] 3 12 := ⟨⟨by decide, by decide⟩, by decide, by decide⟩

example {m : BMem} : ∃ img m', displayHistogram 1 [7, 3, 12, 3] m = .ok (some img) m' ∧
    (View.mk img 0 0).get m' 0 56 0 = 255 ∧ (View.mk img 0 0).get m' 0 55 0 = 0 := by
  obtain ⟨img, m', h1, _, h3, _⟩ := C154_bars_partial (m := m) (b := 1) (hist := [7, 3, 12, 3]) (lo := 3) (hi := 12)
    (by decide) (by decide) ⟨⟨by decide, by decide⟩, by decide, by decide⟩ (by decide) (by decide)
  exact ⟨img, m', h1, (h3.pixel 0 7 56 rfl (by decide)).trans rfl, (h3.pixel 0 7 55 rfl (by decide)).trans rfl⟩

end PV.Props
