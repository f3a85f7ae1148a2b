import Verif.Morph
import Verif.PropsDilate
import Verif.PropsPixel
/-
  C180: sequences of BinaryDilate and BinaryErode.
-/
namespace PV.Props
open PV

/-- Memories which agree inside and outside of a gray-scale rectangle are equal. -/
theorem roi_ext {m m' : BMem} {v : View} {w h : Nat} (hs : m'.size = m.size) (inside : ∀ x y, x < w → y < h → v.get m' x y 0 = v.get m x y 0)
    (outside : ∀ b j, (b = v.img.data → ∀ x y, x < w → y < h → j ≠ v.cell x y 0) → m'.byte b j = m.byte b j) : m' = m := by
  have hb : m'.byte = m.byte := by
    funext b j
    by_cases hc : b = v.img.data ∧ ∃ x y, x < w ∧ y < h ∧ j = v.cell x y 0
    · obtain ⟨rfl, x, y, hx, hy, rfl⟩ := hc
      exact inside x y hx hy
    · exact outside b j fun hb x y hx hy hj => hc ⟨hb, x, y, hx, hy, hj⟩
  cases m
  cases m'
  simp only at hs hb
  rw [hs, hb]

theorem Near.symm {d i j : Nat} (h : Near d i j) : Near d j i := ⟨h.2, h.1⟩

theorem Near.self (d i : Nat) : Near d i i := ⟨by omega, by omega⟩

/-- The two values: the one which is dilated and the other one -/
def TwoValues (a b : UInt8) : Prop := a = 255 ∧ b = 0 ∨ a = 0 ∧ b = 255

theorem TwoValues.ne {a b : UInt8} (V : TwoValues a b) : a ≠ b := by
  rcases V with ⟨rfl, rfl⟩ | ⟨rfl, rfl⟩ <;> decide

theorem TwoValues.or {a b : UInt8} (V : TwoValues a b) {x : UInt8} (h : x = 0 ∨ x = 255) : x = a ∨ x = b := by
  rcases V with ⟨rfl, rfl⟩ | ⟨rfl, rfl⟩
  · exact h.symm
  · exact h

theorem TwoValues.left {a b : UInt8} (V : TwoValues a b) : a = 0 ∨ a = 255 := by
  rcases V with ⟨rfl, rfl⟩ | ⟨rfl, rfl⟩
  · exact Or.inr rfl
  · exact Or.inl rfl

theorem TwoValues.symm {a b : UInt8} (V : TwoValues a b) : TwoValues b a := by
  rcases V with ⟨rfl, rfl⟩ | ⟨rfl, rfl⟩
  · exact Or.inr ⟨rfl, rfl⟩
  · exact Or.inl ⟨rfl, rfl⟩

/-- The other value is left exactly where all pixels nearby have it. -/
theorem Dilated.rest {m m' : BMem} {v : View} {w h dx dy : Nat} {a b : UInt8} (V : TwoValues a b) (r : Binary m v w h) (t : Dilated m m' v w h dx dy a)
    {x y : Nat} (hx : x < w) (hy : y < h) :
    v.get m' x y 0 = b ↔ ∀ x' y', x' < w → y' < h → Near dx x x' → Near dy y y' → v.get m x' y' 0 = b := by
  have hv := t.val x y hx hy
  constructor
  · intro hb x' y' hx' hy' nx ny
    refine (V.or (r.bin x' y' hx' hy')).resolve_left fun ha => ?_
    exact V.ne ((hv.2 ⟨x', y', hx', hy', nx, ny, ha⟩).symm.trans hb)
  · intro hall
    refine (V.or (t.bin x y hx hy)).resolve_left fun ha => ?_
    obtain ⟨x', y', hx', hy', nx, ny, ha'⟩ := hv.1 ha
    exact V.ne (ha'.symm.trans (hall x' y' hx' hy' nx ny))

/-- Dilating one value and then the other one does not remove the first one. -/
theorem close_more {m m1 m2 : BMem} {v : View} {w h dx dy : Nat} {a b : UInt8} (V : TwoValues a b) (r : Binary m v w h)
    (t1 : Dilated m m1 v w h dx dy a) (t2 : Dilated m1 m2 v w h dx dy b) {x y : Nat} (hx : x < w) (hy : y < h) (ha : v.get m x y 0 = a) :
    v.get m2 x y 0 = a := by
  rw [t2.rest V.symm (binary_of_dilated r t1) hx hy]
  intro x' y' hx' hy' nx ny
  exact (t1.val x' y' hx' hy').2 ⟨x, y, hx, hy, nx.symm, ny.symm, ha⟩

/-- Doing so again changes nothing. -/
theorem close_again {m m1 m2 m3 m4 : BMem} {v : View} {w h dx dy : Nat} {a b : UInt8} (V : TwoValues a b) (r : Binary m v w h)
    (t1 : Dilated m m1 v w h dx dy a) (t2 : Dilated m1 m2 v w h dx dy b) (t3 : Dilated m2 m3 v w h dx dy a) (t4 : Dilated m3 m4 v w h dx dy b) :
    m4 = m2 := by
  have r1 := binary_of_dilated r t1
  have r2 := binary_of_dilated r1 t2
  have r3 := binary_of_dilated r2 t3
  refine roi_ext (v := v) (w := w) (h := h) (by rw [t4.size_eq, t3.size_eq]) (fun x y hx hy => ?_)
    (fun b j hj => by rw [t4.outside b j hj, t3.outside b j hj])
  have key : v.get m4 x y 0 = a ↔ v.get m2 x y 0 = a := by
    constructor
    · intro h4
      rw [t4.rest V.symm r3 hx hy] at h4
      rw [t2.rest V.symm r1 hx hy]
      intro x' y' hx' hy' nx ny
      obtain ⟨x'', y'', hx'', hy'', nx', ny', h2⟩ := (t3.val x' y' hx' hy').1 (h4 x' y' hx' hy' nx ny)
      exact (t2.rest V.symm r1 hx'' hy'').1 h2 x' y' hx' hy' nx'.symm ny'.symm
    · exact close_more V r2 t3 t4 hx hy
  by_cases h2 : v.get m2 x y 0 = a
  · rw [h2, key.2 h2]
  · rw [(V.or (t2.bin x y hx hy)).resolve_left h2, (V.or (t4.bin x y hx hy)).resolve_left fun h => h2 (key.1 h)]

/-- Half-way points -/
theorem near_steps {d e i k n : Nat} (hi : i < n) (hk : k < n) : Near (d + e) i k ↔ ∃ j, j < n ∧ Near e i j ∧ Near d j k := by
  constructor
  · intro h
    unfold Near at *
    by_cases hik : i ≤ k
    · exact ⟨min k (i + e), by omega, by omega, by omega⟩
    · exact ⟨max k (i - e), by omega, by omega, by omega⟩
  · rintro ⟨j, _, h1, h2⟩
    unfold Near at *
    omega

/-- Dilating twice is dilating by the sums. -/
theorem dilated_sum {m m1 m2 : BMem} {v : View} {w h dx dy ex ey : Nat} {a : UInt8} (t1 : Dilated m m1 v w h dx dy a)
    (t2 : Dilated m1 m2 v w h ex ey a) : Dilated m m2 v w h (dx + ex) (dy + ey) a := by
  refine ⟨by rw [t2.size_eq, t1.size_eq], t2.bin, fun x y hx hy => ?_, fun b j hj => by rw [t2.outside b j hj, t1.outside b j hj]⟩
  rw [t2.val x y hx hy]
  constructor
  · rintro ⟨x', y', hx', hy', nx, ny, h1⟩
    obtain ⟨x'', y'', hx'', hy'', nx', ny', h0⟩ := (t1.val x' y' hx' hy').1 h1
    exact ⟨x'', y'', hx'', hy'', (near_steps hx hx'').2 ⟨x', hx', nx, nx'⟩, (near_steps hy hy'').2 ⟨y', hy', ny, ny'⟩, h0⟩
  · rintro ⟨x'', y'', hx'', hy'', nx, ny, h0⟩
    obtain ⟨x', hx', nx1, nx2⟩ := (near_steps hx hx'').1 nx
    obtain ⟨y', hy', ny1, ny2⟩ := (near_steps hy hy'').1 ny
    exact ⟨x', y', hx', hy', nx1, ny1, (t1.val x' y' hx' hy').2 ⟨x'', y'', hx'', hy'', nx2, ny2, h0⟩⟩

/-- The result of a dilation is determined. -/
theorem dilated_unique {m m2 m3 : BMem} {v : View} {w h dx dy : Nat} {a b : UInt8} (V : TwoValues a b) (t2 : Dilated m m2 v w h dx dy a)
    (t3 : Dilated m m3 v w h dx dy a) : m2 = m3 := by
  refine roi_ext (v := v) (w := w) (h := h) (by rw [t2.size_eq, t3.size_eq]) (fun x y hx hy => ?_)
    (fun b j hj => by rw [t2.outside b j hj, t3.outside b j hj])
  have key : v.get m2 x y 0 = a ↔ v.get m3 x y 0 = a := by rw [t2.val x y hx hy, t3.val x y hx hy]
  by_cases h3 : v.get m3 x y 0 = a
  · rw [h3, key.2 h3]
  · rw [(V.or (t3.bin x y hx hy)).resolve_left h3, (V.or (t2.bin x y hx hy)).resolve_left fun h => h3 (key.1 h)]

theorem whiteBlack : TwoValues 255 0 := Or.inl ⟨rfl, rfl⟩

theorem blackWhite : TwoValues 0 255 := Or.inr ⟨rfl, rfl⟩

/-! ### C180 -/

/-- C180: closing keeps every white pixel and everything outside of the rectangle, and doing it again changes nothing.

    Partial, as all of C180: the rectangle has to be narrower and lower than 2^31, see `C32_wide_wrong`. -/
theorem C180_closing_partial {m : BMem} {v : View} {w h : Nat} (r : Binary m v w h) (hw : 2 * w < 2 ^ 32) (hh : 2 * h < 2 ^ 32) (dx dy : Nat) :
    ∃ m', Closing v w h dx dy m = .ok () m' ∧ WritesRoi m m' v w h (fun x y _ => v.get m' x y 0) ∧
      (∀ x y, x < w → y < h → v.get m x y 0 = 255 → v.get m' x y 0 = 255) ∧ Closing v w h dx dy m' = .ok () m' := by
  obtain ⟨m1, e1, t1⟩ := dilate_done r hw hh (Or.inr rfl) dx dy
  have r1 := binary_of_dilated r t1
  obtain ⟨m2, e2, t2⟩ := dilate_done r1 hw hh (Or.inl rfl) dx dy
  have r2 := binary_of_dilated r1 t2
  obtain ⟨m3, e3, t3⟩ := dilate_done r2 hw hh (Or.inr rfl) dx dy
  obtain ⟨m4, e4, t4⟩ := dilate_done (binary_of_dilated r2 t3) hw hh (Or.inl rfl) dx dy
  refine ⟨m2, (bind_ok e1).trans e2, ?_, fun x y hx hy => close_more whiteBlack r t1 t2 hx hy, ?_⟩
  · have w1 := dilated_writes r t1
    have w2 := dilated_writes r1 t2
    exact ⟨by rw [w2.size_eq, w1.size_eq], w2.inside, fun b i hi => by rw [w2.outside b i hi, w1.outside b i hi]⟩
  · rw [← close_again whiteBlack r t1 t2 t3 t4] at e3 ⊢
    exact (bind_ok e3).trans e4

/-- C180: opening keeps every black pixel and everything outside of the rectangle, and doing it again changes nothing. -/
theorem C180_opening_partial {m : BMem} {v : View} {w h : Nat} (r : Binary m v w h) (hw : 2 * w < 2 ^ 32) (hh : 2 * h < 2 ^ 32) (dx dy : Nat) :
    ∃ m', Opening v w h dx dy m = .ok () m' ∧ WritesRoi m m' v w h (fun x y _ => v.get m' x y 0) ∧
      (∀ x y, x < w → y < h → v.get m x y 0 = 0 → v.get m' x y 0 = 0) ∧ Opening v w h dx dy m' = .ok () m' := by
  obtain ⟨m1, e1, t1⟩ := dilate_done r hw hh (Or.inl rfl) dx dy
  have r1 := binary_of_dilated r t1
  obtain ⟨m2, e2, t2⟩ := dilate_done r1 hw hh (Or.inr rfl) dx dy
  have r2 := binary_of_dilated r1 t2
  obtain ⟨m3, e3, t3⟩ := dilate_done r2 hw hh (Or.inl rfl) dx dy
  obtain ⟨m4, e4, t4⟩ := dilate_done (binary_of_dilated r2 t3) hw hh (Or.inr rfl) dx dy
  refine ⟨m2, (bind_ok e1).trans e2, ?_, fun x y hx hy => close_more blackWhite r t1 t2 hx hy, ?_⟩
  · have w1 := dilated_writes r t1
    have w2 := dilated_writes r1 t2
    exact ⟨by rw [w2.size_eq, w1.size_eq], w2.inside, fun b i hi => by rw [w2.outside b i hi, w1.outside b i hi]⟩
  · rw [← close_again blackWhite r t1 t2 t3 t4] at e3 ⊢
    exact (bind_ok e3).trans e4

/-- C180: two dilations (erosions) are one by the sums, as long as these are not more than half of the rectangle. -/
theorem C180_twice_partial {m : BMem} {v : View} {w h : Nat} (r : Binary m v w h) (hw : 2 * w < 2 ^ 32) (hh : 2 * h < 2 ^ 32) {dx dy ex ey : Nat}
    (hx : dx + ex ≤ w / 2) (hy : dy + ey ≤ h / 2) :
    (∃ m1 m2, BinaryDilate v w h dx dy m = .ok () m1 ∧ BinaryDilate v w h ex ey m1 = .ok () m2 ∧ BinaryDilate v w h (dx + ex) (dy + ey) m = .ok () m2) ∧
    ∃ m1 m2, BinaryErode v w h dx dy m = .ok () m1 ∧ BinaryErode v w h ex ey m1 = .ok () m2 ∧ BinaryErode v w h (dx + ex) (dy + ey) m = .ok () m2 := by
  have key : ∀ a b, TwoValues a b → ∃ m1 m2, Dilate v w h dx dy a m = .ok () m1 ∧ Dilate v w h ex ey a m1 = .ok () m2 ∧
      Dilate v w h (dx + ex) (dy + ey) a m = .ok () m2 := by
    intro a b V
    obtain ⟨m1, e1, t1⟩ := dilate_done r hw hh V.left dx dy
    obtain ⟨m2, e2, t2⟩ := dilate_done (binary_of_dilated r t1) hw hh V.left ex ey
    obtain ⟨m3, e3, t3⟩ := dilate_done r hw hh V.left (dx + ex) (dy + ey)
    rw [Nat.min_eq_left (show dx ≤ w / 2 by omega), Nat.min_eq_left (show dy ≤ h / 2 by omega)] at t1
    rw [Nat.min_eq_left (show ex ≤ w / 2 by omega), Nat.min_eq_left (show ey ≤ h / 2 by omega)] at t2
    rw [Nat.min_eq_left hx, Nat.min_eq_left hy] at t3
    refine ⟨m1, m2, e1, e2, ?_⟩
    rw [e3, dilated_unique V (dilated_sum t1 t2) t3]
  exact ⟨key 255 0 whiteBlack, key 0 255 blackWhite⟩

/-- C180: what two dilations do whatever the numbers are: white is every pixel near to a white one, where each number counts up to half of the rectangle;
    their order does not matter. -/
theorem C180_twice_exact {m : BMem} {v : View} {w h : Nat} (r : Binary m v w h) (hw : 2 * w < 2 ^ 32) (hh : 2 * h < 2 ^ 32) (dx dy ex ey : Nat) :
    ∃ m1 m1' m2, BinaryDilate v w h dx dy m = .ok () m1 ∧ BinaryDilate v w h ex ey m1 = .ok () m2 ∧
      BinaryDilate v w h ex ey m = .ok () m1' ∧ BinaryDilate v w h dx dy m1' = .ok () m2 ∧ WritesRoi m m2 v w h (fun x y _ => v.get m2 x y 0) ∧
      ∀ x y, x < w → y < h → (v.get m2 x y 0 = 255 ∨ v.get m2 x y 0 = 0) ∧
        (v.get m2 x y 0 = 255 ↔ ∃ x' y', x' < w ∧ y' < h ∧ Near (min dx (w / 2) + min ex (w / 2)) x x' ∧
          Near (min dy (h / 2) + min ey (h / 2)) y y' ∧ v.get m x' y' 0 = 255) := by
  obtain ⟨m1, e1, t1⟩ := dilate_done r hw hh (Or.inr rfl) dx dy
  have r1 := binary_of_dilated r t1
  obtain ⟨m2, e2, t2⟩ := dilate_done r1 hw hh (Or.inr rfl) ex ey
  obtain ⟨m1', e3, t3⟩ := dilate_done r hw hh (Or.inr rfl) ex ey
  obtain ⟨m2', e4, t4⟩ := dilate_done (binary_of_dilated r t3) hw hh (Or.inr rfl) dx dy
  have t := dilated_sum t1 t2
  have t' := dilated_sum t3 t4
  rw [Nat.add_comm (min ex _), Nat.add_comm (min ey _)] at t'
  rw [← dilated_unique whiteBlack t t'] at e4
  refine ⟨m1, m1', m2, e1, e2, e3, e4, ?_, fun x y hx hy => ⟨(t.bin x y hx hy).symm, t.val x y hx hy⟩⟩
  have w1 := dilated_writes r t1
  have w2 := dilated_writes r1 t2
  exact ⟨by rw [w2.size_eq, w1.size_eq], w2.inside, fun b i hi => by rw [w2.outside b i hi, w1.outside b i hi]⟩

/-- C180: eroding is dilating the inverted image and inverting the result. -/
theorem C180_dual_partial {m : BMem} {v : View} {w h : Nat} (r : Binary m v w h) (hw : 2 * w < 2 ^ 32) (hh : 2 * h < 2 ^ 32) (dx dy : Nat) :
    ∃ m1 m2 m3, Invert v v w h m = .ok () m1 ∧ BinaryDilate v w h dx dy m1 = .ok () m2 ∧ Invert v v w h m2 = .ok () m3 ∧
      BinaryErode v w h dx dy m = .ok () m3 := by
  have flip0 : ∀ a : UInt8, a = 0 ∨ a = 255 → UInt8.ofNat (255 - a.toNat) = 0 ∨ UInt8.ofNat (255 - a.toNat) = 255 := by
    rintro a (rfl | rfl)
    · exact Or.inr rfl
    · exact Or.inl rfl
  have flip1 : ∀ a : UInt8, a = 0 ∨ a = 255 → (UInt8.ofNat (255 - a.toNat) = 255 ↔ a = 0) := by
    rintro a (rfl | rfl) <;> decide
  have flip2 : ∀ a : UInt8, a = 0 ∨ a = 255 → (UInt8.ofNat (255 - a.toNat) = 0 ↔ a = 255) := by
    rintro a (rfl | rfl) <;> decide
  have c0 : 0 < v.img.cc := by rw [r.gray]; omega
  have out : ∀ {m m' : BMem} {F : Nat → Nat → Nat → UInt8}, WritesRoi m m' v w h F → ∀ b j,
      (b = v.img.data → ∀ x y, x < w → y < h → j ≠ v.cell x y 0) → m'.byte b j = m.byte b j := by
    intro m m' F W b j hj
    refine W.outside b j ?_
    rintro ⟨hb, x, y, c, hx, hy, hc, he⟩
    rw [r.gray] at hc
    rw [show c = 0 by omega] at he
    exact hj hb x y hx hy he
  obtain ⟨m1, e1, w1⟩ := C13_invert (m := m) ⟨r.wf, r.wf, r.fit, r.fit, rfl, noClash_self r.wf.row r.fit.inX⟩
  have wf1 := Image.WF.of_size r.wf w1.size_eq
  have r1 : Binary m1 v w h := ⟨⟨wf1, r.fit⟩, r.gray, fun x y hx hy => by
    rw [w1.inside x y 0 hx hy c0]
    exact flip0 _ (r.bin x y hx hy)⟩
  obtain ⟨m2, e2, t2⟩ := dilate_done r1 hw hh (Or.inr rfl) dx dy
  have wf2 := Image.WF.of_size wf1 t2.size_eq
  obtain ⟨m3, e3, w3⟩ := C13_invert (m := m2) ⟨wf2, wf2, r.fit, r.fit, rfl, noClash_self r.wf.row r.fit.inX⟩
  obtain ⟨m4, e4, t4⟩ := dilate_done r hw hh (Or.inl rfl) dx dy
  refine ⟨m1, m2, m3, e1, e2, e3, ?_⟩
  have e : m4 = m3 := by
    refine roi_ext (v := v) (w := w) (h := h) (by rw [t4.size_eq, w3.size_eq, t2.size_eq, w1.size_eq]) (fun x y hx hy => ?_)
      (fun b j hj => by rw [t4.outside b j hj, out w3 b j hj, t2.outside b j hj, out w1 b j hj])
    rw [w3.inside x y 0 hx hy c0]
    have b2 := t2.bin x y hx hy
    have key : v.get m4 x y 0 = 0 ↔ v.get m2 x y 0 = 255 := by
      rw [t4.val x y hx hy, t2.val x y hx hy]
      refine exists_congr fun x' => exists_congr fun y' => and_congr_right fun hx' => and_congr_right fun hy' => and_congr_right fun _ =>
        and_congr_right fun _ => ?_
      rw [w1.inside x' y' 0 hx' hy' c0, flip1 _ (r.bin x' y' hx' hy')]
    rcases b2 with b2 | b2
    · have h4 : v.get m4 x y 0 = 255 := (t4.bin x y hx hy).resolve_left fun h => by
        rw [key.1 h] at b2
        exact absurd b2 (by decide)
      rw [h4, b2]
      rfl
    · rw [key.2 b2, b2]
      rfl
  rw [← e]
  exact e4

/-- C180: the forms for whole images do so with all pixels of the image, and empty images are rejected. -/
theorem C180_whole_partial {m : BMem} {img : Image} (r : Binary m ⟨img, 0, 0⟩ img.width img.height) (hw : 2 * img.width < 2 ^ 32)
    (hh : 2 * img.height < 2 ^ 32) (dx dy : Nat) :
    (∃ m', BinaryDilateAll img dx dy m = .ok () m' ∧ WritesRoi m m' ⟨img, 0, 0⟩ img.width img.height (fun x y _ => View.get ⟨img, 0, 0⟩ m' x y 0) ∧
      ∀ x y, x < img.width → y < img.height → (View.get ⟨img, 0, 0⟩ m' x y 0 = 255 ∨ View.get ⟨img, 0, 0⟩ m' x y 0 = 0) ∧
        (View.get ⟨img, 0, 0⟩ m' x y 0 = 255 ↔ ∃ x' y', x' < img.width ∧ y' < img.height ∧ Near (min dx (img.width / 2)) x x' ∧
          Near (min dy (img.height / 2)) y y' ∧ View.get ⟨img, 0, 0⟩ m x' y' 0 = 255)) ∧
    ∃ m', BinaryErodeAll img dx dy m = .ok () m' ∧ WritesRoi m m' ⟨img, 0, 0⟩ img.width img.height (fun x y _ => View.get ⟨img, 0, 0⟩ m' x y 0) ∧
      ∀ x y, x < img.width → y < img.height → (View.get ⟨img, 0, 0⟩ m' x y 0 = 255 ∨ View.get ⟨img, 0, 0⟩ m' x y 0 = 0) ∧
        (View.get ⟨img, 0, 0⟩ m' x y 0 = 255 ↔ ∀ x' y', x' < img.width → y' < img.height → Near (min dx (img.width / 2)) x x' →
          Near (min dy (img.height / 2)) y y' → View.get ⟨img, 0, 0⟩ m x' y' 0 = 255) := by
  have e : validateImage img m = .ok () m := by
    rw [validateImage, show img.empty = false by simpa [Image.empty] using r.fit.nonempty,
      show isCorrectColorCount img = true by simp [isCorrectColorCount, show img.cc = 1 from r.gray]]
    rfl
  rw [BinaryDilateAll, BinaryErodeAll, bind_ok e, bind_ok e]
  exact ⟨C32_dilate_partial r hw hh dx dy, C32_erode_partial r hw hh dx dy⟩

/-- C180: empty images are rejected by the forms for whole images. -/
theorem C180_whole_rejects {m : BMem} {img : Image} (he : img.empty = true) (dx dy : Nat) :
    BinaryDilateAll img dx dy m = .throw m ∧ BinaryErodeAll img dx dy m = .throw m := by
  have e : validateImage img m = .throw m := by rw [validateImage, he]; rfl
  rw [BinaryDilateAll, BinaryErodeAll, bind_throw e, bind_throw e]
  exact ⟨rfl, rfl⟩

/-! ### Concrete cases -/

/-- Closing the image of two dots by one pixel keeps the dots. -/
example : ∃ m', Closing dotView 5 5 1 1 dotMem = .ok () m' ∧ dotView.get m' 1 1 0 = 255 :=
  let ⟨m', h1, _, h2, _⟩ := C180_closing_partial dot_binary (by decide) (by decide) 1 1
  ⟨m', h1, h2 1 1 (by decide) (by decide) (by decide)⟩

/-- Both forms on the whole image of two dots -/
example : ∃ m', BinaryErodeAll dotView.img 1 1 dotMem = .ok () m' ∧ dotView.get m' 1 1 0 ≠ 255 :=
  let ⟨m', h1, _, h2⟩ := (C180_whole_partial (img := dotView.img) dot_binary (by decide) (by decide) 1 1).2
  ⟨m', h1, fun h => absurd ((h2 1 1 (by decide) (by decide)).2.1 h 0 0 (by decide) (by decide) ⟨by decide, by decide⟩ ⟨by decide, by decide⟩) (by decide)⟩

/-- Dilating by one column and by three rows, in both orders -/
example := C180_twice_exact dot_binary (by decide) (by decide) 1 0 0 3

/-- What a program leaves in a pixel -/
def pixelAfter (x : Res BMem Unit) (v : View) (i j : Nat) : Option UInt8 :=
  match x with
  | .ok _ m => some (v.get m i j 0)
  | _ => none

/-- Closing fills the gap between pixels two columns apart, opening removes a single pixel. -/
example : pixelAfter (Closing ⟨⟨1, 5, 5, 1, 7⟩, 0, 0⟩ 5 5 1 0 ⟨fun _ => 35, fun _ i => if i = 8 ∨ i = 10 then 255 else 0⟩) dotView 2 1 = some 255 ∧
    pixelAfter (Opening dotView 5 5 1 1 dotMem) dotView 1 1 = some 0 := by decide +kernel

/-- The sum has to be at most half of the rectangle: two dilations by two pixels reach farther than one by four, which is taken as two. -/
theorem C180_twice_wrong : pixelAfter ((BinaryDilate dotView 5 5 2 2 >>= fun _ => BinaryDilate dotView 5 5 2 2) dotMem) dotView 0 4 = some 255 ∧
    pixelAfter (BinaryDilate dotView 5 5 4 4 dotMem) dotView 0 4 = some 0 := by decide +kernel

end PV.Props
