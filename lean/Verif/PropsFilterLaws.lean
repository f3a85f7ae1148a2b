import Verif.PropsSteps
import Verif.PropsFilter
/-
  C184: filters together with functions which change values or move pixels.
-/
namespace PV.FilterLaws
open PV PV.Props PV.Laws PV.Steps

theorem count_split (p : UInt8 → Bool) : ∀ l : List UInt8, l.length = l.countP p + l.countP fun x => !p x
  | [] => rfl
  | x :: l => by
    rw [List.length_cons, List.countP_cons, List.countP_cons, count_split p l]
    cases p x <;> simp <;> omega

theorem mirror_window {flag : Bool} {n k x g : Nat} (hodd : k % 2 = 1) (hg : g < k) (hx : x < n) (h1 : k / 2 ≤ mirror flag n x)
    (h2 : mirror flag n x < n - k / 2) : x - k / 2 + g < n ∧ mirror flag n x - k / 2 + mirror flag k g = mirror flag n (x - k / 2 + g) := by
  cases flag
  · have e : ∀ n i, mirror false n i = i := fun _ _ => rfl
    rw [e] at h1 h2
    rw [e, e, e]
    omega
  · have e : ∀ n i, mirror true n i = n - 1 - i := fun _ _ => rfl
    rw [e] at h1 h2
    rw [e, e, e]
    omega

theorem IsMedian.perm {l l' : List UInt8} {v : UInt8} (h : IsMedian l v) (hp : l.Perm l') : IsMedian l' v := by
  unfold IsMedian at *
  rw [← List.countP_eq_length_filter, ← List.countP_eq_length_filter] at *
  rw [← hp.countP_eq, ← hp.countP_eq, ← hp.length_eq]
  exact h

theorem IsMedian.mono {f : UInt8 → UInt8} (hf : ∀ a b, a ≤ b → f a ≤ f b) {l : List UInt8} {v : UInt8} (h : IsMedian l v) : IsMedian (l.map f) (f v) := by
  unfold IsMedian at *
  rw [← List.countP_eq_length_filter, ← List.countP_eq_length_filter] at *
  rw [List.countP_map, List.countP_map, List.length_map]
  refine ⟨Nat.le_trans (List.countP_mono_left fun x _ hx => ?_) h.1, Nat.lt_of_lt_of_le h.2 (List.countP_mono_left fun x _ hx => ?_)⟩
  · have hx' : f x < f v := of_decide_eq_true hx
    refine decide_eq_true ?_
    by_contra hc
    have := UInt8.le_iff_toNat_le.1 (hf v x (UInt8.le_iff_toNat_le.2 (by rw [UInt8.lt_iff_toNat_lt] at hc; omega)))
    rw [UInt8.lt_iff_toNat_lt] at hx'
    omega
  · have hx' : x ≤ v := of_decide_eq_true hx
    exact decide_eq_true (hf x v hx')

theorem IsMedian.anti {f : UInt8 → UInt8} (hf : ∀ a b, a ≤ b → f b ≤ f a) {l : List UInt8} (hl : l.length % 2 = 1) {v : UInt8} (h : IsMedian l v) :
    IsMedian (l.map f) (f v) := by
  unfold IsMedian at *
  rw [← List.countP_eq_length_filter, ← List.countP_eq_length_filter] at *
  rw [List.countP_map, List.countP_map, List.length_map]
  have s1 : l.length = l.countP (· ≤ v) + l.countP fun x => !decide (x ≤ v) := count_split _ _
  have s2 : l.length = l.countP (· < v) + l.countP fun x => !decide (x < v) := count_split _ _
  have t1 : l.countP ((fun x => decide (x < f v)) ∘ f) ≤ l.countP fun x => !decide (x ≤ v) := by
    refine List.countP_mono_left fun x _ hx => ?_
    have hx' : f x < f v := of_decide_eq_true hx
    rw [Bool.not_eq_true', decide_eq_false_iff_not]
    intro hc
    have := UInt8.le_iff_toNat_le.1 (hf x v hc)
    rw [UInt8.lt_iff_toNat_lt] at hx'
    omega
  have t2 : (l.countP fun x => !decide (x < v)) ≤ l.countP ((fun x => decide (x ≤ f v)) ∘ f) := by
    refine List.countP_mono_left fun x _ hx => ?_
    rw [Bool.not_eq_true', decide_eq_false_iff_not, UInt8.lt_iff_toNat_lt] at hx
    exact decide_eq_true (hf v x (UInt8.le_iff_toNat_le.2 (by omega)))
  omega

/-- What Median writes to a pixel -/
def MedianAt (m : BMem) (v : View) (w h k x y : Nat) (b : UInt8) : Prop :=
  (k / 2 ≤ x ∧ x < w - k / 2 ∧ k / 2 ≤ y ∧ y < h - k / 2 → IsMedian (window v m (x - k / 2) (y - k / 2) k) b) ∧
    (¬ (k / 2 ≤ x ∧ x < w - k / 2 ∧ k / 2 ≤ y ∧ y < h - k / 2) → b = v.get m x y 0)

theorem MedianAt.unique {m : BMem} {v : View} {w h k x y : Nat} {b b' : UInt8} (h1 : MedianAt m v w h k x y b) (h2 : MedianAt m v w h k x y b') :
    b = b' := by
  by_cases hin : k / 2 ≤ x ∧ x < w - k / 2 ∧ k / 2 ≤ y ∧ y < h - k / 2
  · exact (h1.1 hin).unique (h2.1 hin)
  · rw [h1.2 hin, h2.2 hin]

theorem median {nth : List UInt8 → Nat → List UInt8} (hn : NthElement nth) {m : BMem} {a p : View} {w h k : Nat} (oa : Own m w h 1 a)
    (op : Own m w h 1 p) (ap : a.img.data ≠ p.img.data) (hk3 : 3 ≤ k) (hodd : k % 2 = 1) (hkw : k < w) (hkh : k < h) :
    ∃ m' F, Median nth a p w h k m = .ok () m' ∧ WritesRoi m m' p w h F ∧ ∀ x y, x < w → y < h → MedianAt m a w h k x y (p.get m' x y 0) := by
  obtain ⟨m', F, e, W, h1, h2⟩ := C55_median hn (m := m) (inp := a) (out := p) ⟨oa.wf, op.wf, oa.fit, op.fit, oa.colors, op.colors⟩
    (apart_of_ne _ _ _ _ ap) hk3 hodd hkw hkh
  refine ⟨m', F, e, W, fun x y hx hy => ?_⟩
  rw [W.inside x y 0 hx hy (by rw [op.colors]; decide)]
  exact ⟨fun hin => h1 x y hin.1 hin.2.1 hin.2.2.1 hin.2.2.2, fun hin => h2 x y hx hy hin⟩

theorem length_window (v : View) (m : BMem) (x y k : Nat) : (window v m x y k).length = k * k := by
  rw [window, List.length_map, length_grid]

/-- The same values elsewhere: Median sees only the window around the pixel. -/
theorem MedianAt.moved {m m' : BMem} {v v' : View} {w h w' h' k x y x' y' : Nat} {b : UInt8} {f : UInt8 → UInt8}
    (hf : (∀ a b, a ≤ b → f a ≤ f b) ∨ (∀ a b, a ≤ b → f b ≤ f a) ∧ k % 2 = 1)
    (hin : (k / 2 ≤ x ∧ x < w - k / 2 ∧ k / 2 ≤ y ∧ y < h - k / 2) ↔ (k / 2 ≤ x' ∧ x' < w' - k / 2 ∧ k / 2 ≤ y' ∧ y' < h' - k / 2))
    (hwin : k / 2 ≤ x ∧ x < w - k / 2 ∧ k / 2 ≤ y ∧ y < h - k / 2 →
      ((window v m (x - k / 2) (y - k / 2) k).map f).Perm (window v' m' (x' - k / 2) (y' - k / 2) k))
    (hp : f (v.get m x y 0) = v'.get m' x' y' 0) (hb : MedianAt m v w h k x y b) : MedianAt m' v' w' h' k x' y' (f b) := by
  refine ⟨fun hi => ?_, fun hi => ?_⟩
  · have hi' := hin.2 hi
    refine IsMedian.perm ?_ (hwin hi')
    rcases hf with hf | ⟨hf, hodd⟩
    · exact IsMedian.mono hf (hb.1 hi')
    · exact IsMedian.anti hf (by rw [length_window, Nat.mul_mod, hodd]) (hb.1 hi')
  · rw [hb.2 fun hc => hi (hin.1 hc), hp]

/-- A whole gray-scale image -/
structure Whole (m : BMem) (w h : Nat) (v : View) : Prop where
  own : Own m w h 1 v
  left : v.x = 0
  top : v.y = 0
  width : v.img.width = w
  height : v.img.height = h

theorem Whole.keep {m m' : BMem} {w h : Nat} {v : View} (o : Whole m w h v) (hs : m'.size = m.size) : Whole m' w h v :=
  ⟨Own.keep o.own hs, o.left, o.top, o.width, o.height⟩

/-- The values around a pixel -/
def around (m : BMem) (v : View) (x y dx dy : Nat) : Int := (v.get m (x - 1 + dx) (y - 1 + dy) 0).toNat

/-- What Prewitt and Sobel write to a pixel of a whole image -/
def gradAt (T : Nat → Nat → UInt8) (G : (Nat → Nat → Int) → Int × Int) (m : BMem) (v : View) (w h x y : Nat) : UInt8 :=
  if x = 0 ∨ y = 0 ∨ x + 1 = w ∨ y + 1 = h then 0 else T (G (around m v x y)).1.natAbs (G (around m v x y)).2.natAbs

theorem gradSpec_whole {T : Nat → Nat → UInt8} {G : (Nat → Nat → Int) → Int × Int} {m : BMem} {v : View} {w h x y : Nat} (o : Whole m w h v) :
    gradSpec T G v m w h x y = gradAt T G m v w h x y := by
  have hn : near v.img m x y = around m v x y := by
    funext dx dy
    simp only [near, around, Image.pix, View.get, View.cell, o.left, o.top, o.own.colors, Nat.zero_add, Nat.mul_one, Nat.add_zero]
  rw [gradSpec, gradAt, o.left, o.top, o.width, o.height, Nat.zero_add, Nat.zero_add, hn]
  exact if_congr (by omega) rfl rfl

/-- Filters with two gradients of this kind -/
structure GradFilter (F : (Nat → Nat → UInt8) → View → View → Nat → Nat → M BMem Unit) (G : (Nat → Nat → Int) → Int × Int) : Prop where
  run : ∀ (T : Nat → Nat → UInt8) {m : BMem} {a p : View} {w h : Nat}, Whole m w h a → Own m w h 1 p → a.img.data ≠ p.img.data → 3 ≤ w → 3 ≤ h →
    ∃ m', F T a p w h m = .ok () m' ∧ WritesRoi m m' p w h fun x y _ => gradAt T G m a w h x y
  inv : ∀ n n' : Nat → Nat → Int, (∀ i j, i < 3 → j < 3 → n' i j = 255 - n i j) →
    (G n').1.natAbs = (G n).1.natAbs ∧ (G n').2.natAbs = (G n).2.natAbs
  same : ∀ n n' : Nat → Nat → Int, (∀ i j, i < 3 → j < 3 → n' i j = n i j) → G n' = G n
  flat : ∀ (n : Nat → Nat → Int) (c : Int), (∀ i j, i < 3 → j < 3 → n i j = c) → G n = (0, 0)
  flipX : ∀ n n' : Nat → Nat → Int, (∀ i j, i < 3 → j < 3 → n' i j = n (2 - i) j) →
    (G n').1.natAbs = (G n).1.natAbs ∧ (G n').2.natAbs = (G n).2.natAbs
  flipY : ∀ n n' : Nat → Nat → Int, (∀ i j, i < 3 → j < 3 → n' i j = n i (2 - j)) →
    (G n').1.natAbs = (G n).1.natAbs ∧ (G n').2.natAbs = (G n).2.natAbs
  turn : ∀ n n' : Nat → Nat → Int, (∀ i j, i < 3 → j < 3 → n' i j = n j i) →
    (G n').1.natAbs = (G n).2.natAbs ∧ (G n').2.natAbs = (G n).1.natAbs

theorem nine {P : Nat → Nat → Prop} (h : ∀ i j, i < 3 → j < 3 → P i j) :
    P 0 0 ∧ P 1 0 ∧ P 2 0 ∧ P 0 1 ∧ P 1 1 ∧ P 2 1 ∧ P 0 2 ∧ P 1 2 ∧ P 2 2 :=
  ⟨h 0 0 (by decide) (by decide), h 1 0 (by decide) (by decide), h 2 0 (by decide) (by decide), h 0 1 (by decide) (by decide),
    h 1 1 (by decide) (by decide), h 2 1 (by decide) (by decide), h 0 2 (by decide) (by decide), h 1 2 (by decide) (by decide),
    h 2 2 (by decide) (by decide)⟩

theorem whole_apart {a p : View} {w h : Nat} (ap : a.img.data ≠ p.img.data) : ApartAround a p w h := apart_of_ne _ _ _ _ ap

theorem prewittFilter : GradFilter Prewitt prewittG := by
  refine ⟨fun T m a p w h oa op ap hw hh => ?_, fun n n' hh => ?_, fun n n' hh => ?_, fun n c hh => ?_, fun n n' hh => ?_, fun n n' hh => ?_,
    fun n n' hh => ?_⟩
  · obtain ⟨m', e, W⟩ := C56_prewitt T ⟨oa.own.wf, op.wf, oa.own.fit, op.fit, oa.own.colors, op.colors⟩ (whole_apart ap) hw hh
    simp only [gradSpec_whole oa] at W
    exact ⟨m', e, W⟩
  · obtain ⟨h1, h2, h3, h4, h5, h6, h7, h8, h9⟩ := nine hh
    simp only [prewittG, conv, h1, h2, h3, h4, h5, h6, h7, h8, h9]
    omega
  · obtain ⟨h1, h2, h3, h4, h5, h6, h7, h8, h9⟩ := nine hh
    simp only [prewittG, conv, h1, h2, h3, h4, h5, h6, h7, h8, h9]
  · obtain ⟨h1, h2, h3, h4, h5, h6, h7, h8, h9⟩ := nine hh
    simp only [prewittG, conv, h1, h2, h3, h4, h5, h6, h7, h8, h9, Prod.mk.injEq]
    omega
  · obtain ⟨h1, h2, h3, h4, h5, h6, h7, h8, h9⟩ := nine hh
    simp only [prewittG, conv, h1, h2, h3, h4, h5, h6, h7, h8, h9, Nat.sub_zero, Nat.reduceSub]
    omega
  · obtain ⟨h1, h2, h3, h4, h5, h6, h7, h8, h9⟩ := nine hh
    simp only [prewittG, conv, h1, h2, h3, h4, h5, h6, h7, h8, h9, Nat.sub_zero, Nat.reduceSub]
    omega
  · obtain ⟨h1, h2, h3, h4, h5, h6, h7, h8, h9⟩ := nine hh
    simp only [prewittG, conv, h1, h2, h3, h4, h5, h6, h7, h8, h9]
    omega

theorem sobelFilter : GradFilter Sobel sobelG := by
  refine ⟨fun T m a p w h oa op ap hw hh => ?_, fun n n' hh => ?_, fun n n' hh => ?_, fun n c hh => ?_, fun n n' hh => ?_, fun n n' hh => ?_,
    fun n n' hh => ?_⟩
  · obtain ⟨m', e, W⟩ := C56_sobel T ⟨oa.own.wf, op.wf, oa.own.fit, op.fit, oa.own.colors, op.colors⟩ (whole_apart ap) hw hh
    simp only [gradSpec_whole oa] at W
    exact ⟨m', e, W⟩
  · obtain ⟨h1, h2, h3, h4, h5, h6, h7, h8, h9⟩ := nine hh
    simp only [sobelG, conv, h1, h2, h3, h4, h5, h6, h7, h8, h9]
    omega
  · obtain ⟨h1, h2, h3, h4, h5, h6, h7, h8, h9⟩ := nine hh
    simp only [sobelG, conv, h1, h2, h3, h4, h5, h6, h7, h8, h9]
  · obtain ⟨h1, h2, h3, h4, h5, h6, h7, h8, h9⟩ := nine hh
    simp only [sobelG, conv, h1, h2, h3, h4, h5, h6, h7, h8, h9, Prod.mk.injEq]
    omega
  · obtain ⟨h1, h2, h3, h4, h5, h6, h7, h8, h9⟩ := nine hh
    simp only [sobelG, conv, h1, h2, h3, h4, h5, h6, h7, h8, h9, Nat.sub_zero, Nat.reduceSub]
    omega
  · obtain ⟨h1, h2, h3, h4, h5, h6, h7, h8, h9⟩ := nine hh
    simp only [sobelG, conv, h1, h2, h3, h4, h5, h6, h7, h8, h9, Nat.sub_zero, Nat.reduceSub]
    omega
  · obtain ⟨h1, h2, h3, h4, h5, h6, h7, h8, h9⟩ := nine hh
    simp only [sobelG, conv, h1, h2, h3, h4, h5, h6, h7, h8, h9]
    omega

theorem grad_of {F : (Nat → Nat → UInt8) → View → View → Nat → Nat → M BMem Unit} (hF : (F = Prewitt ∨ F = Sobel)) : ∃ G, GradFilter F G := by
  rcases hF with rfl | rfl
  · exact ⟨_, prewittFilter⟩
  · exact ⟨_, sobelFilter⟩

end PV.FilterLaws

namespace PV.Props
open PV.Laws PV.Steps PV.FilterLaws

/-- C184: the median of an image whose values are changed by an increasing or a decreasing table is the median changed by the table. -/
theorem C184_median_table {nth : List UInt8 → Nat → List UInt8} (hn : NthElement nth) {m : BMem} {w h k : Nat} {a p q s : View}
    (oa : Own m w h 1 a) (op : Own m w h 1 p) (oq : Own m w h 1 q) (os : Own m w h 1 s)
    (hd : [a.img.data, p.img.data, q.img.data, s.img.data].Nodup) (hk3 : 3 ≤ k) (hodd : k % 2 = 1) (hkw : k < w) (hkh : k < h)
    (f : UInt8 → UInt8) (hf : (∀ a b, a ≤ b → f a ≤ f b) ∨ ∀ a b, a ≤ b → f b ≤ f a) :
    ∃ m1 m2 m3 m4, LookupTable a p w h (tableOf f) m = .ok () m1 ∧ Median nth p q w h k m1 = .ok () m2 ∧ Median nth a s w h k m2 = .ok () m3 ∧
      LookupTable s s w h (tableOf f) m3 = .ok () m4 ∧ IsEqual q s w h m4 = .ok true m4 := by
  simp only [List.nodup_cons, List.mem_cons, List.not_mem_nil, not_or, or_false, not_false_eq_true, List.nodup_nil, and_true] at hd
  obtain ⟨⟨ap, aq, as⟩, ⟨pq, ps⟩, qs⟩ := hd
  obtain ⟨m1, e1, w1⟩ := C15_lookupTable _ (tableOf_length f) (oa.ready1 op ap)
  simp only [tableOf_get] at w1
  obtain ⟨m2, F2, e2, w2, h2⟩ := median hn (op.after w1) (oq.after w1) pq hk3 hodd hkw hkh
  obtain ⟨m3, F3, e3, w3, h3⟩ := median hn ((oa.after w1).after w2) ((os.after w1).after w2) as hk3 hodd hkw hkh
  obtain ⟨m4, e4, w4⟩ := C15_lookupTable _ (tableOf_length f) (((os.after w1).after w2).after w3).here
  simp only [tableOf_get] at w4
  refine ⟨m1, m2, m3, m4, e1, e2, e3, e4, equal_of ((((oq.after w1).after w2).after w3).after w4) ((((os.after w1).after w2).after w3).after w4)
    fun x y c hx hy hc => ?_⟩
  obtain rfl : c = 0 := by omega
  have ha : ∀ x y c, a.get m2 x y c = a.get m x y c := fun x y c => by rw [keeps w2 aq, keeps w1 ap]
  rw [keeps w4 qs, keeps w3 qs, w4.inside x y 0 hx hy (by rw [os.colors]; decide)]
  refine (h2 x y hx hy).unique (MedianAt.moved (m := m2) (v := a) (w := w) (h := h) (x := x) (y := y)
    (hf.imp id fun hc => ⟨hc, hodd⟩) Iff.rfl (fun hi => ?_) ?_ (h3 x y hx hy))
  · rw [window, window, List.map_map]
    refine List.Perm.of_eq (List.map_congr_left fun g hg => ?_)
    have := mem_grid.1 hg
    show f (a.get m2 _ _ 0) = _
    rw [ha, w1.inside _ _ 0 (by omega) (by omega) (by rw [op.colors]; decide)]
  · rw [ha, w1.inside _ _ 0 hx hy (by rw [op.colors]; decide)]

/-- C184: the median of a mirrored image is the mirrored median. -/
theorem C184_median_flip {nth : List UInt8 → Nat → List UInt8} (hn : NthElement nth) {m : BMem} {w h k : Nat} {a p q s t : View}
    (oa : Own m w h 1 a) (op : Own m w h 1 p) (oq : Own m w h 1 q) (os : Own m w h 1 s) (ot : Own m w h 1 t)
    (hd : [a.img.data, p.img.data, q.img.data, s.img.data, t.img.data].Nodup) (hk3 : 3 ≤ k) (hodd : k % 2 = 1) (hkw : k < w) (hkh : k < h)
    (hor ver : Bool) :
    ∃ m1 m2 m3 m4, Flip a p w h hor ver m = .ok () m1 ∧ Median nth p q w h k m1 = .ok () m2 ∧ Median nth a s w h k m2 = .ok () m3 ∧
      Flip s t w h hor ver m3 = .ok () m4 ∧ IsEqual q t w h m4 = .ok true m4 := by
  simp only [List.nodup_cons, List.mem_cons, List.not_mem_nil, not_or, or_false, not_false_eq_true, List.nodup_nil, and_true] at hd
  obtain ⟨⟨ap, aq, as, at'⟩, ⟨pq, ps, pt⟩, ⟨qs, qt⟩, st⟩ := hd
  obtain ⟨m1, e1, w1⟩ := C18_flip hor ver (Own.pair oa op ap) oa.colors op.colors
  obtain ⟨m2, F2, e2, w2, h2⟩ := median hn (op.after w1) (oq.after w1) pq hk3 hodd hkw hkh
  obtain ⟨m3, F3, e3, w3, h3⟩ := median hn ((oa.after w1).after w2) ((os.after w1).after w2) as hk3 hodd hkw hkh
  obtain ⟨m4, e4, w4⟩ := C18_flip hor ver (Own.pair (((os.after w1).after w2).after w3) (((ot.after w1).after w2).after w3) st) os.colors ot.colors
  refine ⟨m1, m2, m3, m4, e1, e2, e3, e4, equal_of ((((oq.after w1).after w2).after w3).after w4) ((((ot.after w1).after w2).after w3).after w4)
    fun x y c hx hy hc => ?_⟩
  obtain rfl : c = 0 := by omega
  have ha : ∀ x y c, a.get m2 x y c = a.get m x y c := fun x y c => by rw [keeps w2 aq, keeps w1 ap]
  rw [keeps w4 qt, keeps w3 qs, w4.inside x y 0 hx hy (by rw [ot.colors]; decide)]
  have hmx := mirror_lt (flag := hor) hx
  have hmy := mirror_lt (flag := ver) hy
  refine (h2 x y hx hy).unique (MedianAt.moved (m := m2) (v := a) (w := w) (h := h) (x := mirror hor w x) (y := mirror ver h y) (f := id)
    (Or.inl fun _ _ h => h) ?_ (fun hi => ?_) ?_ (h3 _ _ hmx hmy))
  · cases hor <;> cases ver <;> simp only [mirror, Bool.false_eq_true, if_true, if_false] <;> omega
  · rw [List.map_id, window, window]
    have hg : ((grid k k).map fun g => (mirror ver k g.1, mirror hor k g.2)).Perm (grid k k) := by
      refine perm_grid (g := fun g => (mirror ver k g.1, mirror hor k g.2)) ?_ ?_ ?_ ?_ <;> intro g hg <;> have := mem_grid.1 hg
      · exact mem_grid.2 ⟨mirror_lt this.1, mirror_lt this.2⟩
      · exact mem_grid.2 ⟨mirror_lt this.1, mirror_lt this.2⟩
      · simp only [mirror_mirror this.1, mirror_mirror this.2]
      · simp only [mirror_mirror this.1, mirror_mirror this.2]
    refine ((hg.map fun g => a.get m2 (mirror hor w x - k / 2 + g.2) (mirror ver h y - k / 2 + g.1) 0).symm).trans (List.Perm.of_eq ?_)
    rw [List.map_map]
    refine List.map_congr_left fun g hg => ?_
    have := mem_grid.1 hg
    show a.get m2 _ _ 0 = _
    have b1 : x - k / 2 + g.2 < w ∧ mirror hor w x - k / 2 + mirror hor k g.2 = mirror hor w (x - k / 2 + g.2) :=
      mirror_window hodd this.2 hx hi.1 hi.2.1
    have b2 : y - k / 2 + g.1 < h ∧ mirror ver h y - k / 2 + mirror ver k g.1 = mirror ver h (y - k / 2 + g.1) :=
      mirror_window hodd this.1 hy hi.2.2.1 hi.2.2.2
    rw [ha, w1.inside _ _ 0 b1.1 b2.1 (by rw [op.colors]; decide), b1.2, b2.2]
  · show a.get m2 _ _ 0 = _
    rw [ha, w1.inside _ _ 0 hx hy (by rw [op.colors]; decide)]

/-- C184: the median of a transposed image is the transposed median. -/
theorem C184_median_transpose {nth : List UInt8 → Nat → List UInt8} (hn : NthElement nth) {m : BMem} {w h k : Nat} {a p q s t : View}
    (oa : Own m w h 1 a) (op : Own m h w 1 p) (oq : Own m h w 1 q) (os : Own m w h 1 s) (ot : Own m h w 1 t)
    (hd : [a.img.data, p.img.data, q.img.data, s.img.data, t.img.data].Nodup) (hk3 : 3 ≤ k) (hodd : k % 2 = 1) (hkw : k < w) (hkh : k < h) :
    ∃ m1 m2 m3 m4, Transpose a p w h m = .ok () m1 ∧ Median nth p q h w k m1 = .ok () m2 ∧ Median nth a s w h k m2 = .ok () m3 ∧
      Transpose s t w h m3 = .ok () m4 ∧ IsEqual q t h w m4 = .ok true m4 := by
  simp only [List.nodup_cons, List.mem_cons, List.not_mem_nil, not_or, or_false, not_false_eq_true, List.nodup_nil, and_true] at hd
  obtain ⟨⟨ap, aq, as, at'⟩, ⟨pq, ps, pt⟩, ⟨qs, qt⟩, st⟩ := hd
  obtain ⟨m1, e1, w1⟩ := C19_transpose (Own.pair oa op ap) oa.colors op.colors
  have k1 := w1.size_eq
  obtain ⟨m2, F2, e2, w2, h2⟩ := median hn (Own.keep op k1) (Own.keep oq k1) pq hk3 hodd hkh hkw
  have k2 := w2.size_eq.trans k1
  obtain ⟨m3, F3, e3, w3, h3⟩ := median hn (Own.keep oa k2) (Own.keep os k2) as hk3 hodd hkw hkh
  have k3 := w3.size_eq.trans k2
  obtain ⟨m4, e4, w4⟩ := C19_transpose (Own.pair (Own.keep os k3) (Own.keep ot k3) st) os.colors ot.colors
  have k4 := w4.size_eq.trans k3
  refine ⟨m1, m2, m3, m4, e1, e2, e3, e4, equal_of (Own.keep oq k4) (Own.keep ot k4) fun x y c hx hy hc => ?_⟩
  obtain rfl : c = 0 := by omega
  have ha : ∀ x y c, a.get m2 x y c = a.get m x y c := fun x y c => by rw [keeps w2 aq, keeps w1 ap]
  rw [keeps w4 qt, keeps w3 qs, w4.inside x y 0 hx hy (by rw [ot.colors]; decide)]
  refine (h2 x y hx hy).unique (MedianAt.moved (m := m2) (v := a) (w := w) (h := h) (x := y) (y := x) (f := id)
    (Or.inl fun _ _ h => h) ⟨fun hi => ⟨hi.2.2.1, hi.2.2.2, hi.1, hi.2.1⟩, fun hi => ⟨hi.2.2.1, hi.2.2.2, hi.1, hi.2.1⟩⟩ (fun hi => ?_) ?_ (h3 _ _ hy hx))
  · rw [List.map_id, window, window]
    have hg : ((grid k k).map fun g => (g.2, g.1)).Perm (grid k k) := by
      refine perm_grid (g := fun g => (g.2, g.1)) ?_ ?_ (fun _ _ => rfl) (fun _ _ => rfl) <;> intro g hg <;> have := mem_grid.1 hg
      · exact mem_grid.2 ⟨this.2, this.1⟩
      · exact mem_grid.2 ⟨this.2, this.1⟩
    refine ((hg.map fun g => a.get m2 (y - k / 2 + g.2) (x - k / 2 + g.1) 0).symm).trans (List.Perm.of_eq ?_)
    rw [List.map_map]
    refine List.map_congr_left fun g hg => ?_
    have := mem_grid.1 hg
    show a.get m2 _ _ 0 = _
    rw [ha, w1.inside _ _ 0 (by omega) (by omega) (by rw [op.colors]; decide)]
  · show a.get m2 _ _ 0 = _
    rw [ha, w1.inside _ _ 0 hx hy (by rw [op.colors]; decide)]

/-- C184: Prewitt and Sobel of a whole image and of its negative are the same. -/
theorem C184_gradient_invert (T : Nat → Nat → UInt8) {F : (Nat → Nat → UInt8) → View → View → Nat → Nat → M BMem Unit} (hF : F = Prewitt ∨ F = Sobel)
    {m : BMem} {w h : Nat} {a p q s : View} (oa : Whole m w h a) (op : Whole m w h p) (oq : Own m w h 1 q) (os : Own m w h 1 s)
    (hd : [a.img.data, p.img.data, q.img.data, s.img.data].Nodup) (hw : 3 ≤ w) (hh : 3 ≤ h) :
    ∃ m1 m2 m3, Invert a p w h m = .ok () m1 ∧ F T p q w h m1 = .ok () m2 ∧ F T a s w h m2 = .ok () m3 ∧ IsEqual q s w h m3 = .ok true m3 := by
  obtain ⟨G, g⟩ := grad_of hF
  simp only [List.nodup_cons, List.mem_cons, List.not_mem_nil, not_or, or_false, not_false_eq_true, List.nodup_nil, and_true] at hd
  obtain ⟨⟨ap, aq, as⟩, ⟨pq, ps⟩, qs⟩ := hd
  obtain ⟨m1, e1, w1⟩ := C13_invert (oa.own.ready1 op.own ap)
  have k1 := w1.size_eq
  obtain ⟨m2, e2, w2⟩ := g.run T (op.keep k1) (Own.keep oq k1) pq hw hh
  have k2 := w2.size_eq.trans k1
  obtain ⟨m3, e3, w3⟩ := g.run T (oa.keep k2) (Own.keep os k2) as hw hh
  have k3 := w3.size_eq.trans k2
  refine ⟨m1, m2, m3, e1, e2, e3, equal_of (Own.keep oq k3) (Own.keep os k3) fun x y c hx hy hc => ?_⟩
  rw [keeps w3 qs, w2.inside x y c hx hy (by rw [oq.colors]; exact hc), w3.inside x y c hx hy (by rw [os.colors]; exact hc), gradAt, gradAt]
  by_cases hb : x = 0 ∨ y = 0 ∨ x + 1 = w ∨ y + 1 = h
  · rw [if_pos hb, if_pos hb]
  · rw [if_neg hb, if_neg hb]
    have := g.inv (around m2 a x y) (around m1 p x y) fun i j hi hj => by
      simp only [around]
      rw [w1.inside _ _ 0 (by omega) (by omega) (by rw [op.own.colors]; decide), keeps w2 aq, keeps w1 ap, ofNat_toNat' (by omega)]
      have := (a.get m (x - 1 + i) (y - 1 + j) 0).toNat_lt
      omega
    rw [this.1, this.2]

/-- C184: Prewitt and Sobel of a whole mirrored image are the mirrored gradients. -/
theorem C184_gradient_flip (T : Nat → Nat → UInt8) {F : (Nat → Nat → UInt8) → View → View → Nat → Nat → M BMem Unit} (hF : F = Prewitt ∨ F = Sobel)
    {m : BMem} {w h : Nat} {a p q s t : View} (oa : Whole m w h a) (op : Whole m w h p) (oq : Own m w h 1 q) (os : Own m w h 1 s) (ot : Own m w h 1 t)
    (hd : [a.img.data, p.img.data, q.img.data, s.img.data, t.img.data].Nodup) (hw : 3 ≤ w) (hh : 3 ≤ h) (hor ver : Bool) :
    ∃ m1 m2 m3 m4, Flip a p w h hor ver m = .ok () m1 ∧ F T p q w h m1 = .ok () m2 ∧ F T a s w h m2 = .ok () m3 ∧
      Flip s t w h hor ver m3 = .ok () m4 ∧ IsEqual q t w h m4 = .ok true m4 := by
  obtain ⟨G, g⟩ := grad_of hF
  simp only [List.nodup_cons, List.mem_cons, List.not_mem_nil, not_or, or_false, not_false_eq_true, List.nodup_nil, and_true] at hd
  obtain ⟨⟨ap, aq, as, at'⟩, ⟨pq, ps, pt⟩, ⟨qs, qt⟩, st⟩ := hd
  obtain ⟨m1, e1, w1⟩ := C18_flip hor ver (Own.pair oa.own op.own ap) oa.own.colors op.own.colors
  have k1 := w1.size_eq
  obtain ⟨m2, e2, w2⟩ := g.run T (op.keep k1) (Own.keep oq k1) pq hw hh
  have k2 := w2.size_eq.trans k1
  obtain ⟨m3, e3, w3⟩ := g.run T (oa.keep k2) (Own.keep os k2) as hw hh
  have k3 := w3.size_eq.trans k2
  obtain ⟨m4, e4, w4⟩ := C18_flip hor ver (Own.pair (Own.keep os k3) (Own.keep ot k3) st) os.colors ot.colors
  have k4 := w4.size_eq.trans k3
  refine ⟨m1, m2, m3, m4, e1, e2, e3, e4, equal_of (Own.keep oq k4) (Own.keep ot k4) fun x y c hx hy hc => ?_⟩
  have hmx := mirror_lt (flag := hor) hx
  have hmy := mirror_lt (flag := ver) hy
  rw [keeps w4 qt, keeps w3 qs, w2.inside x y c hx hy (by rw [oq.colors]; exact hc), w4.inside x y c hx hy (by rw [ot.colors]; exact hc),
    w3.inside _ _ c hmx hmy (by rw [os.colors]; exact hc), gradAt, gradAt]
  have hedge : ∀ {flag : Bool} {n i : Nat}, i < n → ((mirror flag n i = 0 ∨ mirror flag n i + 1 = n) ↔ (i = 0 ∨ i + 1 = n)) := by
    intro flag n i hi
    cases flag
    · exact Iff.rfl
    · show (n - 1 - i = 0 ∨ n - 1 - i + 1 = n) ↔ _
      omega
  have hX := hedge (flag := hor) hx
  have hY := hedge (flag := ver) hy
  by_cases hb : x = 0 ∨ y = 0 ∨ x + 1 = w ∨ y + 1 = h
  · rw [if_pos hb, if_pos]
    rcases hb with hb | hb | hb | hb
    · rcases hX.2 (Or.inl hb) with h0 | h0
      · exact Or.inl h0
      · exact Or.inr (Or.inr (Or.inl h0))
    · rcases hY.2 (Or.inl hb) with h0 | h0
      · exact Or.inr (Or.inl h0)
      · exact Or.inr (Or.inr (Or.inr h0))
    · rcases hX.2 (Or.inr hb) with h0 | h0
      · exact Or.inl h0
      · exact Or.inr (Or.inr (Or.inl h0))
    · rcases hY.2 (Or.inr hb) with h0 | h0
      · exact Or.inr (Or.inl h0)
      · exact Or.inr (Or.inr (Or.inr h0))
  · rw [if_neg hb, if_neg]
    · have step : ∀ {flag : Bool} {n i d : Nat}, i < n → ¬ (i = 0 ∨ i + 1 = n) → d < 3 →
          i - 1 + d < n ∧ mirror flag n (i - 1 + d) = mirror flag n i - 1 + mirror flag 3 d := by
        intro flag n i d hi hne hd
        cases flag
        · refine ⟨by omega, rfl⟩
        · refine ⟨by omega, ?_⟩
          show n - 1 - (i - 1 + d) = n - 1 - i - 1 + (3 - 1 - d)
          omega
      have hval : ∀ i j, i < 3 → j < 3 →
          around m1 p x y i j = around m2 a (mirror hor w x) (mirror ver h y) (mirror hor 3 i) (mirror ver 3 j) := by
        intro i j hi hj
        obtain ⟨s1, s2⟩ := step (flag := hor) hx (fun hc => hb (by omega)) hi
        obtain ⟨s3, s4⟩ := step (flag := ver) hy (fun hc => hb (by omega)) hj
        simp only [around]
        rw [w1.inside _ _ 0 s1 s3 (by rw [op.own.colors]; decide), s2, s4, keeps w2 aq, keeps w1 ap]
      generalize around m2 a (mirror hor w x) (mirror ver h y) = n0 at hval
      generalize around m1 p x y = n1 at hval
      have f1 := g.flipX n0 (fun i j => n0 (2 - i) j) fun i j hi hj => rfl
      cases hor <;> cases ver
      · rw [g.same n0 n1 hval]
      · have := g.flipY n0 n1 hval
        rw [this.1, this.2]
      · have := g.flipX n0 n1 hval
        rw [this.1, this.2]
      · have := g.flipY (fun i j => n0 (2 - i) j) n1 hval
        rw [this.1, this.2, f1.1, f1.2]
    · intro hc
      rcases hc with hc | hc | hc | hc
      · rcases hX.1 (Or.inl hc) with h0 | h0 <;> exact hb (by omega)
      · rcases hY.1 (Or.inl hc) with h0 | h0 <;> exact hb (by omega)
      · rcases hX.1 (Or.inr hc) with h0 | h0 <;> exact hb (by omega)
      · rcases hY.1 (Or.inr hc) with h0 | h0 <;> exact hb (by omega)

/-- C184: with a table which does not distinguish between the two gradients, Prewitt and Sobel of a whole transposed image are the transposed
    gradients. -/
theorem C184_gradient_transpose (T : Nat → Nat → UInt8) (sym : ∀ i j, T i j = T j i) {F : (Nat → Nat → UInt8) → View → View → Nat → Nat → M BMem Unit}
    (hF : F = Prewitt ∨ F = Sobel)
    {m : BMem} {w h : Nat} {a p q s t : View} (oa : Whole m w h a) (op : Whole m h w p) (oq : Own m h w 1 q) (os : Own m w h 1 s) (ot : Own m h w 1 t)
    (hd : [a.img.data, p.img.data, q.img.data, s.img.data, t.img.data].Nodup) (hw : 3 ≤ w) (hh : 3 ≤ h) :
    ∃ m1 m2 m3 m4, Transpose a p w h m = .ok () m1 ∧ F T p q h w m1 = .ok () m2 ∧ F T a s w h m2 = .ok () m3 ∧
      Transpose s t w h m3 = .ok () m4 ∧ IsEqual q t h w m4 = .ok true m4 := by
  obtain ⟨G, g⟩ := grad_of hF
  simp only [List.nodup_cons, List.mem_cons, List.not_mem_nil, not_or, or_false, not_false_eq_true, List.nodup_nil, and_true] at hd
  obtain ⟨⟨ap, aq, as, at'⟩, ⟨pq, ps, pt⟩, ⟨qs, qt⟩, st⟩ := hd
  obtain ⟨m1, e1, w1⟩ := C19_transpose (Own.pair oa.own op.own ap) oa.own.colors op.own.colors
  have k1 := w1.size_eq
  obtain ⟨m2, e2, w2⟩ := g.run T (op.keep k1) (Own.keep oq k1) pq hh hw
  have k2 := w2.size_eq.trans k1
  obtain ⟨m3, e3, w3⟩ := g.run T (oa.keep k2) (Own.keep os k2) as hw hh
  have k3 := w3.size_eq.trans k2
  obtain ⟨m4, e4, w4⟩ := C19_transpose (Own.pair (Own.keep os k3) (Own.keep ot k3) st) os.colors ot.colors
  have k4 := w4.size_eq.trans k3
  refine ⟨m1, m2, m3, m4, e1, e2, e3, e4, equal_of (Own.keep oq k4) (Own.keep ot k4) fun x y c hx hy hc => ?_⟩
  rw [keeps w4 qt, keeps w3 qs, w2.inside x y c hx hy (by rw [oq.colors]; exact hc), w4.inside x y c hx hy (by rw [ot.colors]; exact hc),
    w3.inside _ _ c hy hx (by rw [os.colors]; exact hc), gradAt, gradAt]
  by_cases hb : x = 0 ∨ y = 0 ∨ x + 1 = h ∨ y + 1 = w
  · rw [if_pos hb, if_pos (by omega)]
  · rw [if_neg hb, if_neg (by omega)]
    have := g.turn (around m2 a y x) (around m1 p x y) fun i j hi hj => by
      simp only [around]
      rw [w1.inside _ _ 0 (by omega) (by omega) (by rw [op.own.colors]; decide), keeps w2 aq, keeps w1 ap]
    rw [this.1, this.2, sym]

/-- C184: Prewitt and Sobel of a whole image of one value give black. -/
theorem C184_gradient_flat (T : Nat → Nat → UInt8) (hT : T 0 0 = 0) {F : (Nat → Nat → UInt8) → View → View → Nat → Nat → M BMem Unit}
    (hF : F = Prewitt ∨ F = Sobel) {m : BMem} {w h : Nat} {a q : View} (oa : Whole m w h a) (oq : Own m w h 1 q)
    (aq : a.img.data ≠ q.img.data) (hw : 3 ≤ w) (hh : 3 ≤ h) {b : UInt8} (hb : ∀ x y, x < w → y < h → a.get m x y 0 = b) :
    ∃ m1, F T a q w h m = .ok () m1 ∧ WritesRoi m m1 q w h fun _ _ _ => 0 := by
  obtain ⟨G, g⟩ := grad_of hF
  obtain ⟨m1, e1, w1⟩ := g.run T oa oq aq hw hh
  refine ⟨m1, e1, w1.size_eq, fun x y c hx hy hc => ?_, w1.outside⟩
  rw [w1.inside x y c hx hy hc, gradAt]
  by_cases hi : x = 0 ∨ y = 0 ∨ x + 1 = w ∨ y + 1 = h
  · rw [if_pos hi]
  · rw [if_neg hi, g.flat (around m a x y) b.toNat fun i j hi hj => by
      simp only [around]
      rw [hb _ _ (by omega) (by omega)]]
    exact hT

/-! ### Concrete cases: images of 5 x 5 pixels with rows of 7 bytes -/

def fiveMem : BMem := ⟨fun _ => 35, fun b i => UInt8.ofNat (b * 10 + i * i)⟩
def fiveView (b : Nat) : View := ⟨⟨b, 5, 5, 1, 7⟩, 0, 0⟩

theorem five_own (b : Nat) (hb : b ≠ 0) : Own fiveMem 5 5 1 (fiveView b) :=
  ⟨⟨by simp [fiveView], by simp [fiveView, fiveMem], by simp [fiveView]⟩,
    ⟨by simpa [fiveView] using hb, by simp [fiveView], by decide, by decide, by simp [fiveView], by simp [fiveView]⟩, rfl⟩

theorem five_whole (b : Nat) (hb : b ≠ 0) : Whole fiveMem 5 5 (fiveView b) := ⟨five_own b hb, rfl, rfl, rfl, rfl⟩

example := C184_median_table sort_nth (k := 3) (five_own 1 (by decide)) (five_own 2 (by decide)) (five_own 3 (by decide)) (five_own 4 (by decide))
  (by decide) (by decide) (by decide) (by decide) (by decide) (fun b => UInt8.ofNat (b.toNat / 2)) (Or.inl fun a b hab => UInt8.le_iff_toNat_le.2 (by
    have := a.toNat_lt
    have := b.toNat_lt
    have := UInt8.le_iff_toNat_le.1 hab
    rw [ofNat_toNat' (by omega), ofNat_toNat' (by omega)]
    omega))
example := C184_median_flip sort_nth (k := 3) (five_own 1 (by decide)) (five_own 2 (by decide)) (five_own 3 (by decide)) (five_own 4 (by decide))
  (five_own 5 (by decide)) (by decide) (by decide) (by decide) (by decide) (by decide) true false
example := C184_median_transpose sort_nth (k := 3) (five_own 1 (by decide)) (five_own 2 (by decide)) (five_own 3 (by decide)) (five_own 4 (by decide))
  (five_own 5 (by decide)) (by decide) (by decide) (by decide) (by decide) (by decide)
example := C184_gradient_invert (fun i j => UInt8.ofNat ((i + j) / 8)) (Or.inl rfl) (five_whole 1 (by decide)) (five_whole 2 (by decide))
  (five_own 3 (by decide)) (five_own 4 (by decide)) (by decide) (by decide) (by decide)
example := C184_gradient_flip (fun i j => UInt8.ofNat ((i + 2 * j) / 12)) (Or.inr rfl) (five_whole 1 (by decide)) (five_whole 2 (by decide))
  (five_own 3 (by decide)) (five_own 4 (by decide)) (five_own 5 (by decide)) (by decide) (by decide) (by decide) true true
example := C184_gradient_transpose (fun i j => UInt8.ofNat ((i + j) / 8)) (fun i j => by rw [Nat.add_comm]) (Or.inr rfl) (five_whole 1 (by decide))
  (five_whole 2 (by decide)) (five_own 3 (by decide)) (five_own 4 (by decide)) (five_own 5 (by decide)) (by decide) (by decide) (by decide)

/-- An image of the value 9 -/
example : ∃ m1, Sobel (fun i j => UInt8.ofNat ((i + j) / 8)) (fiveView 1) (fiveView 2) 5 5 ⟨fun _ => 35, fun _ _ => 9⟩ = .ok () m1 ∧
    WritesRoi ⟨fun _ => 35, fun _ _ => 9⟩ m1 (fiveView 2) 5 5 fun _ _ _ => 0 :=
  C184_gradient_flat _ (by decide) (Or.inr rfl) (m := ⟨fun _ => 35, fun _ _ => 9⟩) (Whole.keep (five_whole 1 (by decide)) rfl)
    (Own.keep (five_own 2 (by decide)) rfl) (by decide) (by decide) (by decide) (b := 9) fun _ _ _ _ => rfl

/-- The values differ: a median and a gradient of the first image -/
example : after (Median (fun l _ => l.insertionSort (· ≤ ·)) (fiveView 1) (fiveView 2) 5 5 3 fiveMem) 2 8 = some 59 ∧
    after (Prewitt (fun i j => UInt8.ofNat ((i + j) / 8)) (fiveView 1) (fiveView 2) 5 5 fiveMem) 2 8 = some 72 := by decide +kernel

end PV.Props
