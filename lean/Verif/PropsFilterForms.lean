import Verif.FilterForms
import Verif.PropsFilter
import Verif.PropsForms
/-
  C164: filters that return new images, and filters of whole images.
-/
namespace PV.Props

open PV.Forms

/-- What the median filter gives for a rectangle: the median of the k x k pixels around, and the pixel itself near the border. -/
structure Filtered (m : BMem) (inp : View) (w h k : Nat) (G : Nat → Nat → Nat → UInt8) : Prop where
  inside : ∀ x y, k / 2 ≤ x → x < w - k / 2 → k / 2 ≤ y → y < h - k / 2 → IsMedian (window inp m (x - k / 2) (y - k / 2) k) (G x y 0)
  border : ∀ x y, x < w → y < h → ¬ (k / 2 ≤ x ∧ x < w - k / 2 ∧ k / 2 ≤ y ∧ y < h - k / 2) → G x y 0 = inp.get m x y 0

/-- **C164**: the median filter of a rectangle returns a new gray-scale image with the medians; no image that existed is changed. -/
theorem C164_median {nth : List UInt8 → Nat → List UInt8} (hn : NthElement nth) {d : Heap} (hd : HeapOk d) {v : View} {w h k : Nat}
    (i : Input d v w h) (hc : v.img.cc = 1) (hk3 : 3 ≤ k) (hodd : k % 2 = 1) (hkw : k < w) (hkh : k < h) :
    ∃ d' img G, (median nth k).newRoi v w h d = .ok img d' ∧ NewImage d d' img w h 1 G ∧ Filtered d.mem v w h k G := by
  have p := i.pair hd i.fit.wpos i.fit.hpos (Or.inl rfl) i.small1
  obtain ⟨m', G, h1, h2, h3, h4⟩ := C55_median hn (m := (grown d w h 1).mem) (out := whole (made d w h 1))
    ⟨p.wfi, p.wfo, p.fiti, p.fito, hc, rfl⟩ p.apart hk3 hodd hkw hkh
  obtain ⟨d', img, e1, _, _, e2⟩ := newRoi_run (f := median nth k) hd i i.small1 rfl h1 h2
  exact ⟨d', img, G, e1, e2, h3, h4⟩

/-- **C164**: the same for a whole image. -/
theorem C164_median_image {nth : List UInt8 → Nat → List UInt8} (hn : NthElement nth) {d : Heap} (hd : HeapOk d) {img : Image} {k : Nat}
    (i : InputImage d img) (hc : img.cc = 1) (hk3 : 3 ≤ k) (hodd : k % 2 = 1) (hkw : k < img.width) (hkh : k < img.height) :
    ∃ d' new G, (median nth k).newWhole img d = .ok new d' ∧ NewImage d d' new img.width img.height 1 G ∧
      Filtered d.mem (whole img) img.width img.height k G := by
  rw [C101_image_region _ i]
  exact C164_median hn hd i hc hk3 hodd hkw hkh

/-- **C164**: `Median( in, out, kernelSize )`. -/
theorem C164_median_whole {nth : List UInt8 → Nat → List UInt8} (hn : NthElement nth) {m : BMem} {a b : Image} {k : Nat}
    (t : Two m a b) (hw : b.width = a.width) (hh : b.height = a.height) (ha : a.cc = 1) (hb : b.cc = 1)
    (hk3 : 3 ≤ k) (hodd : k % 2 = 1) (hkw : k < a.width) (hkh : k < a.height) :
    ∃ m' G, (median nth k).whole a b m = .ok () m' ∧ WritesRoi m m' (whole b) a.width a.height G ∧
      Filtered m (whole a) a.width a.height k G := by
  have h1 := t.fitb
  have h2 := t.apart
  rw [hw, hh] at h1 h2
  obtain ⟨m', G, e, q1, q2, q3⟩ := C55_median hn (m := m) (inp := whole a) (out := whole b) ⟨t.wfa, t.wfb, t.fita, h1, ha, hb⟩ h2
    hk3 hodd hkw hkh
  refine ⟨m', G, ?_, q1, q2, q3⟩
  rw [Fn1.whole, bind_ok (validImages2 t.fita t.fitb hw hh), bind_ok (show (median nth k).check2 a b m = .ok () m from rfl)]
  exact e

/-- The two gradient filters -/
inductive Gradient | prewitt | sobel

def Gradient.fn (T : Nat → Nat → UInt8) : Gradient → Fn1
  | .prewitt => Forms.prewitt T
  | .sobel => Forms.sobel T

/-- The matrices in the comments of the code -/
def Gradient.of (n : Nat → Nat → Int) : Gradient → Int × Int
  | .prewitt => prewittG n
  | .sobel => sobelG n

theorem Gradient.full_ok (g : Gradient) (T : Nat → Nat → UInt8) {m : BMem} {inp out : View} {w h : Nat} (r : GrayPair m inp out w h)
    (hap : ApartAround inp out w h) (hw : 3 ≤ w) (hh : 3 ≤ h) :
    ∃ m', (g.fn T).full inp out w h m = .ok () m' ∧ WritesRoi m m' out w h fun x y _ => gradSpec T (fun n => g.of n) inp m w h x y := by
  cases g
  · exact C56_prewitt T r hap hw hh
  · exact C56_sobel T r hap hw hh

/-- **C164**: the gradient filters of a rectangle return a new gray-scale image with the same pixels which the form with two
    rectangles writes (C56); no image that existed is changed. -/
theorem C164_gradient (g : Gradient) (T : Nat → Nat → UInt8) {d : Heap} (hd : HeapOk d) {v : View} {w h : Nat} (i : Input d v w h)
    (hc : v.img.cc = 1) (hw : 3 ≤ w) (hh : 3 ≤ h) :
    ∃ d' img, (g.fn T).newRoi v w h d = .ok img d' ∧
      NewImage d d' img w h 1 fun x y _ => gradSpec T (fun n => g.of n) v d.mem w h x y := by
  have p := i.pair hd i.fit.wpos i.fit.hpos (Or.inl rfl) i.small1
  obtain ⟨_, hne⟩ := old_image hd i.wf i.fit w h 1
  obtain ⟨m', h1, h2⟩ := g.full_ok T (m := (grown d w h 1).mem) (inp := v) (out := whole (made d w h 1))
    ⟨p.wfi, p.wfo, p.fiti, p.fito, hc, rfl⟩ (apart_of_ne _ _ _ _ hne) hw hh
  have hcc : (g.fn T).cc v.img.cc = 1 := by cases g <;> rfl
  have hk : (g.fn T).check v.img d.mem = .ok () d.mem := by cases g <;> rfl
  have run := newRoi_run (f := g.fn T) hd i (by rw [hcc]; exact i.small1) hk (m' := m')
    (G := fun x y _ => gradSpec T (fun n => g.of n) v d.mem w h x y)
  rw [hcc] at run
  obtain ⟨d', img, e1, _, _, e2⟩ := run h1 h2
  exact ⟨d', img, e1, e2⟩

/-- The gradient filter of a whole image: zero at the border, elsewhere the table at the absolute values of the sums over the 3 x 3
    pixels around. -/
def gradientImage (g : Gradient) (T : Nat → Nat → UInt8) (img : Image) (m : BMem) (x y : Nat) : UInt8 :=
  if 1 ≤ x ∧ x + 1 < img.width ∧ 1 ≤ y ∧ y + 1 < img.height then
    let s := g.of fun dx dy => ((whole img).get m (x + dx - 1) (y + dy - 1) 0).toNat
    T s.1.natAbs s.2.natAbs
  else 0

theorem gradSpec_whole (g : Gradient) (T : Nat → Nat → UInt8) {img : Image} (hc : img.cc = 1) (m : BMem) {x y : Nat} (hx : x < img.width)
    (hy : y < img.height) :
    gradSpec T (fun n => g.of n) (whole img) m img.width img.height x y = gradientImage g T img m x y := by
  rw [gradSpec, gradientImage]
  by_cases hi : 1 ≤ x ∧ x + 1 < img.width ∧ 1 ≤ y ∧ y + 1 < img.height
  · rw [if_pos hi, if_neg (by simp only [whole]; omega)]
    have e : near (whole img).img m ((whole img).x + x) ((whole img).y + y)
        = fun dx dy => (((whole img).get m (x + dx - 1) (y + dy - 1) 0).toNat : Int) := by
      funext dx dy
      simp only [near, Image.pix, View.get, View.cell, whole, hc, Nat.zero_add, Nat.mul_one, Nat.add_zero]
      rw [show x - 1 + dx = x + dx - 1 by omega, show y - 1 + dy = y + dy - 1 by omega]
    rw [e]
  · rw [if_neg hi, if_pos (by simp only [whole]; omega)]

/-- **C164**: the gradient filters of a whole image return a new image with zero at the border and the gradients elsewhere. -/
theorem C164_gradient_image (g : Gradient) (T : Nat → Nat → UInt8) {d : Heap} (hd : HeapOk d) {img : Image} (i : InputImage d img)
    (hc : img.cc = 1) (hw : 3 ≤ img.width) (hh : 3 ≤ img.height) :
    ∃ d' new, (g.fn T).newWhole img d = .ok new d' ∧
      NewImage d d' new img.width img.height 1 fun x y _ => gradientImage g T img d.mem x y := by
  rw [C101_image_region _ i]
  obtain ⟨d', new, e, n⟩ := C164_gradient g T hd i hc hw hh
  exact ⟨d', new, e, n.width, n.height, n.colors, n.row, n.data, n.before, n.size,
    fun x y c hx hy hz => (n.pixels x y c hx hy hz).trans (gradSpec_whole g T hc d.mem hx hy), n.others, n.ok⟩

/-- **C164**: `Prewitt( in, out )` and `Sobel( in, out )`. -/
theorem C164_gradient_whole (g : Gradient) (T : Nat → Nat → UInt8) {m : BMem} {a b : Image} (t : Two m a b) (hne : a.data ≠ b.data)
    (hw : b.width = a.width) (hh : b.height = a.height) (ha : a.cc = 1) (hb : b.cc = 1) (h3 : 3 ≤ a.width) (h4 : 3 ≤ a.height) :
    ∃ m', (g.fn T).whole a b m = .ok () m' ∧
      WritesRoi m m' (whole b) a.width a.height fun x y _ => gradientImage g T a m x y := by
  have h1 := t.fitb
  rw [hw, hh] at h1
  obtain ⟨m', e, q⟩ := g.full_ok T (m := m) (inp := whole a) (out := whole b) ⟨t.wfa, t.wfb, t.fita, h1, ha, hb⟩
    (apart_of_ne _ _ _ _ hne) h3 h4
  refine ⟨m', ?_, q.congr' fun x y c hx hy _ => gradSpec_whole g T ha m hx hy⟩
  rw [Fn1.whole, bind_ok (validImages2 t.fita t.fitb hw hh),
    bind_ok (show (g.fn T).check2 a b m = .ok () m by cases g <;> rfl)]
  exact e

/-- **C164**: colour images, kernels that are even, smaller than 3 or not smaller than the rectangle, and rectangles smaller than
    3 x 3 are refused; the new image which was made is released again. -/
theorem C164_rejects (nth : List UInt8 → Nat → List UInt8) (T : Nat → Nat → UInt8) (g : Gradient) {d : Heap} (hd : HeapOk d)
    {v : View} {w h k : Nat} (i : Input d v w h) :
    (¬ (v.img.cc = 1 ∧ 3 ≤ k ∧ k % 2 = 1 ∧ k < w ∧ k < h) → ∃ d', (median nth k).newRoi v w h d = .throw d' ∧ SameHeap d d') ∧
      (¬ (v.img.cc = 1 ∧ 3 ≤ w ∧ 3 ≤ h) → ∃ d', (g.fn T).newRoi v w h d = .throw d' ∧ SameHeap d d') := by
  obtain ⟨hv, hw, hh⟩ := i.fullU32
  have bad : ∀ {P : Prop}, ¬ P → Bad [v, whole (made d w h 1)] w h P := fun hP =>
    ⟨by simp [hv, made_u32 hw hh], hw, hh, Or.inr hP⟩
  constructor
  · intro hn
    exact newRoi_throw (f := median nth k) hd i i.small1 rfl (C55_rejects nth (bad fun hb => hn ⟨hb.1.1, hb.2⟩))
  · intro hn
    have r := C56_rejects T (m := (grown d w h 1).mem) (bad fun hb => hn ⟨hb.1.1, hb.2⟩)
    cases g
    · exact newRoi_throw (f := Forms.prewitt T) hd i i.small1 rfl r.1
    · exact newRoi_throw (f := Forms.sobel T) hd i i.small1 rfl r.2

/-- **C164**: whole images which are empty, of different sizes, of colours, or too small are refused and nothing is written. -/
theorem C164_rejects_whole (nth : List UInt8 → Nat → List UInt8) (T : Nat → Nat → UInt8) (g : Gradient) {m : BMem} {a b : Image} {k : Nat}
    (t : Two m a b) (u1 : (whole a).U32) (u2 : (whole b).U32) (hw : b.width = a.width) (hh : b.height = a.height) :
    (¬ (a.cc = 1 ∧ b.cc = 1 ∧ 3 ≤ k ∧ k % 2 = 1 ∧ k < a.width ∧ k < a.height) → (median nth k).whole a b m = .throw m) ∧
      (¬ (a.cc = 1 ∧ b.cc = 1 ∧ 3 ≤ a.width ∧ 3 ≤ a.height) → (g.fn T).whole a b m = .throw m) := by
  have bad : ∀ {P : Prop}, ¬ P → Bad [whole a, whole b] a.width a.height P := fun hP =>
    ⟨by simp [u1, u2], u1.3, u1.4, Or.inr hP⟩
  constructor
  · intro hn
    rw [Fn1.whole, bind_ok (validImages2 t.fita t.fitb hw hh), bind_ok (show (median nth k).check2 a b m = .ok () m from rfl)]
    exact C55_rejects nth (bad fun hb => hn ⟨hb.1.1, hb.1.2, hb.2⟩)
  · intro hn
    rw [Fn1.whole, bind_ok (validImages2 t.fita t.fitb hw hh), bind_ok (show (g.fn T).check2 a b m = .ok () m by cases g <;> rfl)]
    have r := C56_rejects T (m := m) (bad fun hb => hn ⟨hb.1.1, hb.1.2, hb.2⟩)
    cases g
    · exact r.1
    · exact r.2

/-! ### An example -/

/-- The image of PropsFilter.lean, and the next block number -/
def filterHeap : Heap := ⟨{ filterMem with size := fun b => if b = 0 ∨ 7 < b then 0 else 24 }, 8⟩

theorem filterHeap_ok : HeapOk filterHeap := by
  constructor
  · decide
  · intro b hb
    have : 8 ≤ b := hb
    show (if b = 0 ∨ 7 < b then 0 else 24) = 0
    rw [if_pos (by omega)]

theorem filterInput : InputImage filterHeap filterIn.img :=
  ⟨⟨by decide, by decide, by decide⟩, ⟨by decide, by decide, by decide, by decide, by decide, by decide⟩⟩

example : newByte ((median (fun l _ => l.insertionSort (· ≤ ·)) 3).newWhole filterIn.img filterHeap) 6 = some (8, 100) := by
  decide +kernel
example : newByte ((Gradient.sobel.fn fun i j => UInt8.ofNat (i + 3 * j)).newWhole filterIn.img filterHeap) 6
    = some (8, gradientImage .sobel (fun i j => UInt8.ofNat (i + 3 * j)) filterIn.img filterHeap.mem 1 1) := by
  decide +kernel
example : gradientImage .sobel (fun i j => UInt8.ofNat (i + 3 * j)) filterIn.img filterHeap.mem 1 1 = UInt8.ofNat (16 + 3 * 160) := by
  decide +kernel

end PV.Props
