import Verif.Forms
import Verif.PropsShift
import Verif.PropsResize
import Verif.PropsNormalize
/-
  Properties C101 and C102: forms that return a new image, and forms for whole images.
-/
namespace PV.Props

open Forms

/-! ### What is said about the result -/

/-- Blocks which do not exist yet have no bytes; null is not one of them. -/
structure HeapOk (d : Heap) : Prop where
  pos : 0 < d.next
  fresh : ∀ b, d.next ≤ b → d.mem.size b = 0

/-- `img` is a new image of w x h pixels with `cc` colours: it has a block of its own, of exactly the right size, which
    did not exist before, and the pixels `G`; every other block is as before. -/
structure NewImage (d d' : Heap) (img : Image) (w h cc : Nat) (G : Nat → Nat → Nat → UInt8) : Prop where
  width : img.width = w
  height : img.height = h
  colors : img.cc = cc
  row : img.rowSize = w * cc
  data : img.data ≠ 0
  before : d.mem.size img.data = 0
  size : d'.mem.size img.data = w * cc * h
  pixels : ∀ x y c, x < w → y < h → c < cc → (whole img).get d'.mem x y c = G x y c
  others : ∀ b, b ≠ img.data → d'.mem.size b = d.mem.size b ∧ ∀ i, d'.mem.byte b i = d.mem.byte b i
  ok : HeapOk d'

/-- Nothing a program could see has changed: the blocks, their sizes and their contents are the same. -/
structure SameHeap (d d' : Heap) : Prop where
  size : ∀ b, d'.mem.size b = d.mem.size b
  byte : ∀ b i, d'.mem.byte b i = d.mem.byte b i

/-! ### Lemmas -/

theorem heapMem_ok {α : Type} {f : M BMem α} {d : Heap} {a : α} {m : BMem} (h : f d.mem = .ok a m) :
    onMem f d = .ok a { d with mem := m } := by rw [onMem, h]

theorem heapMem_keep {α : Type} {f : M BMem α} {d : Heap} {a : α} (h : f d.mem = .ok a d.mem) : onMem f d = .ok a d := heapMem_ok h

theorem heapMem_throw {α : Type} {f : M BMem α} {d : Heap} {m : BMem} (h : f d.mem = .throw m) :
    onMem f d = .throw { d with mem := m } := by rw [onMem, h]

/-- The image `generate` makes. -/
def made (d : Heap) (w h cc : Nat) : Image := ⟨d.next, w, h, cc, w * cc⟩

/-- The heap after `generate`. -/
def grown (d : Heap) (w h cc : Nat) : Heap := d.grow (h * (w * cc))

theorem generate_ok {d : Heap} {w h cc : Nat} (hw : 0 < w) (hh : 0 < h) (hs : w * cc * h < 4294967296) :
    generate w h cc d = .ok (made d w h cc) (grown d w h cc) := by
  have : w * cc * 1 ≤ w * cc * h := Nat.mul_le_mul_left _ hh
  rw [generate, if_neg (by omega), u32_of_lt (by omega)]
  rfl

theorem made_wf {d : Heap} (w h cc : Nat) (hs : w * cc * h < 4294967296) : (made d w h cc).WF (grown d w h cc).mem := by
  refine ⟨Nat.le_refl _, ?_, ?_⟩
  · simp only [made, grown, Heap.grow, ↓reduceIte]
    exact Nat.le_of_eq (Nat.mul_comm _ _)
  · exact hs

theorem made_fits {d : Heap} (hd : HeapOk d) {w h cc : Nat} (hw : 0 < w) (hh : 0 < h) (hc : cc = 1 ∨ cc = 3 ∨ cc = 4) :
    (whole (made d w h cc)).Fits w h := by
  have := hd.pos
  exact ⟨by simp only [whole, made]; omega, hc, hw, hh, by simp [whole, made], by simp [whole, made]⟩

/-- An image that exists is not the new one, and is not affected by the allocation. -/
theorem old_image {d : Heap} (hd : HeapOk d) {v : View} {w h : Nat} (wf : v.img.WF d.mem) (fit : v.Fits w h) (w' h' cc : Nat) :
    v.img.WF (grown d w' h' cc).mem ∧ v.img.data ≠ (whole (made d w' h' cc)).img.data := by
  obtain ⟨_, hr, _⟩ := View.facts wf fit
  have h1 := wf.block
  have h2 : 0 < v.img.rowSize * v.img.height := Nat.mul_pos hr (by have := fit.inY; have := fit.hpos; omega)
  have hne : v.img.data ≠ d.next := fun e => by
    rw [e, hd.fresh _ (Nat.le_refl _)] at h1
    omega
  refine ⟨⟨wf.row, ?_, wf.small⟩, hne⟩
  simp only [grown, Heap.grow, if_neg hne]
  exact h1

theorem filled_ok {d : Heap} (hd : HeapOk d) {w h cc : Nat} (hs : w * cc * h < 4294967296)
    {f : M BMem Unit} {m' : BMem} {G : Nat → Nat → Nat → UInt8} (hf : f (grown d w h cc).mem = .ok () m')
    (hw : WritesRoi (grown d w h cc).mem m' (whole (made d w h cc)) w h G) :
    ∃ d', filled (made d w h cc) f (grown d w h cc) = .ok (made d w h cc) d' ∧ d'.mem = m' ∧
      NewImage d d' (made d w h cc) w h cc G := by
  refine ⟨⟨m', d.next + 1⟩, by rw [filled, heapMem_ok hf]; rfl, rfl, rfl, rfl, rfl, rfl, ?_, hd.fresh _ (Nat.le_refl _), ?_, hw.inside,
    ?_, by simp, ?_⟩
  · exact Nat.pos_iff_ne_zero.1 hd.pos
  · rw [hw.size_eq]
    simp only [made, grown, Heap.grow, ↓reduceIte]
    exact Nat.mul_comm _ _
  · intro b hb
    have hb' : b ≠ d.next := hb
    refine ⟨by rw [hw.size_eq]; simp only [grown, Heap.grow, if_neg hb'], fun i => ?_⟩
    rw [hw.outside b i fun h => hb h.1]
    rfl
  · intro b hb
    show m'.size b = 0
    have hb' : d.next + 1 ≤ b := hb
    rw [hw.size_eq]
    simp only [grown, Heap.grow]
    rw [if_neg (by omega)]
    exact hd.fresh b (by omega)

theorem filled_throw {d : Heap} (hd : HeapOk d) {w h cc : Nat} {f : M BMem Unit}
    (hf : f (grown d w h cc).mem = .throw (grown d w h cc).mem) :
    ∃ d', filled (made d w h cc) f (grown d w h cc) = .throw d' ∧ SameHeap d d' := by
  refine ⟨(grown d w h cc).release (made d w h cc), by rw [filled, heapMem_throw hf], fun b => ?_, fun b i => rfl⟩
  show (if b = d.next then 0 else if b = d.next then h * (w * cc) else d.mem.size b) = d.mem.size b
  by_cases hb : b = d.next
  · rw [if_pos hb, hb, hd.fresh _ (Nat.le_refl _)]
  · rw [if_neg hb, if_neg hb]

theorem SameHeap.refl (d : Heap) : SameHeap d d := ⟨fun _ => rfl, fun _ _ => rfl⟩


/-! ### Functions of one image -/

/-- The functions of one image whose pixels are given by a formula. -/
inductive Op1
  | toGray | toRgb | extract (ch : Nat) | flip (hor ver : Bool) | invert | lookup (table : List UInt8) | bgr | rgba | rgb
  | threshold (t : UInt8) | threshold2 (lo hi : UInt8)

/-- The function called. -/
def Op1.fn : Op1 → Fn1
  | .toGray => convertToGrayScale
  | .toRgb => convertToRgb
  | .extract ch => extractChannel ch
  | .flip hor ver => Forms.flip hor ver
  | .invert => Forms.invert
  | .lookup table => lookupTable table
  | .bgr => rgbToBgr
  | .rgba => rgbToRgba
  | .rgb => rgbaToRgb
  | .threshold t => Forms.threshold t
  | .threshold2 lo hi => Forms.threshold2 lo hi

/-- The colour count of the result. -/
def Op1.colors : Op1 → Nat → Nat
  | .toRgb, _ | .bgr, _ | .rgb, _ => 3
  | .rgba, _ => 4
  | .invert, n => n
  | _, _ => 1

/-- The parameters and the colour counts of the input (`n`) and the output (`k`) which are supported. -/
def Op1.good : Op1 → Nat → Nat → Prop
  | .toGray, n, k => (n = 1 ∨ n = 3) ∧ k = 1
  | .toRgb, n, k => (n = 1 ∨ n = 3) ∧ k = 3
  | .extract ch, n, k => ch < n ∧ k = 1
  | .flip _ _, n, k => n = 1 ∧ k = 1
  | .invert, n, k => k = n
  | .lookup table, n, k => table.length = 256 ∧ k = n
  | .bgr, n, k => n = 3 ∧ k = 3
  | .rgba, n, k => n = 3 ∧ k = 4
  | .rgb, n, k => n = 4 ∧ k = 3
  | .threshold _, n, k => n = 1 ∧ k = 1
  | .threshold2 lo hi, n, k => lo ≤ hi ∧ n = 1 ∧ k = 1

/-- The pixel (x, y), colour c, of the result. -/
def Op1.pixel (o : Op1) (m : BMem) (v : View) (w h x y c : Nat) : UInt8 :=
  match o with
  | .toGray => if v.img.cc = 1 then v.get m x y 0 else specMean (v.get m x y 0) (v.get m x y 1) (v.get m x y 2)
  | .toRgb => if v.img.cc = 1 then v.get m x y 0 else v.get m x y c
  | .extract ch => v.get m x y ch
  | .flip hor ver => v.get m (if hor then w - 1 - x else x) (if ver then h - 1 - y else y) 0
  | .invert => UInt8.ofNat (255 - (v.get m x y c).toNat)
  | .lookup table => table.getD (v.get m x y c).toNat 0
  | .bgr => v.get m x y (2 - c)
  | .rgba => if c = 3 then 255 else v.get m x y c
  | .rgb => v.get m x y c
  | .threshold t => if t.toNat ≤ (v.get m x y c).toNat then 255 else 0
  | .threshold2 lo hi => if lo.toNat ≤ (v.get m x y c).toNat ∧ (v.get m x y c).toNat ≤ hi.toNat then 255 else 0

theorem _root_.PV.WritesRoi.congr' {m m' : BMem} {v : View} {w h : Nat} {F G : Nat → Nat → Nat → UInt8} (hw : WritesRoi m m' v w h F)
    (he : ∀ x y c, x < w → y < h → c < v.img.cc → F x y c = G x y c) : WritesRoi m m' v w h G :=
  ⟨hw.size_eq, fun x y c hx hy hc => (hw.inside x y c hx hy hc).trans (he x y c hx hy hc), hw.outside⟩

theorem Op1.full_ok (o : Op1) {m : BMem} {inp out : View} {w h : Nat} (p : Pair m inp w h out w h)
    (hg : o.good inp.img.cc out.img.cc) :
    ∃ m', o.fn.full inp out w h m = .ok () m' ∧ WritesRoi m m' out w h (o.pixel m inp w h) := by
  have r1 : out.img.cc = inp.img.cc → Ready1 m inp out w h := fun co =>
    ⟨p.wfi, p.wfo, p.fiti, p.fito, co, noClash_of_apart p.apart⟩
  have key : ∀ {G : Nat → Nat → Nat → UInt8} {f : M BMem Unit}, (∃ m', f m = .ok () m' ∧ WritesRoi m m' out w h G) →
      (∀ x y c, x < w → y < h → c < out.img.cc → G x y c = o.pixel m inp w h x y c) →
      ∃ m', f m = .ok () m' ∧ WritesRoi m m' out w h (o.pixel m inp w h) := fun ⟨m', a, b⟩ he => ⟨m', a, b.congr' he⟩
  cases o with
  | toGray =>
    obtain ⟨h1 | h1, h2⟩ := hg
    · refine key (C22_convertToGrayScale_gray p h1 h2) fun x y c _ _ hc => ?_
      rw [Op1.pixel, if_pos h1, show c = 0 by omega]
    · refine key (C22_convertToGrayScale_rgb p h1 h2) fun x y c _ _ hc => ?_
      rw [Op1.pixel, if_neg (by omega)]
  | toRgb =>
    obtain ⟨h1 | h1, h2⟩ := hg
    · refine key (C22_convertToRgb_gray p h1 h2) fun x y c _ _ hc => ?_
      rw [Op1.pixel, if_pos h1]
    · refine key (C22_convertToRgb_rgb p h1 h2) fun x y c _ _ hc => ?_
      rw [Op1.pixel, if_neg (by omega)]
  | extract ch => exact C20_extractChannel p hg.2 hg.1
  | flip hor ver =>
    refine key (C18_flip hor ver p hg.1 hg.2) fun x y c _ _ hc => ?_
    rw [hg.2] at hc
    rw [Op1.pixel, show c = 0 by omega]
    simp only [mirror]
  | invert => exact C13_invert (r1 hg)
  | lookup table =>
    refine key (C15_lookupTable table hg.1 (r1 hg.2)) fun x y c _ _ hc => ?_
    have hl : (inp.get m x y c).toNat < table.length := by rw [hg.1]; exact UInt8.toNat_lt _
    simp [Op1.pixel, hl]
  | bgr => exact C21_rgbToBgr_partial p hg.1 hg.2
  | rgba => exact C23_rgbToRgba p hg.1 hg.2
  | rgb => exact C23_rgbaToRgb p hg.1 hg.2
  | threshold t => exact C14_threshold t (r1 (hg.2.trans hg.1.symm)) hg.1
  | threshold2 lo hi => exact C14_threshold2 lo hi hg.1 (r1 (hg.2.2.trans hg.2.1.symm)) hg.2.1

/-- A rectangle of an existing image. -/
structure Input (d : Heap) (v : View) (w h : Nat) : Prop where
  wf : v.img.WF d.mem
  fit : v.Fits w h

/-- An existing image. -/
abbrev InputImage (d : Heap) (img : Image) : Prop := Input d (whole img) img.width img.height

theorem Input.u32 {d : Heap} {v : View} {w h : Nat} (i : Input d v w h) : v.img.width < 4294967296 ∧ v.img.height < 4294967296 := by
  obtain ⟨hcc, hr, _⟩ := View.facts i.wf i.fit
  have h1 := i.wf.row
  have h2 := i.wf.small
  have h3 := i.fit.hpos
  have h4 := i.fit.inY
  have : v.img.width * 1 ≤ v.img.width * v.img.cc := Nat.mul_le_mul_left _ hcc
  have : v.img.rowSize * 1 ≤ v.img.rowSize * v.img.height := Nat.mul_le_mul_left _ (by omega)
  have : 1 * v.img.height ≤ v.img.rowSize * v.img.height := Nat.mul_le_mul_right _ hr
  omega

theorem Input.small {d : Heap} {v : View} {w h : Nat} (i : Input d v w h) : w * v.img.cc * h < 4294967296 := by
  have h1 := i.wf.row
  have h2 := i.wf.small
  have h3 := i.fit.inX
  have h4 := i.fit.inY
  have a1 : w * v.img.cc ≤ v.img.width * v.img.cc := Nat.mul_le_mul_right _ (by omega)
  have a2 : w * v.img.cc * h ≤ v.img.rowSize * v.img.height := Nat.mul_le_mul (by omega) (by omega)
  omega

theorem Input.small1 {d : Heap} {v : View} {w h : Nat} (i : Input d v w h) : w * 1 * h < 4294967296 := by
  obtain ⟨hcc, _⟩ := View.facts i.wf i.fit
  have := i.small
  have : w * 1 * h ≤ w * v.img.cc * h := Nat.mul_le_mul_right _ (Nat.mul_le_mul_left _ hcc)
  omega

theorem Input.fullU32 {d : Heap} {v : View} {w h : Nat} (i : Input d v w h) : v.U32 ∧ w < 4294967296 ∧ h < 4294967296 := by
  obtain ⟨h1, h2⟩ := i.u32
  have := i.fit.inX
  have := i.fit.inY
  have := i.fit.wpos
  have := i.fit.hpos
  exact ⟨⟨by omega, by omega, by omega, by omega⟩, by omega, by omega⟩

theorem made_u32 {d : Heap} {w h cc : Nat} (hw : w < 4294967296) (hh : h < 4294967296) : (whole (made d w h cc)).U32 :=
  ⟨by simp [whole], by simp [whole], hw, hh⟩

theorem Input.pair {d : Heap} (hd : HeapOk d) {v : View} {w h : Nat} (i : Input d v w h) {w' h' cc : Nat} (hw : 0 < w') (hh : 0 < h')
    (hc : cc = 1 ∨ cc = 3 ∨ cc = 4) (hs : w' * cc * h' < 4294967296) :
    Pair (grown d w' h' cc).mem v w h (whole (made d w' h' cc)) w' h' := by
  obtain ⟨h1, h2⟩ := old_image hd i.wf i.fit w' h' cc
  exact ⟨h1, made_wf w' h' cc hs, i.fit, made_fits hd hw hh hc, apart_of_ne _ _ _ _ h2⟩

/-- What a short form with a rectangle does when its parts succeed. -/
theorem newRoi_run {f : Fn1} {d : Heap} (hd : HeapOk d) {v : View} {w h : Nat} (i : Input d v w h)
    (hs : w * f.cc v.img.cc * h < 4294967296) (hk : f.check v.img d.mem = .ok () d.mem) {m' : BMem} {G : Nat → Nat → Nat → UInt8}
    (hf : f.full v (whole (made d w h (f.cc v.img.cc))) w h (grown d w h (f.cc v.img.cc)).mem = .ok () m')
    (hw : WritesRoi (grown d w h (f.cc v.img.cc)).mem m' (whole (made d w h (f.cc v.img.cc))) w h G) :
    ∃ d' img, f.newRoi v w h d = .ok img d' ∧ d'.mem = m' ∧ img = made d w h (f.cc v.img.cc) ∧
      NewImage d d' img w h (f.cc v.img.cc) G := by
  obtain ⟨d', e1, e2, e3⟩ := filled_ok hd hs hf hw
  refine ⟨d', _, ?_, e2, rfl, e3⟩
  rw [Fn1.newRoi, bind_ok (heapMem_keep (validateRoi_ok _ i.fit i.u32.1 i.u32.2)), bind_ok (heapMem_keep hk),
    bind_ok (generate_ok i.fit.wpos i.fit.hpos hs)]
  exact e1

theorem newRoi_throw {f : Fn1} {d : Heap} (hd : HeapOk d) {v : View} {w h : Nat} (i : Input d v w h)
    (hs : w * f.cc v.img.cc * h < 4294967296) (hk : f.check v.img d.mem = .ok () d.mem)
    (hf : f.full v (whole (made d w h (f.cc v.img.cc))) w h (grown d w h (f.cc v.img.cc)).mem =
      .throw (grown d w h (f.cc v.img.cc)).mem) :
    ∃ d', f.newRoi v w h d = .throw d' ∧ SameHeap d d' := by
  obtain ⟨d', e1, e2⟩ := filled_throw hd hf
  refine ⟨d', ?_, e2⟩
  rw [Fn1.newRoi, bind_ok (heapMem_keep (validateRoi_ok _ i.fit i.u32.1 i.u32.2)), bind_ok (heapMem_keep hk),
    bind_ok (generate_ok i.fit.wpos i.fit.hpos hs)]
  exact e1

theorem validImage_ok {img : Image} (hc : img.cc = 1 ∨ img.cc = 3 ∨ img.cc = 4) (hd : img.data ≠ 0) (m : BMem) :
    validateImage img m = .ok () m := by
  have e : (img.empty || !isCorrectColorCount img) = false := by
    rcases hc with h | h | h <;> simp [Image.empty, isCorrectColorCount, h, hd]
  rw [validateImage, e]
  rfl

theorem invalidImage {img : Image} (hn : img.data = 0 ∨ ¬ (img.cc = 1 ∨ img.cc = 3 ∨ img.cc = 4)) :
    (img.empty || !isCorrectColorCount img) = true := by
  rcases hn with h | h
  · simp [Image.empty, h]
  · simp only [isCorrectColorCount, Bool.or_eq_true, beq_iff_eq, Bool.not_eq_true', Bool.or_eq_false_iff, beq_eq_false_iff_ne]
    exact Or.inr (by omega)

/-- The form for a whole image is the form with the rectangle of the image. -/
theorem C101_image_region (f : Fn1) {d : Heap} {img : Image} (i : InputImage d img) :
    f.newWhole img d = f.newRoi (whole img) img.width img.height d := by
  rw [Fn1.newWhole, Fn1.newRoi, bind_ok (heapMem_keep (validateRoi_ok _ i.fit i.u32.1 i.u32.2)),
    bind_ok (heapMem_keep (validImage_ok (img := img) i.fit.colors i.fit.nonempty _))]
  rfl

theorem Op1.cc_eq (o : Op1) (n : Nat) : o.fn.cc n = o.colors n := by cases o <;> rfl

theorem Op1.check_ok (o : Op1) {img : Image} (hg : o.good img.cc (o.colors img.cc)) (m : BMem) : o.fn.check img m = .ok () m := by
  cases o with
  | rgba => exact rgb_ok (by simpa using hg.1)
  | rgb => exact rgba_ok (by simpa using hg.1)
  | _ => rfl

theorem Op1.colors_ok (o : Op1) {n : Nat} (h : n = 1 ∨ n = 3 ∨ n = 4) : o.colors n = 1 ∨ o.colors n = 3 ∨ o.colors n = 4 := by
  cases o <;> simp [Op1.colors, h]

theorem Op1.pixel_grown (o : Op1) (d : Heap) (w' h' cc : Nat) (v : View) (w h : Nat) :
    o.pixel (grown d w' h' cc).mem v w h = o.pixel d.mem v w h := by
  cases o <;> rfl

/-- **C101.** `Image F( in, startX, startY, width, height )` for every function of one image: a new image of the size of the
    rectangle, of the right colours, with the right pixels; no image that existed is changed.

    Partial: LookupTable only for gray-scale images, ConvertToGrayScale and ConvertToRgb not for RGBA images. -/
theorem C101_region_partial (o : Op1) {d : Heap} (hd : HeapOk d) {v : View} {w h : Nat} (i : Input d v w h)
    (hg : o.good v.img.cc (o.colors v.img.cc)) (hs : w * o.colors v.img.cc * h < 2 ^ 32) :
    ∃ d' img, o.fn.newRoi v w h d = .ok img d' ∧ NewImage d d' img w h (o.colors v.img.cc) (o.pixel d.mem v w h) := by
  have p := i.pair hd i.fit.wpos i.fit.hpos (o.colors_ok i.fit.colors) hs
  obtain ⟨m', h1, h2⟩ := o.full_ok p hg
  rw [o.pixel_grown] at h2
  rw [← o.cc_eq] at hs h1 h2 ⊢
  obtain ⟨d', img, e1, _, _, e2⟩ := newRoi_run hd i hs (o.check_ok hg _) h1 h2
  exact ⟨d', img, e1, e2⟩

/-- **C101.** `Image F( in )` for every function of one image. Partial as above. -/
theorem C101_image_partial (o : Op1) {d : Heap} (hd : HeapOk d) {img : Image} (i : InputImage d img)
    (hg : o.good img.cc (o.colors img.cc)) (hs : img.width * o.colors img.cc * img.height < 2 ^ 32) :
    ∃ d' new, o.fn.newWhole img d = .ok new d' ∧
      NewImage d d' new img.width img.height (o.colors img.cc) (o.pixel d.mem (whole img) img.width img.height) := by
  rw [C101_image_region o.fn i]
  exact C101_region_partial o hd i hg hs

/-- Images and parameters which have to be refused. -/
def Op1.refused : Op1 → Nat → Prop
  | .toGray, _ | .toRgb, _ | .invert, _ => False
  | .extract ch, n => n ≤ ch
  | .flip _ _, n => n ≠ 1
  | .lookup table, _ => table.length ≠ 256
  | .bgr, n => n ≠ 3
  | .rgba, n => n ≠ 3
  | .rgb, n => n ≠ 4
  | .threshold _, n => n ≠ 1
  | .threshold2 lo hi, n => n ≠ 1 ∨ hi < lo

/-- **C101.** Refused images and parameters: an exception, and nothing is left behind. -/
theorem C101_rejects (o : Op1) {d : Heap} (hd : HeapOk d) {v : View} {w h : Nat} (i : Input d v w h) (hr : o.refused v.img.cc)
    (hs : w * o.colors v.img.cc * h < 2 ^ 32) : ∃ d', o.fn.newRoi v w h d = .throw d' ∧ SameHeap d d' := by
  obtain ⟨hv, hw, hh⟩ := i.fullU32
  have bad : ∀ {cc : Nat} {P : Prop}, ¬ P → Bad [v, whole (made d w h cc)] w h P := fun hP =>
    ⟨by simp [hv, made_u32 hw hh], hw, hh, Or.inr hP⟩
  rw [← o.cc_eq] at hs
  cases o with
  | toGray => exact hr.elim
  | toRgb => exact hr.elim
  | invert => exact hr.elim
  | extract ch => exact newRoi_throw hd i hs rfl (C20_extractChannel_rejects (bad fun h => Nat.not_lt.2 hr h.2))
  | flip hor ver => exact newRoi_throw hd i hs rfl (C18_flip_rejects hor ver (bad fun h => hr h.1))
  | lookup table => exact newRoi_throw hd i hs rfl (C15_lookupTable_rejects table (bad fun h => hr h.2))
  | bgr => exact newRoi_throw hd i hs rfl (C21_rgbToBgr_rejects (bad fun h => hr h.1))
  | rgba =>
    refine ⟨d, ?_, SameHeap.refl d⟩
    rw [Fn1.newRoi, bind_ok (heapMem_keep (validateRoi_ok _ i.fit i.u32.1 i.u32.2))]
    exact bind_throw (heapMem_throw (rgb_throw ⟨v.img, List.mem_singleton_self _, hr⟩))
  | rgb =>
    refine ⟨d, ?_, SameHeap.refl d⟩
    rw [Fn1.newRoi, bind_ok (heapMem_keep (validateRoi_ok _ i.fit i.u32.1 i.u32.2))]
    exact bind_throw (heapMem_throw (rgba_throw ⟨v.img, List.mem_singleton_self _, hr⟩))
  | threshold t => exact newRoi_throw hd i hs rfl (C14_threshold_rejects t 0 0 (bad fun h => hr h.1)).1
  | threshold2 lo hi =>
    by_cases hc : v.img.cc = 1
    · have p := i.pair hd i.fit.wpos i.fit.hpos (Or.inl rfl) hs
      exact newRoi_throw hd i hs rfl (C14_threshold2_rejects_limits lo hi (hr.resolve_left fun h => h hc)
        ⟨p.wfi, p.wfo, p.fiti, p.fito, hc.symm, noClash_of_apart p.apart⟩ hc)
    · exact newRoi_throw hd i hs rfl (C14_threshold_rejects 0 lo hi (bad fun h => hc h.1)).2

/-- A rectangle which does not fit, for any function of one image. -/
theorem C101_rejects_rectangle (f : Fn1) (d : Heap) {v : View} {w h : Nat} (hv : v.U32) (hw : w < 2 ^ 32) (hh : h < 2 ^ 32)
    (hn : ¬ v.Fits w h) : f.newRoi v w h d = .throw d := by
  rw [Fn1.newRoi, bind_throw (heapMem_throw (validateRoi_throw _ hn hv hw hh))]

/-- An empty image or an unknown colour count, for any function of one image. -/
theorem C101_rejects_image (f : Fn1) (d : Heap) {img : Image} (hn : img.data = 0 ∨ ¬ (img.cc = 1 ∨ img.cc = 3 ∨ img.cc = 4)) :
    f.newWhole img d = .throw d := by
  rw [Fn1.newWhole, bind_throw (heapMem_throw ?_)]
  rw [validateImage]
  rw [invalidImage hn]
  rfl

/-! ### Functions of two images -/

/-- The functions of two images. -/
inductive Op2
  | absoluteDifference | bitwiseAnd | bitwiseOr | bitwiseXor | maximum | minimum | subtract

/-- The function called. -/
def Op2.fn : Op2 → Fn2
  | .absoluteDifference => AbsoluteDifference
  | .bitwiseAnd => BitwiseAnd
  | .bitwiseOr => BitwiseOr
  | .bitwiseXor => BitwiseXor
  | .maximum => Maximum
  | .minimum => Minimum
  | .subtract => Subtract

/-- `r` is the value for the pixels `a` and `b`. -/
def Op2.value (o : Op2) (a b r : UInt8) : Prop :=
  match o with
  | .absoluteDifference => (r.toNat : Int) = |(a.toNat : Int) - b.toNat|
  | .bitwiseAnd => ∀ k, bit r k = (bit a k && bit b k)
  | .bitwiseOr => ∀ k, bit r k = (bit a k || bit b k)
  | .bitwiseXor => ∀ k, bit r k = (bit a k ^^ bit b k)
  | .maximum => r.toNat = max a.toNat b.toNat
  | .minimum => r.toNat = min a.toNat b.toNat
  | .subtract => r.toNat = a.toNat - b.toNat

/-- Images for which Subtract is right. -/
def Op2.fine (o : Op2) (v1 v2 : View) (w h : Nat) : Prop :=
  match o with
  | .subtract => v2.img.rowSize = v1.img.rowSize ∨ v1.img.rowSize ≠ w * v1.img.cc ∨ h = 1
  | _ => True

theorem Op2.full_ok (o : Op2) {m : BMem} {in1 in2 out : View} {w h : Nat} (r : Ready2 m in1 in2 out w h) (hf : o.fine in1 in2 w h) :
    ∃ (m' : BMem) (F : Nat → Nat → Nat → UInt8), o.fn in1 in2 out w h m = .ok () m' ∧ WritesRoi m m' out w h F ∧
      ∀ x y c, o.value (in1.get m x y c) (in2.get m x y c) (F x y c) := by
  have lt : ∀ a : UInt8, a.toNat < 256 := UInt8.toNat_lt
  cases o with
  | absoluteDifference =>
    obtain ⟨m', h1, h2⟩ := C09_absoluteDifference r
    refine ⟨m', _, h1, h2, fun x y c => ?_⟩
    have a1 := lt (in1.get m x y c)
    have a2 := lt (in2.get m x y c)
    rw [Op2.value, specAbsDiff, ofNat_toNat' (by omega), Int.natCast_natAbs]
  | bitwiseAnd =>
    obtain ⟨m', F, h1, h2, h3⟩ := C10_bitwiseAnd r
    exact ⟨m', F, h1, h2, fun x y c k => h3 x y c k⟩
  | bitwiseOr =>
    obtain ⟨m', F, h1, h2, h3⟩ := C10_bitwiseOr r
    exact ⟨m', F, h1, h2, fun x y c k => h3 x y c k⟩
  | bitwiseXor =>
    obtain ⟨m', F, h1, h2, h3⟩ := C10_bitwiseXor r
    exact ⟨m', F, h1, h2, fun x y c k => h3 x y c k⟩
  | maximum =>
    obtain ⟨m', h1, h2⟩ := C11_maximum r
    refine ⟨m', _, h1, h2, fun x y c => ?_⟩
    have a1 := lt (in1.get m x y c)
    have a2 := lt (in2.get m x y c)
    rw [Op2.value, specMax, show Nat.max _ _ = max _ _ from rfl, ofNat_toNat' (by omega)]
  | minimum =>
    obtain ⟨m', h1, h2⟩ := C11_minimum r
    refine ⟨m', _, h1, h2, fun x y c => ?_⟩
    have a1 := lt (in1.get m x y c)
    have a2 := lt (in2.get m x y c)
    rw [Op2.value, specMin, show Nat.min _ _ = min _ _ from rfl, ofNat_toNat' (by omega)]
  | subtract =>
    have hg : SubtractGuard in1 in2 out w h := by
      rcases hf with h | h | h
      · exact Or.inl h
      · exact Or.inr (Or.inl fun e => h e.1)
      · exact Or.inr (Or.inr h)
    obtain ⟨m', h1, h2⟩ := C12_subtract_partial r hg
    refine ⟨m', _, h1, h2, fun x y c => ?_⟩
    have a1 := lt (in1.get m x y c)
    have a2 := lt (in2.get m x y c)
    rw [Op2.value, specSub, ofNat_toNat' (by omega)]

/-- **C101.** `Image F( in1, startX1, startY1, in2, startX2, startY2, width, height )` for every function of two images.

    Partial: Subtract not for a second image with rows of another size (C12). -/
theorem C101_region2_partial (o : Op2) {d : Heap} (hd : HeapOk d) {v1 v2 : View} {w h : Nat} (i1 : Input d v1 w h) (i2 : Input d v2 w h)
    (hc : v2.img.cc = v1.img.cc) (hf : o.fine v1 v2 w h) :
    ∃ d' img G, newRoi2 o.fn v1 v2 w h d = .ok img d' ∧ NewImage d d' img w h v1.img.cc G ∧
      ∀ x y c, o.value (v1.get d.mem x y c) (v2.get d.mem x y c) (G x y c) := by
  have hs := i1.small
  have p1 := i1.pair hd i1.fit.wpos i1.fit.hpos i1.fit.colors hs
  have p2 := i2.pair hd i1.fit.wpos i1.fit.hpos i1.fit.colors hs
  obtain ⟨m', F, h1, h2, h3⟩ := o.full_ok ⟨p1.wfi, p2.wfi, p1.wfo, p1.fiti, p2.fiti, p1.fito, hc, rfl, noClash_of_apart p1.apart,
    noClash_of_apart p2.apart⟩ hf
  obtain ⟨d', e1, _, e3⟩ := filled_ok hd hs h1 h2
  refine ⟨d', _, F, ?_, e3, h3⟩
  rw [newRoi2, bind_ok (heapMem_keep (validateRois_ok _ (vs := [v1, v2]) (by simp; exact ⟨⟨i1.fit, i1.u32⟩, i2.fit, i2.u32⟩))),
    bind_ok (generate_ok i1.fit.wpos i1.fit.hpos hs)]
  exact e1

theorem validImages2 {a b : Image} {m : BMem} (ha : (whole a).Fits a.width a.height) (hb : (whole b).Fits b.width b.height)
    (hw : b.width = a.width) (hh : b.height = a.height) : validateImages2 a b m = .ok () m := by
  have e : (a.empty || b.empty || !isCorrectColorCount a || !isCorrectColorCount b || a.width != b.width || a.height != b.height) = false := by
    have h1 : a.empty = false := by simpa [Image.empty, whole] using ha.nonempty
    have h2 : b.empty = false := by simpa [Image.empty, whole] using hb.nonempty
    have h3 : isCorrectColorCount a = true := by rcases ha.colors with h | h | h <;> simp [isCorrectColorCount, show a.cc = _ from h]
    have h4 : isCorrectColorCount b = true := by rcases hb.colors with h | h | h <;> simp [isCorrectColorCount, show b.cc = _ from h]
    simp [h1, h2, h3, h4, hw, hh]
  rw [validateImages2, e]
  rfl

/-- **C101.** `Image F( in1, in2 )` for every function of two images. Partial as above. -/
theorem C101_image2_partial (o : Op2) {d : Heap} (hd : HeapOk d) {a b : Image} (i1 : InputImage d a) (i2 : InputImage d b)
    (hw : b.width = a.width) (hh : b.height = a.height) (hc : b.cc = a.cc) (hf : o.fine (whole a) (whole b) a.width a.height) :
    ∃ d' img G, newWhole2 o.fn a b d = .ok img d' ∧ NewImage d d' img a.width a.height a.cc G ∧
      ∀ x y c, o.value ((whole a).get d.mem x y c) ((whole b).get d.mem x y c) (G x y c) := by
  have i2' : Input d (whole b) a.width a.height := ⟨i2.wf, hw ▸ hh ▸ i2.fit⟩
  obtain ⟨d', img, G, e1, e2⟩ := C101_region2_partial o hd i1 i2' hc hf
  refine ⟨d', img, G, ?_, e2⟩
  have hv : validateImages [a, b] d.mem = .ok () d.mem := bind_ok (validImages2 i1.fit i2.fit hw hh)
  rw [newWhole2, bind_ok (heapMem_keep hv)]
  rw [newRoi2, bind_ok (heapMem_keep (validateRois_ok _ (vs := [whole a, whole b]) (by simp; exact ⟨⟨i1.fit, i1.u32⟩, i2'.fit, i2'.u32⟩)))] at e1
  exact e1

/-- **C101.** Images of different colours or rectangles which do not fit: an exception, and nothing is left behind. -/
theorem C101_rejects2 (o : Op2) {d : Heap} (hd : HeapOk d) {v1 v2 : View} {w h : Nat} (u1 : v1.U32) (u2 : v2.U32) (hw : w < 2 ^ 32)
    (hh : h < 2 ^ 32) (wf : v1.img.WF d.mem) (hb : ¬ v1.Fits w h ∨ ¬ v2.Fits w h ∨ v2.img.cc ≠ v1.img.cc) :
    ∃ d', newRoi2 o.fn v1 v2 w h d = .throw d' ∧ SameHeap d d' := by
  by_cases hf : v1.Fits w h ∧ v2.Fits w h
  · have hs := Input.small ⟨wf, hf.1⟩
    have bad : Bad [v1, v2, whole (made d w h v1.img.cc)] w h (SameColors2 v1 v2 (whole (made d w h v1.img.cc))) :=
      ⟨by simp [u1, u2, made_u32 hw hh], hw, hh, Or.inr fun e => (hb.resolve_left fun n => n hf.1).resolve_left (fun n => n hf.2) e.1⟩
    have ht : ∀ m : BMem, o.fn v1 v2 (whole (made d w h v1.img.cc)) w h m = .throw m := by
      intro m
      cases o with
      | absoluteDifference => exact C09_absoluteDifference_rejects bad
      | bitwiseAnd => exact (C10_bitwise_rejects bad).1
      | bitwiseOr => exact (C10_bitwise_rejects bad).2.1
      | bitwiseXor => exact (C10_bitwise_rejects bad).2.2
      | maximum => exact (C11_rejects bad).1
      | minimum => exact (C11_rejects bad).2
      | subtract => exact C12_subtract_rejects bad
    obtain ⟨d', e1, e2⟩ := filled_throw hd (ht _)
    refine ⟨d', ?_, e2⟩
    rw [newRoi2, bind_ok (heapMem_keep (validateRois_ok _ (vs := [v1, v2]) (by simp; exact ⟨⟨hf.1, u1.hw, u1.hh⟩, hf.2, u2.hw, u2.hh⟩))),
      bind_ok (generate_ok hf.1.wpos hf.1.hpos hs)]
    exact e1
  · refine ⟨d, ?_, SameHeap.refl d⟩
    rw [newRoi2, bind_throw (heapMem_throw (validateRois_throw _ (by simp [u1, u2]) hw hh ?_))]
    by_cases h1 : v1.Fits w h
    · exact ⟨v2, by simp, fun h2 => hf ⟨h1, h2⟩⟩
    · exact ⟨v1, by simp, h1⟩

/-! ### The other functions -/

/-- **C101.** Merge of three gray-scale images: a new RGB image. -/
theorem C101_merge {d : Heap} (hd : HeapOk d) {v1 v2 v3 : View} {w h : Nat} (i1 : Input d v1 w h) (i2 : Input d v2 w h)
    (i3 : Input d v3 w h) (c1 : v1.img.cc = 1) (c2 : v2.img.cc = 1) (c3 : v3.img.cc = 1) (hs : w * 3 * h < 2 ^ 32) :
    ∃ d' img, newMergeRoi v1 v2 v3 w h d = .ok img d' ∧ NewImage d d' img w h 3 fun x y c => (three v1 v2 v3 c).get d.mem x y 0 := by
  have p1 := i1.pair hd i1.fit.wpos i1.fit.hpos (Or.inr (Or.inl rfl)) hs
  have p2 := i2.pair hd i1.fit.wpos i1.fit.hpos (Or.inr (Or.inl rfl)) hs
  have p3 := i3.pair hd i1.fit.wpos i1.fit.hpos (Or.inr (Or.inl rfl)) hs
  obtain ⟨m', h1, h2⟩ := C20_merge p1 p2 p3 rfl c1 c2 c3
  obtain ⟨d', e1, _, e3⟩ := filled_ok hd hs h1 h2
  refine ⟨d', _, ?_, e3⟩
  rw [newMergeRoi, bind_ok (heapMem_keep (validateRois_ok _ (vs := [v1, v2, v3])
    (by simp; exact ⟨⟨i1.fit, i1.u32⟩, ⟨i2.fit, i2.u32⟩, i3.fit, i3.u32⟩))), bind_ok (generate_ok i1.fit.wpos i1.fit.hpos hs)]
  exact e1

theorem C101_merge_image {d : Heap} (hd : HeapOk d) {a b c : Image} (i1 : InputImage d a) (i2 : InputImage d b) (i3 : InputImage d c)
    (h2 : b.width = a.width ∧ b.height = a.height) (h3 : c.width = a.width ∧ c.height = a.height)
    (c1 : a.cc = 1) (c2 : b.cc = 1) (c3 : c.cc = 1) (hs : a.width * 3 * a.height < 2 ^ 32) :
    ∃ d' img, newMerge a b c d = .ok img d' ∧
      NewImage d d' img a.width a.height 3 fun x y k => (three (whole a) (whole b) (whole c) k).get d.mem x y 0 := by
  have i2' : Input d (whole b) a.width a.height := ⟨i2.wf, h2.1 ▸ h2.2 ▸ i2.fit⟩
  have i3' : Input d (whole c) a.width a.height := ⟨i3.wf, h3.1 ▸ h3.2 ▸ i3.fit⟩
  obtain ⟨d', img, e1, e2⟩ := C101_merge hd i1 i2' i3' c1 c2 c3 hs
  refine ⟨d', img, ?_, e2⟩
  have hv : validateImages [a, b, c] d.mem = .ok () d.mem := by
    rw [validateImages, bind_ok (validImages2 i1.fit i2.fit h2.1 h2.2)]
    exact bind_ok (validImages2 i2.fit i3.fit (h3.1.trans h2.1.symm) (h3.2.trans h2.2.symm))
  rw [newMerge, bind_ok (heapMem_keep hv)]
  rw [newMergeRoi, bind_ok (heapMem_keep (validateRois_ok _ (vs := [whole a, whole b, whole c])
    (by simp; exact ⟨⟨i1.fit, i1.u32⟩, ⟨i2'.fit, i2'.u32⟩, i3'.fit, i3'.u32⟩)))] at e1
  rw [bind_ok (generate_ok i1.fit.wpos i1.fit.hpos hs)] at e1 ⊢
  exact e1

/-- **C101.** Transpose: a new image with width and height exchanged. -/
theorem C101_transpose {d : Heap} (hd : HeapOk d) {v : View} {w h : Nat} (i : Input d v w h) (hc : v.img.cc = 1) :
    ∃ d' img, newTransposeRoi v w h d = .ok img d' ∧ NewImage d d' img h w 1 fun x y c => v.get d.mem y x c := by
  have hs : h * 1 * w < 4294967296 := by
    have := i.small1
    rw [Nat.mul_one] at this ⊢
    rwa [Nat.mul_comm]
  have p := i.pair hd i.fit.hpos i.fit.wpos (Or.inl rfl) hs
  obtain ⟨m', h1, h2⟩ := C19_transpose p hc rfl
  obtain ⟨d', e1, _, e3⟩ := filled_ok hd hs h1 h2
  refine ⟨d', _, ?_, e3⟩
  rw [newTransposeRoi, bind_ok (heapMem_keep (validateRoi_ok _ i.fit i.u32.1 i.u32.2)), bind_ok (generate_ok i.fit.hpos i.fit.wpos hs)]
  exact e1

theorem C101_transpose_image {d : Heap} (hd : HeapOk d) {img : Image} (i : InputImage d img) (hc : img.cc = 1) :
    ∃ d' new, newTranspose img d = .ok new d' ∧ NewImage d d' new img.height img.width 1 fun x y c => (whole img).get d.mem y x c := by
  obtain ⟨d', new, e1, e2⟩ := C101_transpose hd i hc
  refine ⟨d', new, ?_, e2⟩
  rw [newTranspose, bind_ok (heapMem_keep (validImage_ok (img := img) i.fit.colors i.fit.nonempty _))]
  rw [newTransposeRoi, bind_ok (heapMem_keep (validateRoi_ok _ i.fit i.u32.1 i.u32.2))] at e1
  exact e1

/-- **C101.** Transposing twice, each time into a new image, gives the pixels of the image. -/
theorem C101_transpose_twice {d : Heap} (hd : HeapOk d) {img : Image} (i : InputImage d img) (hc : img.cc = 1) :
    ∃ d' d'' new new', newTranspose img d = .ok new d' ∧ newTranspose new d' = .ok new' d'' ∧
      NewImage d' d'' new' img.width img.height 1 fun x y c => (whole img).get d.mem x y c := by
  obtain ⟨d', new, e1, n⟩ := C101_transpose_image hd i hc
  have hs : img.height * 1 * img.width < 4294967296 := by
    have := i.small1
    rw [Nat.mul_one] at this ⊢
    rwa [Nat.mul_comm]
  have i' : InputImage d' new := by
    refine ⟨⟨?_, ?_, ?_⟩, ?_, Or.inl n.colors, ?_, ?_, ?_, ?_⟩
    · show new.width * new.cc ≤ new.rowSize
      rw [n.row, n.width, n.colors]
    · show new.rowSize * new.height ≤ d'.mem.size new.data
      rw [n.size, n.row, n.height]
    · show new.rowSize * new.height < _
      rw [n.row, n.height]
      exact hs
    · exact n.data
    · rw [n.width]; exact i.fit.hpos
    · rw [n.height]; exact i.fit.wpos
    · simp [whole]
    · simp [whole]
  obtain ⟨d'', new', e2, n'⟩ := C101_transpose_image n.ok i' n.colors
  rw [n.width, n.height] at n'
  refine ⟨d', d'', new, new', e1, e2, n'.width, n'.height, n'.colors, n'.row, n'.data, n'.before, n'.size, ?_, n'.others, n'.ok⟩
  intro x y c hx hy hc'
  rw [n'.pixels x y c hx hy hc', n.pixels y x c hy hx hc']

/-- **C101.** Resize of a gray-scale image: the nearest pixels in a new image of the size asked for.

    Partial: gray-scale only (see `C101_resize_wrong`), sizes whose product is less than 2^32 (C31). -/
theorem C101_resize_partial {d : Heap} (hd : HeapOk d) {v : View} {wi hi wo ho : Nat} (i : Input d v wi hi) (hc : v.img.cc = 1)
    (hwo : 0 < wo) (hho : 0 < ho) (hs : wo * ho < 2 ^ 32) (hx : (wo - 1) * wi < 2 ^ 32) (hy : (ho - 1) * hi < 2 ^ 32) :
    ∃ d' img, newResizeRoi v wi hi wo ho d = .ok img d' ∧
      NewImage d d' img wo ho 1 fun x y c => v.get d.mem (x * wi / wo) (y * hi / ho) c := by
  have hs : wo * 1 * ho < 4294967296 := by rw [Nat.mul_one]; exact hs
  have p := i.pair hd hwo hho (Or.inl rfl) hs
  obtain ⟨m', h1, h2⟩ := C31_resize_partial p hc.symm hx hy
  obtain ⟨d', e1, _, e3⟩ := filled_ok hd hs h1 h2
  refine ⟨d', _, ?_, e3⟩
  rw [newResizeRoi, bind_ok (heapMem_keep (validateRoi_ok _ i.fit i.u32.1 i.u32.2)), bind_ok (generate_ok hwo hho hs)]
  exact e1

theorem C101_resize_image_partial {d : Heap} (hd : HeapOk d) {img : Image} {wo ho : Nat} (i : InputImage d img) (hc : img.cc = 1)
    (hwo : 0 < wo) (hho : 0 < ho) (hs : wo * ho < 2 ^ 32) (hx : (wo - 1) * img.width < 2 ^ 32) (hy : (ho - 1) * img.height < 2 ^ 32) :
    ∃ d' new, newResize img wo ho d = .ok new d' ∧
      NewImage d d' new wo ho 1 fun x y c => (whole img).get d.mem (x * img.width / wo) (y * img.height / ho) c := by
  obtain ⟨d', new, e1, e2⟩ := C101_resize_partial hd i hc hwo hho hs hx hy
  refine ⟨d', new, ?_, e2⟩
  rw [newResize, bind_ok (heapMem_keep (validImage_ok (img := img) i.fit.colors i.fit.nonempty _))]
  rw [newResizeRoi, bind_ok (heapMem_keep (validateRoi_ok _ i.fit i.u32.1 i.u32.2))] at e1
  exact e1

/-- A size of zero is refused. -/
theorem C101_resize_rejects {d : Heap} {v : View} {wi hi wo ho : Nat} (i : Input d v wi hi) (hz : wo = 0 ∨ ho = 0)
    (hw : wo < 2 ^ 32) (hh : ho < 2 ^ 32) (h0 : d.mem.size 0 = 0) : ∃ d', newResizeRoi v wi hi wo ho d = .throw d' ∧ SameHeap d d' := by
  obtain ⟨hv, hw', hh'⟩ := i.fullU32
  refine ⟨d.release ⟨0, 0, 0, 1, 0⟩, ?_, fun b => ?_, fun b i => rfl⟩
  · rw [newResizeRoi, bind_ok (heapMem_keep (validateRoi_ok _ i.fit i.u32.1 i.u32.2)), bind_ok (show generate wo ho 1 d = .ok ⟨0, 0, 0, 1, 0⟩ d by
      rw [generate, if_pos hz]), filled, heapMem_throw (C31_resize_rejects hv ⟨by simp, by simp, by simp, by simp⟩ hw' hh' hw hh
        (Or.inr fun f => f.nonempty rfl))]
  · show (if b = 0 then 0 else d.mem.size b) = d.mem.size b
    split
    · next h => rw [h, h0]
    · rfl

/-- **C101.** GammaCorrection of a gray-scale image. Partial: gray-scale only, as LookupTable. -/
theorem C101_gamma_partial {rnd : ℚ → ℚ} (r : Rounding rnd) {pow : ℚ → ℚ → ℚ} {a gamma : ℚ} (hp : PowOk pow gamma) (ha : 0 ≤ a)
    (hg : 0 ≤ gamma) {d : Heap} (hd : HeapOk d) {v : View} {w h : Nat} (i : Input d v w h) (hc : v.img.cc = 1) :
    ∃ (f : UInt8 → UInt8) (d' : Heap) (img : Image), (gammaCorrection rnd pow a gamma).newRoi v w h d = .ok img d' ∧
      NewImage d d' img w h 1 (fun x y c => f (v.get d.mem x y c)) ∧
      (∀ u v, u ≤ v → f u ≤ f v) ∧
      (pow 0 gamma = 0 → f 0 = 0) ∧
      (pow 1 gamma = 1 → 1 ≤ a → f 255 = 255) ∧
      (a = 1 → (∀ x, pow x gamma = x) → ∀ u, f u = u) := by
  have p := i.pair hd i.fit.wpos i.fit.hpos (Or.inl rfl) i.small1
  obtain ⟨f, m', h1, h2, h3⟩ := C74_gamma r hp ha hg ⟨p.wfi, p.wfo, p.fiti, p.fito, hc.symm, noClash_of_apart p.apart⟩
  obtain ⟨d', img, e1, _, _, e2⟩ := newRoi_run (f := gammaCorrection rnd pow a gamma) hd i i.small1 rfl h1 h2
  exact ⟨f, d', img, e1, e2, h3⟩

/-- **C101.** Normalize of a gray-scale image. Partial: gray-scale only, as LookupTable. -/
theorem C101_normalize_partial {rnd : ℚ → ℚ} (r : Rounding rnd) {oob : ℚ → Option UInt8} (ho : ∀ q, (oob q).isSome)
    {d : Heap} (hd : HeapOk d) {v : View} {w h : Nat} (i : Input d v w h) (hc : v.img.cc = 1) :
    ∃ d' img G, (normalize rnd oob).newRoi v w h d = .ok img d' ∧ NewImage d d' img w h 1 G ∧
      Stretched d.mem d'.mem v (whole img) w h := by
  have p := i.pair hd i.fit.wpos i.fit.hpos (Or.inl rfl) i.small1
  obtain ⟨m', h1, h2, h3⟩ := C34_normalize_partial r ho
    ⟨⟨p.wfi, p.wfo, p.fiti, p.fito, hc.symm, noClash_of_apart p.apart⟩, p.apart⟩
  obtain ⟨d', img, e1, e2, e3, e4⟩ := newRoi_run (f := normalize rnd oob) hd i i.small1 rfl h1 h2
  refine ⟨d', img, _, e1, e4, ?_⟩
  rw [e2, e3]
  exact ⟨h3.order, h3.const, h3.low, h3.high, h3.near⟩

/-- **C101.** Rotate: C97 with a new image. -/
theorem C101_rotate {rnd : ℚ → ℚ} (R : Rounding rnd) {d : Heap} (hd : HeapOk d) {v : View} {w h C : Nat} (i : Input d v w h)
    (hg : v.img.cc = 1) {cosA sinA cx cy : ℚ} (hc : |cosA| ≤ 1) (hs : |sinA| ≤ 1) (hx : |cx| ≤ C) (hy : |cy| ≤ C)
    (small : 3 * C + w + h ≤ 4294967296) :
    ∃ (d' : Heap) (img : Image) (F : Nat → Nat → UInt8), newRotateRoi rnd cosA sinA v cx cy w h d = .ok img d' ∧
      NewImage d d' img w h 1 (fun x y _ => F x y) ∧
      ∀ k l, k < w → l < h → ∃ p q,
        |p - turnedX cosA sinA cx cx cy k l| ≤ (k + l + 3) * ((3 * C + w + h) / 2 ^ 52) ∧
        |q - turnedY cosA sinA cy cx cy k l| ≤ (k + l + 3) * ((3 * C + w + h) / 2 ^ 52) ∧
        Sampled d.mem v w h (1 / 2 ^ 36) p q (F k l) := by
  have p := i.pair hd i.fit.wpos i.fit.hpos (Or.inl rfl) i.small1
  obtain ⟨m', F, h1, h2, h3⟩ := C97_turned R ⟨⟨p.wfi, p.wfo, p.fiti, p.fito, hg, rfl⟩, p.apart, hc, hs, hx, hy, hx, hy, small⟩
  obtain ⟨d', e1, _, e3⟩ := filled_ok hd i.small1 h1 h2
  refine ⟨d', _, F, ?_, e3, h3⟩
  rw [newRotateRoi, bind_ok (heapMem_keep (validateRoi_ok _ i.fit i.u32.1 i.u32.2)), bind_ok (heapMem_keep (gray_ok (by simp [hg]))),
    hg, bind_ok (generate_ok i.fit.wpos i.fit.hpos i.small1)]
  exact e1

/-- The form for a whole gray-scale image is the form with the rectangle of the image. -/
theorem C101_rotate_image {rnd : ℚ → ℚ} {d : Heap} {img : Image} (i : InputImage d img) (hg : img.cc = 1) (cosA sinA cx cy : ℚ) :
    newRotate rnd cosA sinA img cx cy d = newRotateRoi rnd cosA sinA (whole img) cx cy img.width img.height d := by
  rw [newRotate, newRotateRoi, bind_ok (heapMem_keep (validateRoi_ok _ i.fit i.u32.1 i.u32.2)),
    bind_ok (heapMem_keep (validImage_ok (img := img) i.fit.colors i.fit.nonempty _))]
  show _ = (onMem (verifyGray [img]) >>= fun _ => generate img.width img.height img.cc >>= _) d
  rw [hg]
  rfl

/-- **C101.** Shift: C98 with a new image. Partial as C98. -/
theorem C101_shift_partial {rnd : ℚ → ℚ} (R : Rounding rnd) {d : Heap} (hd : HeapOk d) {v : View} {w h : Nat} (i : Input d v w h)
    (hg : v.img.cc = 1) {sx sy : ℚ} (small : v.img.rowSize * v.img.height + v.img.rowSize < 2147483648)
    (hx : |sx| ≤ w - 1) (hy : |sy| ≤ h - 1) (hX : Room v.x w v.img.width sx) (hY : RoomY v.y h v.img.height sy) :
    ∃ (d' : Heap) (img : Image) (F : Nat → Nat → UInt8), (shift rnd sx sy).newRoi v w h d = .ok img d' ∧
      NewImage d d' img w h 1 (fun x y _ => F x y) ∧
      ∀ k l, F k l = 0 ∨ ∃ X Y, X + 1 < v.img.width ∧ Y + 1 < v.img.height ∧ Between d.mem (whole v.img) X Y (F k l) := by
  have p := i.pair hd i.fit.wpos i.fit.hpos (Or.inl rfl) i.small1
  obtain ⟨m', F, h1, h2, h3⟩ := C98_partial R ⟨⟨p.wfi, p.wfo, p.fiti, p.fito, hg, rfl⟩,
    apart_of_ne _ _ _ _ (old_image hd i.wf i.fit w h 1).2, small, hx, hy⟩ hX hY
  obtain ⟨d', img, e1, _, _, e2⟩ := newRoi_run (f := shift rnd sx sy) hd i i.small1 rfl h1 h2
  exact ⟨d', img, F, e1, e2, h3⟩

/-- **C101.** Copy of a rectangle, any colours. -/
theorem C101_copy {d : Heap} (hd : HeapOk d) {v : View} {w h : Nat} (i : Input d v w h) :
    ∃ d' img, copy.newRoi v w h d = .ok img d' ∧ NewImage d d' img w h v.img.cc fun x y c => v.get d.mem x y c := by
  have p := i.pair hd i.fit.wpos i.fit.hpos i.fit.colors i.small
  obtain ⟨m', h1, h2⟩ := C16_copy p.wfi p.wfo p.fiti p.fito rfl p.apart
  obtain ⟨d', img, e1, _, _, e2⟩ := newRoi_run (f := copy) hd i i.small rfl h1 h2
  exact ⟨d', img, e1, e2⟩

/-! ### Where the claim is false -/

/-- The functions with an output of one colour for every input throw for every colour image, although the form
    with an output image accepts them. -/
theorem C101_colour_wrong {rnd : ℚ → ℚ} (r : Rounding rnd) {pow : ℚ → ℚ → ℚ} {a gamma : ℚ} (hp : PowOk pow gamma)
    {oob : ℚ → Option UInt8} (table : List UInt8) {d : Heap} (hd : HeapOk d) {v : View} {w h : Nat} (i : Input d v w h)
    (hc : v.img.cc ≠ 1) :
    (∃ d', (lookupTable table).newRoi v w h d = .throw d' ∧ SameHeap d d') ∧
    (∃ d', (gammaCorrection rnd pow a gamma).newRoi v w h d = .throw d' ∧ SameHeap d d') ∧
    ∃ d', (normalize rnd oob).newRoi v w h d = .throw d' ∧ SameHeap d d' := by
  obtain ⟨hv, hw, hh⟩ := i.fullU32
  have bad : ∀ {P : Prop}, ¬ P → Bad [v, whole (made d w h 1)] w h P := fun hP =>
    ⟨by simp [hv, made_u32 hw hh], hw, hh, Or.inr hP⟩
  exact ⟨newRoi_throw hd i i.small1 rfl (C15_lookupTable_rejects table (bad fun h => hc h.1.symm)),
    newRoi_throw hd i i.small1 rfl (C74_rejects r hp (bad fun h => hc h.1.symm)),
    newRoi_throw hd i i.small1 rfl (C34_rejects (bad fun h => hc h.symm))⟩

/-- A heap with the images of the examples. -/
def exHeap : Heap := ⟨{ exMem with size := fun b => if b = 0 ∨ 7 < b then 0 else 16 }, 8⟩

theorem exHeap_ok : HeapOk exHeap := by
  refine ⟨by decide, fun b hb => ?_⟩
  have : 8 ≤ b := hb
  show (if b = 0 ∨ 7 < b then 0 else 16) = 0
  rw [if_pos (by omega)]

/-- Resize of an RGB image of 1 x 2 pixels to this size writes outside of the new image. -/
theorem C101_resize_wrong : isUb (newResize (rgbEx 1) 1 2 exHeap) = true := by decide +kernel

theorem exInput : Input exHeap ⟨padded 2, 0, 0⟩ 2 2 :=
  ⟨⟨by decide, by decide, by decide⟩, by decide, Or.inl rfl, by decide, by decide, by decide, by decide⟩

theorem exInput' : Input exHeap ⟨tight 1, 0, 0⟩ 2 2 :=
  ⟨⟨by decide, by decide, by decide⟩, by decide, Or.inl rfl, by decide, by decide, by decide, by decide⟩

example : InputImage exHeap (padded 2) := exInput

/-- A byte of the new image. -/
def newByte (r : Res Heap Image) (i : Nat) : Option (Nat × UInt8) :=
  match r with
  | .ok img d => some (img.data, d.mem.byte img.data i)
  | _ => none

example : newByte (Forms.invert.newWhole (padded 2) exHeap) 3 = some (8, 210) := by decide
example : newByte (newTranspose (padded 2) exHeap) 1 = some (8, 36) := by decide
example : newByte (newRoi2 AbsoluteDifference ⟨padded 2, 0, 0⟩ ⟨tight 1, 0, 0⟩ 2 2 exHeap) 3 = some (8, 26) := by decide
example : newByte (newResize (padded 2) 4 1 exHeap) 2 = some (8, 21) := by decide
example : (Op1.rgba).good (rgbEx 1).cc ((Op1.rgba).colors (rgbEx 1).cc) := ⟨rfl, rfl⟩
example : (Op1.threshold2 3 5).refused 1 → False := by simp [Op1.refused]

/-! ### C102 : whole images -/

/-- Two images, both existing, which share no pixel. -/
structure Two (m : BMem) (a b : Image) : Prop where
  wfa : a.WF m
  wfb : b.WF m
  fita : (whole a).Fits a.width a.height
  fitb : (whole b).Fits b.width b.height
  apart : Apart (whole a) a.width a.height (whole b) b.width b.height

theorem Op1.check2_ok (o : Op1) {a b : Image} (hg : o.good a.cc b.cc) (m : BMem) : o.fn.check2 a b m = .ok () m := by
  cases o with
  | rgba =>
    show (verifyRgb [a] >>= fun _ => verifyRgba [b] : M BMem Unit) m = .ok () m
    rw [bind_ok (rgb_ok (by simpa using hg.1))]
    exact rgba_ok (by simpa using hg.2)
  | rgb =>
    show (verifyRgba [a] >>= fun _ => verifyRgb [b] : M BMem Unit) m = .ok () m
    rw [bind_ok (rgba_ok (by simpa using hg.1))]
    exact rgb_ok (by simpa using hg.2)
  | _ => rfl

/-- **C102.** `F( in, out )` for every function of one image: every pixel of `out` gets its value, nothing else is
    written. -/
theorem C102_one (o : Op1) {m : BMem} {a b : Image} (t : Two m a b) (hw : b.width = a.width) (hh : b.height = a.height)
    (hg : o.good a.cc b.cc) :
    ∃ m', o.fn.whole a b m = .ok () m' ∧ WritesRoi m m' (whole b) b.width b.height (o.pixel m (whole a) b.width b.height) := by
  have p : Pair m (whole a) b.width b.height (whole b) b.width b.height := by
    have h1 := t.fita
    have h2 := t.apart
    rw [← hw, ← hh] at h1 h2
    exact ⟨t.wfa, t.wfb, h1, t.fitb, h2⟩
  obtain ⟨m', h1, h2⟩ := o.full_ok p hg
  refine ⟨m', ?_, h2⟩
  rw [Fn1.whole, bind_ok (validImages2 t.fita t.fitb hw hh), bind_ok (o.check2_ok hg m), ← hw, ← hh]
  exact h1

/-- **C102.** Images of different sizes, empty images and unknown colours are refused, whatever the function. -/
theorem C102_rejects (f : Fn1) (m : BMem) {a b : Image}
    (hb : b.width ≠ a.width ∨ b.height ≠ a.height ∨ a.data = 0 ∨ b.data = 0 ∨ ¬ (a.cc = 1 ∨ a.cc = 3 ∨ a.cc = 4) ∨
      ¬ (b.cc = 1 ∨ b.cc = 3 ∨ b.cc = 4)) : f.whole a b m = .throw m := by
  rw [Fn1.whole, bind_throw ?_]
  have ha := invalidImage (img := a)
  have hb' := invalidImage (img := b)
  have e : (a.empty || b.empty || !isCorrectColorCount a || !isCorrectColorCount b || a.width != b.width || a.height != b.height) = true := by
    simp only [Bool.or_eq_true, bne_iff_ne, ne_eq] at ha hb' ⊢
    rcases hb with h | h | h | h | h | h
    · exact Or.inl (Or.inr fun e => h e.symm)
    · exact Or.inr fun e => h e.symm
    · rcases ha (Or.inl h) with k | k <;> simp [k]
    · rcases hb' (Or.inl h) with k | k <;> simp [k]
    · rcases ha (Or.inr h) with k | k <;> simp [k]
    · rcases hb' (Or.inr h) with k | k <;> simp [k]
  rw [validateImages2, e]
  rfl

/-- Three images; the output has no pixel of an input, or is the same image. -/
structure Three (m : BMem) (a b c : Image) : Prop where
  wfa : a.WF m
  wfb : b.WF m
  wfc : c.WF m
  fita : (whole a).Fits c.width c.height
  fitb : (whole b).Fits c.width c.height
  fitc : (whole c).Fits c.width c.height
  wa : a.width = c.width ∧ a.height = c.height
  wb : b.width = c.width ∧ b.height = c.height
  n1 : NoClash (whole a) (whole c) c.width c.height
  n2 : NoClash (whole b) (whole c) c.width c.height

/-- **C102.** `F( in1, in2, out )` for every function of two images. Partial: Subtract as in C12. -/
theorem C102_two_partial (o : Op2) {m : BMem} {a b c : Image} (t : Three m a b c) (h1 : b.cc = a.cc) (h2 : c.cc = a.cc)
    (hf : o.fine (whole a) (whole b) c.width c.height) :
    ∃ (m' : BMem) (F : Nat → Nat → Nat → UInt8), whole2 o.fn a b c m = .ok () m' ∧ WritesRoi m m' (whole c) c.width c.height F ∧
      ∀ x y k, o.value ((whole a).get m x y k) ((whole b).get m x y k) (F x y k) := by
  obtain ⟨m', F, e1, e2⟩ := o.full_ok ⟨t.wfa, t.wfb, t.wfc, t.fita, t.fitb, t.fitc, h1, h2, t.n1, t.n2⟩ hf
  refine ⟨m', F, ?_, e2⟩
  have fa : (whole a).Fits a.width a.height := by rw [t.wa.1, t.wa.2]; exact t.fita
  have fb : (whole b).Fits b.width b.height := by rw [t.wb.1, t.wb.2]; exact t.fitb
  have hv : validateImages [a, b, c] m = .ok () m := by
    rw [validateImages, bind_ok (validImages2 fa fb (t.wb.1.trans t.wa.1.symm) (t.wb.2.trans t.wa.2.symm))]
    exact bind_ok (validImages2 fb t.fitc t.wb.1.symm t.wb.2.symm)
  rw [whole2, bind_ok hv]
  exact e1

/-- **C102.** Images of different sizes are refused. -/
theorem C102_rejects2 (f : Fn2) (m : BMem) {a b c : Image}
    (hb : b.width ≠ a.width ∨ b.height ≠ a.height ∨ c.width ≠ a.width ∨ c.height ≠ a.height) : whole2 f a b c m = .throw m := by
  have diff : ∀ {a b : Image}, b.width ≠ a.width ∨ b.height ≠ a.height → (validateImages2 a b : M BMem Unit) m = .throw m := by
    intro a b h
    have e : (a.empty || b.empty || !isCorrectColorCount a || !isCorrectColorCount b || a.width != b.width || a.height != b.height) = true := by
      simp only [Bool.or_eq_true, bne_iff_ne, ne_eq]
      rcases h with h | h
      · exact Or.inl (Or.inr fun e => h e.symm)
      · exact Or.inr fun e => h e.symm
    rw [validateImages2, e]
    rfl
  rw [whole2, bind_throw ?_]
  rw [validateImages]
  by_cases h : b.width ≠ a.width ∨ b.height ≠ a.height
  · exact bind_throw (diff h)
  · have hbc : c.width ≠ b.width ∨ c.height ≠ b.height := by omega
    by_cases ht : (validateImages2 a b : M BMem Unit) m = .throw m
    · exact bind_throw ht
    · have ho : (validateImages2 a b : M BMem Unit) m = .ok () m := by
        rw [validateImages2, throwIf] at ht ⊢
        split
        · next h => rw [if_pos h] at ht; exact absurd rfl ht
        · rfl
      rw [bind_ok ho]
      exact bind_throw (diff hbc)

theorem two_ex : Two exMem (tight 1) (padded 2) :=
  ⟨wf_tight 1 (by decide), wf_padded 2 (by decide), fits_tight 1 (by decide), fits_padded 2 (by decide), apart_of_ne _ _ _ _ (by decide)⟩

example : Three exMem (tight 1) (padded 2) (tight 1) :=
  ⟨wf_tight 1 (by decide), wf_padded 2 (by decide), wf_tight 1 (by decide), fits_tight 1 (by decide), fits_padded 2 (by decide),
    fits_tight 1 (by decide), ⟨rfl, rfl⟩, ⟨rfl, rfl⟩, noClash_self (by decide) (by decide), noClash_of_ne _ _ (by decide)⟩

example : after ((Op1.flip true false).fn.whole (tight 1) (padded 2) exMem) 2 4 = some 19 := by decide
example : (Op1.flip true false).good (tight 1).cc (padded 2).cc := ⟨rfl, rfl⟩

end PV.Props
