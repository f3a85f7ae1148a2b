import Verif.FormsMore
import Verif.PropsForms
import Verif.PropsReduce
import Verif.PropsConvert16
/-
  C161 : forms of functions that take whole images or return numbers.
-/
namespace PV.Props

open PV.FormsMore

/-- An image that exists: not empty, 1, 3 or 4 colours, and its pixels lie in its block. -/
structure Whole {α : Type} (m : Mem α) (img : Image) : Prop where
  wf : img.WF m
  fit : (whole img).Fits img.width img.height

/-- No image the library accepts: empty, or of another number of colours. -/
def NoImage (img : Image) : Prop := img.data = 0 ∨ ¬ (img.cc = 1 ∨ img.cc = 3 ∨ img.cc = 4)

theorem valid_one {μ : Type} {img : Image} (f : (whole img).Fits img.width img.height) (s : μ) : validateImage img s = .ok () s := by
  have h1 : img.empty = false := by simpa [Image.empty, whole] using f.nonempty
  have h2 : isCorrectColorCount img = true := by rcases f.colors with h | h | h <;> simp [isCorrectColorCount, show img.cc = _ from h]
  rw [validateImage, h1, h2]
  rfl

theorem valid_two {μ : Type} {a b : Image} (fa : (whole a).Fits a.width a.height) (fb : (whole b).Fits b.width b.height)
    (hw : b.width = a.width) (hh : b.height = a.height) (s : μ) : validateImages2 a b s = .ok () s := by
  have h1 : a.empty = false := by simpa [Image.empty, whole] using fa.nonempty
  have h2 : b.empty = false := by simpa [Image.empty, whole] using fb.nonempty
  have h3 : isCorrectColorCount a = true := by rcases fa.colors with h | h | h <;> simp [isCorrectColorCount, show a.cc = _ from h]
  have h4 : isCorrectColorCount b = true := by rcases fb.colors with h | h | h <;> simp [isCorrectColorCount, show b.cc = _ from h]
  have e : (a.empty || b.empty || !isCorrectColorCount a || !isCorrectColorCount b || a.width != b.width || a.height != b.height) = false := by
    simp [h1, h2, h3, h4, hw, hh]
  rw [validateImages2, e]
  rfl

theorem valid_image {img : Image} (h : ¬ NoImage img) : img.empty = false ∧ isCorrectColorCount img = true := by
  have h1 : ¬ img.data = 0 := fun e => h (Or.inl e)
  have h2 : img.cc = 1 ∨ img.cc = 3 ∨ img.cc = 4 := Classical.byContradiction fun e => h (Or.inr e)
  exact ⟨by simpa [Image.empty] using h1, by rcases h2 with h | h | h <;> simp [isCorrectColorCount, h]⟩

theorem valid_pair {μ : Type} {a b : Image} (ha : ¬ NoImage a) (hb : ¬ NoImage b) (hw : b.width = a.width) (hh : b.height = a.height)
    (s : μ) : validateImages2 a b s = .ok () s := by
  obtain ⟨h1, h3⟩ := valid_image ha
  obtain ⟨h2, h4⟩ := valid_image hb
  have e : (a.empty || b.empty || !isCorrectColorCount a || !isCorrectColorCount b || a.width != b.width || a.height != b.height) = false := by
    simp [h1, h2, h3, h4, hw, hh]
  rw [validateImages2, e]
  rfl

theorem invalid_one {μ : Type} {img : Image} (h : NoImage img) (s : μ) : validateImage img s = .throw s := by
  rw [validateImage, invalidImage h]
  rfl

theorem invalid_two {μ : Type} {a b : Image} (h : NoImage a ∨ NoImage b ∨ b.width ≠ a.width ∨ b.height ≠ a.height) (s : μ) :
    validateImages2 a b s = .throw s := by
  have ha := invalidImage (img := a)
  have hb := invalidImage (img := b)
  have e : (a.empty || b.empty || !isCorrectColorCount a || !isCorrectColorCount b || a.width != b.width || a.height != b.height) = true := by
    simp only [Bool.or_eq_true, bne_iff_ne, ne_eq] at ha hb ⊢
    rcases h with h | h | h | h
    · rcases ha h with e | e <;> simp [e]
    · rcases hb h with e | e <;> simp [e]
    · exact Or.inl (Or.inr fun e => h e.symm)
    · exact Or.inr fun e => h e.symm
  rw [validateImages2, e]
  rfl

theorem _root_.PV.Props.One.u32 {m : BMem} {v : View} {w h : Nat} (o : One m v w h) : v.img.width < 4294967296 ∧ v.img.height < 4294967296 := by
  obtain ⟨hcc, hr, _⟩ := View.facts o.wf o.fit
  have h1 := o.wf.row
  have h2 := o.wf.small
  have h3 : v.img.width ≤ v.img.width * v.img.cc := Nat.le_mul_of_pos_right _ hcc
  have h4 := o.fit.hpos
  have h5 := o.fit.inY
  have h6 : v.img.rowSize ≤ v.img.rowSize * v.img.height := Nat.le_mul_of_pos_right _ (by omega)
  have h7 : v.img.height ≤ v.img.rowSize * v.img.height := Nat.le_mul_of_pos_left _ hr
  omega

theorem Whole.one {m : BMem} {img : Image} (i : Whole m img) : One m (whole img) img.width img.height := ⟨i.wf, i.fit⟩

theorem NoImage.bad {img : Image} (h : NoImage img) (hw : img.width < 2 ^ 32) (hh : img.height < 2 ^ 32) (p : Prop) :
    Bad [whole img] img.width img.height p :=
  ⟨by simp; exact ⟨by simp [whole], by simp [whole], hw, hh⟩, hw, hh, Or.inl ⟨whole img, by simp, fun f => h.elim f.nonempty fun n => n f.colors⟩⟩

/-! ### C161 : numbers from whole images -/

/-- **C161.** Accumulate of a whole image adds every component to its counter. -/
theorem C161_accumulate {m : BMem} {img : Image} (i : Whole m img) (vec : List UInt32)
    (hlen : vec.length = img.height * (img.width * img.cc)) :
    ∃ res, accumulateWhole img (m, vec) = .ok () (m, res) ∧ res.length = vec.length ∧
      ∀ x y c, x < img.width → y < img.height → c < img.cc →
        res[y * (img.width * img.cc) + (x * img.cc + c)]? = vec[y * (img.width * img.cc) + (x * img.cc + c)]?.map
          fun a => a + UInt32.ofNat ((whole img).get m x y c).toNat := by
  obtain ⟨res, h1, h2, h3⟩ := C27_accumulate i.one vec hlen
  refine ⟨res, ?_, h2, fun x y c hx hy hc => ?_⟩
  · rw [accumulateWhole, bind_ok (valid_one i.fit _)]
    exact h1
  · have hk : x * img.cc + c < img.width * img.cc :=
      Nat.lt_of_lt_of_le (by rw [Nat.succ_mul]; omega) (Nat.mul_le_mul_right img.cc (Nat.succ_le_of_lt hx))
    refine (h3 y (x * img.cc + c) hy hk).trans ?_
    have e1 : (x * img.cc + c) / img.cc = x := by
      rw [Nat.mul_comm, Nat.mul_add_div (by omega), Nat.div_eq_of_lt hc, Nat.add_zero]
    have e2 : (x * img.cc + c) % img.cc = c := by
      rw [Nat.mul_comm, Nat.mul_add_mod, Nat.mod_eq_of_lt hc]
    show Option.map (fun a => a + UInt32.ofNat ((whole img).get m ((x * img.cc + c) / img.cc) y ((x * img.cc + c) % img.cc)).toNat) _ = _
    rw [e1, e2]
    rfl

/-- The counters of a gray-scale image: the exact number of occurrences of each value. -/
def Counts (m : BMem) (v : View) (w h : Nat) (hist : List UInt32) : Prop :=
  hist.length = 256 ∧ ∀ a : UInt8, hist[a.toNat]?.map UInt32.toNat = some (occurrences m v w h a)

/-- **C161.** Every short form of Histogram counts the values of the image, or of the rectangle, whatever the vector held.

    Partial: gray-scale images, as C24. -/
theorem C161_histogram_partial {m : BMem} {img : Image} (i : Whole m img) (cc : img.cc = 1) (vec : List UInt32) :
    ∃ hist, histogramNew img m = .ok hist m ∧ histogramWhole img (m, vec) = .ok () (m, hist) ∧
      Counts m (whole img) img.width img.height hist := by
  obtain ⟨hist, h1, h2, h3, _⟩ := C24_histogram_partial i.one cc []
  obtain ⟨hist', h1', h2', h3', _⟩ := C24_histogram_partial i.one cc vec
  have e : hist' = hist := by
    apply List.ext_getElem? fun k => ?_
    by_cases hk : k < 256
    · have a := h3 (UInt8.ofNat k)
      have b := h3' (UInt8.ofNat k)
      have hm : (UInt8.ofNat k).toNat = k := by simp [UInt8.toNat_ofNat']; omega
      rw [hm] at a b
      rw [← a] at b
      exact Option.map_injective (fun x y h => UInt32.toNat_inj.1 h) b
    · rw [List.getElem?_eq_none (by omega), List.getElem?_eq_none (by omega)]
  refine ⟨hist, ?_, ?_, h2, h3⟩
  · show withVec _ m = _
    rw [withVec]
    erw [h1]
  · rw [histogramWhole, bind_ok (valid_one i.fit _), ← e]
    exact h1'

theorem C161_histogram_region_partial {m : BMem} {v : View} {w h : Nat} (o : One m v w h) (cc : v.img.cc = 1) :
    ∃ hist, histogramNewRoi v w h m = .ok hist m ∧ Counts m v w h hist := by
  obtain ⟨hist, h1, h2, h3, _⟩ := C24_histogram_partial o cc []
  refine ⟨hist, ?_, h2, h3⟩
  rw [histogramNewRoi, bind_ok (validateRoi_ok _ o.fit (o.u32).1 (o.u32).2), withVec, h1]

/-- The counters of the pixels of a gray-scale image whose mask is not 0. -/
def CountsMasked (m : BMem) (v k : View) (w h : Nat) (hist : List UInt32) : Prop :=
  hist.length = 256 ∧ ∀ a : UInt8, hist[a.toNat]?.map UInt32.toNat
    = some ((grid h w).countP fun p => decide (k.get m p.2 p.1 0 ≠ 0 ∧ v.get m p.2 p.1 0 = a))

/-- **C161.** The forms with a mask count the pixels whose mask is not 0. Partial: gray-scale images, as C24. -/
theorem C161_masked_partial {m : BMem} {img mask : Image} (i : Whole m img) (k : Whole m mask) (cc : img.cc = 1) (ck : mask.cc = 1)
    (hw : mask.width = img.width) (hh : mask.height = img.height) (vec : List UInt32) :
    ∃ hist, maskedNew img mask m = .ok hist m ∧ (∃ hist', maskedWhole img mask (m, vec) = .ok () (m, hist') ∧
        CountsMasked m (whole img) (whole mask) img.width img.height hist') ∧
      CountsMasked m (whole img) (whole mask) img.width img.height hist := by
  have ok : One m (whole mask) img.width img.height := ⟨k.wf, hw ▸ hh ▸ k.fit⟩
  obtain ⟨hist, h1, h2, h3⟩ := C24_histogramMask_partial i.one ok cc ck []
  obtain ⟨hist', h1', h2', h3'⟩ := C24_histogramMask_partial i.one ok cc ck vec
  refine ⟨hist, ?_, ⟨hist', ?_, h2', h3'⟩, h2, h3⟩
  · rw [maskedNew, bind_ok (valid_two i.fit k.fit hw hh _), withVec]
    erw [h1]
  · rw [maskedWhole, bind_ok (valid_two i.fit k.fit hw hh _)]
    exact h1'

theorem C161_masked_region_partial {m : BMem} {v k : View} {w h : Nat} (o : One m v w h) (ok : One m k w h) (cc : v.img.cc = 1)
    (ck : k.img.cc = 1) : ∃ hist, maskedNewRoi v k w h m = .ok hist m ∧ CountsMasked m v k w h hist := by
  obtain ⟨hist, h1, h2, h3⟩ := C24_histogramMask_partial o ok cc ck []
  refine ⟨hist, ?_, h2, h3⟩
  rw [maskedNewRoi, bind_ok (validateRois_ok _ (vs := [v, k]) (by simp; exact ⟨⟨o.fit, o.u32⟩, ok.fit, ok.u32⟩)), withVec, h1]

/-- **C161.** The forms of ProjectionProfile: the sums of the columns of components, or of the rows. -/
def Profile (m : BMem) (v : View) (w h : Nat) (horizontal : Bool) (prof : List UInt32) : Prop :=
  if horizontal then prof.length = w * v.img.cc ∧ ∀ k, k < w * v.img.cc → prof[k]? = some (UInt32.ofNat (columnSum m v h k))
  else prof.length = h ∧ ∀ y, y < h → prof[y]? = some (UInt32.ofNat (rowSum m v (w * v.img.cc) y))

theorem profile_any {m : BMem} {v : View} {w h : Nat} (o : One m v w h) (horizontal : Bool) (vec : List UInt32) :
    ∃ prof, ProjectionProfile v w h horizontal (m, vec) = .ok () (m, prof) ∧ Profile m v w h horizontal prof := by
  cases horizontal
  · obtain ⟨p, h1, h2⟩ := C26_projection_vertical o vec
    exact ⟨p, h1, by simpa [Profile] using h2⟩
  · obtain ⟨p, h1, h2⟩ := C26_projection_horizontal o vec
    exact ⟨p, h1, by simpa [Profile] using h2⟩

theorem C161_profile {m : BMem} {v : View} {w h : Nat} (o : One m v w h) (horizontal : Bool) :
    ∃ prof, profileNewRoi v w h horizontal m = .ok prof m ∧ Profile m v w h horizontal prof := by
  obtain ⟨p, h1, h2⟩ := profile_any o horizontal []
  exact ⟨p, by rw [profileNewRoi, withVec, h1], h2⟩

theorem C161_profile_image {m : BMem} {img : Image} (i : Whole m img) (horizontal : Bool) (vec : List UInt32) :
    (∃ prof, profileNew img horizontal m = .ok prof m ∧ Profile m (whole img) img.width img.height horizontal prof) ∧
    ∃ prof, profileWhole img horizontal (m, vec) = .ok () (m, prof) ∧ Profile m (whole img) img.width img.height horizontal prof :=
  ⟨C161_profile i.one horizontal, profile_any i.one horizontal vec⟩

/-- **C161.** IsEqual of two whole images. -/
theorem C161_isEqual {m : BMem} {a b : Image} (i : Whole m a) (k : Whole m b) (hw : b.width = a.width) (hh : b.height = a.height)
    (cc : b.cc = a.cc) :
    ∃ r, isEqualWhole a b m = .ok r m ∧
      (r = true ↔ ∀ x y c, x < a.width → y < a.height → c < a.cc → (whole a).get m x y c = (whole b).get m x y c) := by
  obtain ⟨r, h1, h2⟩ := C28_isEqual i.one (in2 := whole b) ⟨k.wf, hw ▸ hh ▸ k.fit⟩ cc
  refine ⟨r, ?_, h2⟩
  rw [isEqualWhole, bind_ok (valid_two i.fit k.fit hw hh _)]
  exact h1

/-- **C161.** IsBinary of a whole image: no more than two values. -/
theorem C161_isBinary {m : BMem} {img : Image} (i : Whole m img) (cc : img.cc = 1) :
    ∃ r, isBinaryWhole img m = .ok r m ∧
      (r = true ↔ ∃ a b : UInt8, ∀ x y, x < img.width → y < img.height → (whole img).get m x y 0 = a ∨ (whole img).get m x y 0 = b) := by
  obtain ⟨r, h1, h2⟩ := C29_isBinary i.one cc
  refine ⟨r, ?_, h2⟩
  rw [isBinaryWhole, bind_ok (valid_one i.fit _)]
  exact h1

/-- **C161.** Sum of a whole image, in 32 bits. -/
theorem C161_sum {m : BMem} {img : Image} (i : Whole m img) (cc : img.cc = 1) :
    ∃ s, sumWhole img m = .ok s m ∧ s.toNat = total m (whole img) img.width img.height % 2 ^ 32 := C25_sum i.one cc

/-! ### C161 : images from whole images -/

/-- Everything a form of two images writes stays apart from what it reads. -/
theorem pair_whole {m : BMem} {a b : Image} (i : Whole m a) (k : Whole m b) {w h w' h' : Nat} (hw : a.width = w) (hh : a.height = h)
    (hw' : b.width = w') (hh' : b.height = h') (ap : Apart (whole a) w h (whole b) w' h') : Pair m (whole a) w h (whole b) w' h' := by
  subst hw hh hw' hh'
  exact ⟨i.wf, k.wf, i.fit, k.fit, ap⟩

/-- Images of one size: the first is the one the others are compared with. -/
structure OneSize (a b : Image) : Prop where
  width : b.width = a.width
  height : b.height = a.height

theorem three_valid {a b c : Image} (fa : (whole a).Fits a.width a.height) (fb : (whole b).Fits b.width b.height)
    (fc : (whole c).Fits c.width c.height) (hb : OneSize a b) (hc : OneSize a c) (m : BMem) :
    validateImages [a, b, c] m = .ok () m := by
  rw [validateImages, bind_ok (valid_two fa fb hb.width hb.height _)]
  exact bind_ok (valid_two fb fc (hc.width.trans hb.width.symm) (hc.height.trans hb.height.symm) _)

/-- **C161.** Merge of three whole gray-scale images into an RGB image of their size. -/
theorem C161_merge {m : BMem} {a b c out : Image} (ia : Whole m a) (ib : Whole m b) (ic : Whole m c) (io : Whole m out)
    (hb : OneSize a b) (hc : OneSize a c) (ho : OneSize a out) (ca : a.cc = 1) (cb : b.cc = 1) (c3 : c.cc = 1) (co : out.cc = 3)
    (pa : Apart (whole a) out.width out.height (whole out) out.width out.height)
    (pb : Apart (whole b) out.width out.height (whole out) out.width out.height)
    (pc : Apart (whole c) out.width out.height (whole out) out.width out.height) :
    ∃ m', mergeWhole a b c out m = .ok () m' ∧
      WritesRoi m m' (whole out) out.width out.height fun x y k => (three (whole a) (whole b) (whole c) k).get m x y 0 := by
  obtain ⟨m', h1, h2⟩ := C20_merge
    (pair_whole ia io ho.width.symm ho.height.symm rfl rfl pa)
    (pair_whole ib io (hb.width.trans ho.width.symm) (hb.height.trans ho.height.symm) rfl rfl pb)
    (pair_whole ic io (hc.width.trans ho.width.symm) (hc.height.trans ho.height.symm) rfl rfl pc) co ca cb c3
  refine ⟨m', ?_, h2⟩
  rw [mergeWhole, bind_ok (three_valid ia.fit ib.fit ic.fit hb hc m), bind_ok (valid_two ia.fit io.fit ho.width ho.height _)]
  exact h1

/-- **C161.** Split of a whole RGB image into three gray-scale images of its size. -/
theorem C161_split {m : BMem} {a o1 o2 o3 : Image} (ia : Whole m a) (i1 : Whole m o1) (i2 : Whole m o2) (i3 : Whole m o3)
    (s1 : OneSize a o1) (s2 : OneSize a o2) (s3 : OneSize a o3) (ca : a.cc = 3) (c1 : o1.cc = 1) (c2 : o2.cc = 1) (c3 : o3.cc = 1)
    (p1 : Apart (whole a) a.width a.height (whole o1) a.width a.height) (p2 : Apart (whole a) a.width a.height (whole o2) a.width a.height)
    (p3 : Apart (whole a) a.width a.height (whole o3) a.width a.height) (a12 : Apart (whole o1) a.width a.height (whole o2) a.width a.height)
    (a13 : Apart (whole o1) a.width a.height (whole o3) a.width a.height) (a23 : Apart (whole o2) a.width a.height (whole o3) a.width a.height) :
    ∃ m', splitWhole a o1 o2 o3 m = .ok () m' ∧ SplitSpec m m' (whole a) (three (whole o1) (whole o2) (whole o3)) a.width a.height := by
  obtain ⟨m', h1, h2⟩ := C20_split (pair_whole ia i1 rfl rfl s1.width s1.height p1) (pair_whole ia i2 rfl rfl s2.width s2.height p2)
    (pair_whole ia i3 rfl rfl s3.width s3.height p3) a12 a13 a23 ca c1 c2 c3
  refine ⟨m', ?_, h2⟩
  rw [splitWhole, bind_ok (three_valid ia.fit i1.fit i2.fit s1 s2 m), bind_ok (valid_two ia.fit i3.fit s3.width s3.height _)]
  exact h1

/-- **C161.** Transpose of a whole image into an image that has room for it: the upper left part of the output is the
    transposed image, nothing else is written. -/
theorem C161_transpose {m : BMem} {a b : Image} (i : Whole m a) (k : Whole m b) (hw : a.height ≤ b.width) (hh : a.width ≤ b.height)
    (ca : a.cc = 1) (cb : b.cc = 1) (ap : Apart (whole a) a.width a.height (whole b) a.height a.width) :
    ∃ m', transposeWhole a b m = .ok () m' ∧ WritesRoi m m' (whole b) a.height a.width fun x y c => (whole a).get m y x c := by
  have p : Pair m (whole a) a.width a.height (whole b) a.height a.width :=
    ⟨i.wf, k.wf, i.fit, ⟨k.fit.nonempty, k.fit.colors, i.fit.hpos, i.fit.wpos, by simpa [whole] using hw, by simpa [whole] using hh⟩, ap⟩
  obtain ⟨m', h1, h2⟩ := C19_transpose p ca cb
  refine ⟨m', ?_, h2⟩
  rw [transposeWhole, bind_ok (valid_one i.fit _), bind_ok (valid_one k.fit _)]
  exact h1

/-- An output image with less room is refused. -/
theorem C161_transpose_rejects {m : BMem} {a b : Image} (i : Whole m a) (k : Whole m b)
    (hn : b.width < a.height ∨ b.height < a.width ∨ a.cc ≠ 1 ∨ b.cc ≠ 1) : transposeWhole a b m = .throw m := by
  rw [transposeWhole, bind_ok (valid_one i.fit _), bind_ok (valid_one k.fit _)]
  have ua := i.one.u32
  have ub := k.one.u32
  refine C19_transpose_rejects (inp := whole a) (out := whole b) ⟨by simp [whole], by simp [whole], ua.1, ua.2⟩
    ⟨by simp [whole], by simp [whole], ub.1, ub.2⟩ ua.1 ua.2 (Or.inr ?_)
  rcases hn with h | h | h | h
  · exact Or.inl fun f => by have := f.inX; simp only [whole] at this; omega
  · exact Or.inl fun f => by have := f.inY; simp only [whole] at this; omega
  · exact Or.inr fun g => h g.1
  · exact Or.inr fun g => h g.2

/-- **C161.** Resize of a whole image to the size of the output image.

    Partial: products of the sizes below 2^32, and the colours of the input in the output (C31). -/
theorem C161_resize_partial {m : BMem} {a b : Image} (i : Whole m a) (k : Whole m b) (co : b.cc = a.cc)
    (hx : (b.width - 1) * a.width < 2 ^ 32) (hy : (b.height - 1) * a.height < 2 ^ 32)
    (ap : Apart (whole a) a.width a.height (whole b) b.width b.height) :
    ∃ m', resizeWhole a b m = .ok () m' ∧ WritesRoi m m' (whole b) b.width b.height
      fun x y c => (whole a).get m (x * a.width / b.width) (y * a.height / b.height) c := by
  obtain ⟨m', h1, h2⟩ := C31_resize_partial ⟨i.wf, k.wf, i.fit, k.fit, ap⟩ co hx hy
  refine ⟨m', ?_, h2⟩
  rw [resizeWhole, bind_ok (valid_one i.fit _), bind_ok (valid_one k.fit _)]
  exact h1

/-- **C161.** Conversion of a whole image to 16 bits: every component times 256, for every number of colours. -/
theorem C161_to16 {src : BMem} {m : Mem UInt16} {a b : Image} (i : Whole src a) (k : Whole m b) (hw : a.width ≤ b.width)
    (hh : a.height ≤ b.height) (co : b.cc = a.cc) :
    ∃ m', to16Whole src a b m = .ok () m' ∧ WritesRoi m m' (whole b) a.width a.height
      fun x y c => UInt16.ofNat (((whole a).get src x y c).toNat * 256) := by
  obtain ⟨m', h1, h2⟩ := C33_to16_partial (inp := whole a) (out := whole b) ⟨i.wf, k.wf, i.fit,
    ⟨k.fit.nonempty, k.fit.colors, i.fit.wpos, i.fit.hpos, by simpa [whole] using hw, by simpa [whole] using hh⟩, co⟩ (Or.inr rfl)
  refine ⟨m', ?_, h2⟩
  rw [to16Whole, bind_ok (valid_one i.fit _), bind_ok (valid_one k.fit _)]
  exact h1

/-- **C161.** Conversion of a whole image to 8 bits. -/
theorem C161_to8 {src : Mem UInt16} {m : BMem} {a b : Image} (i : Whole src a) (k : Whole m b) (hw : a.width ≤ b.width)
    (hh : a.height ≤ b.height) (co : b.cc = a.cc) :
    ∃ m', to8Whole src a b m = .ok () m' ∧ WritesRoi m m' (whole b) a.width a.height
      fun x y c => UInt8.ofNat (((whole a).get src x y c).toNat / 256) := by
  obtain ⟨m', h1, h2⟩ := C33_to8_partial (inp := whole a) (out := whole b) ⟨i.wf, k.wf, i.fit,
    ⟨k.fit.nonempty, k.fit.colors, i.fit.wpos, i.fit.hpos, by simpa [whole] using hw, by simpa [whole] using hh⟩, co⟩ (Or.inr rfl)
  refine ⟨m', ?_, h2⟩
  rw [to8Whole, bind_ok (valid_one i.fit _), bind_ok (valid_one k.fit _)]
  exact h1

/-! ### C161 : refused calls -/

/-- **C161.** A form of one image refuses what is no image; the vector of the caller keeps its values. -/
theorem C161_rejects {m : BMem} {img : Image} (hn : NoImage img) (hw : img.width < 2 ^ 32) (hh : img.height < 2 ^ 32)
    (vec : List UInt32) (horizontal : Bool) :
    accumulateWhole img (m, vec) = .throw (m, vec) ∧ histogramNew img m = .throw m ∧ histogramWhole img (m, vec) = .throw (m, vec) ∧
    profileNew img horizontal m = .throw m ∧ profileWhole img horizontal (m, vec) = .throw (m, vec) ∧
    isBinaryWhole img m = .throw m ∧ sumWhole img m = .throw m := by
  refine ⟨?_, ?_, ?_, ?_, ?_, ?_, ?_⟩
  · rw [accumulateWhole, bind_throw (invalid_one hn _)]
  · rw [histogramNew, withVec]
    erw [(C24_histogram_rejects (k := whole img) []).1 (hn.bad hw hh True)]
  · rw [histogramWhole, bind_throw (invalid_one hn _)]
  · rw [profileNew, withVec]
    erw [C26_projection_rejects [] horizontal (hn.bad hw hh True)]
  · exact C26_projection_rejects vec horizontal (hn.bad hw hh True)
  · rw [isBinaryWhole, bind_throw (invalid_one hn _)]
  · exact C25_sum_rejects (hn.bad hw hh _)

/-- **C161.** A counter too few or too many is refused by Accumulate. -/
theorem C161_accumulate_rejects {m : BMem} {img : Image} (i : Whole m img) (vec : List UInt32)
    (hlen : vec.length ≠ img.height * (img.width * img.cc)) : accumulateWhole img (m, vec) = .throw (m, vec) := by
  rw [accumulateWhole, bind_ok (valid_one i.fit _)]
  have u := i.one.u32
  exact C27_accumulate_rejects (v := whole img) vec (fun _ => i.wf) ⟨by simp; exact ⟨by simp [whole], by simp [whole], u.1, u.2⟩, u.1, u.2, Or.inr hlen⟩

/-- **C161.** A form of two or more images refuses what is no image; forms whose images must have one size refuse images of
    different sizes.  Nothing is written. -/
theorem C161_rejects_images {m : BMem} {m16 : Mem UInt16} {src : BMem} {src16 : Mem UInt16} {a b : Image} (vec : List UInt32) :
    (NoImage a ∨ NoImage b ∨ ¬ OneSize a b →
      maskedNew a b m = .throw m ∧ maskedWhole a b (m, vec) = .throw (m, vec) ∧ isEqualWhole a b m = .throw m) ∧
    (NoImage a ∨ NoImage b →
      transposeWhole a b m = .throw m ∧ resizeWhole a b m = .throw m ∧ to16Whole src a b m16 = .throw m16 ∧
      to8Whole src16 a b m = .throw m) := by
  constructor
  · intro h
    have h' : NoImage a ∨ NoImage b ∨ b.width ≠ a.width ∨ b.height ≠ a.height := by
      rcases h with h | h | h
      · exact Or.inl h
      · exact Or.inr (Or.inl h)
      · by_cases e : b.width = a.width
        · exact Or.inr (Or.inr (Or.inr fun e' => h ⟨e, e'⟩))
        · exact Or.inr (Or.inr (Or.inl e))
    exact ⟨by rw [maskedNew, bind_throw (invalid_two h' _)], by rw [maskedWhole, bind_throw (invalid_two h' _)],
      by rw [isEqualWhole, bind_throw (invalid_two h' _)]⟩
  · intro h
    have key : ∀ {μ : Type} (s : μ) (f : M μ Unit), (do validateImage a; validateImage b; f : M μ Unit) s = .throw s := by
      intro μ s f
      by_cases ha : NoImage a
      · rw [bind_throw (invalid_one ha _)]
      · have hb := h.resolve_left ha
        have e : (validateImage a : M μ Unit) s = .ok () s := by
          have h1 : ¬ a.data = 0 := fun e => ha (Or.inl e)
          have h2 : a.cc = 1 ∨ a.cc = 3 ∨ a.cc = 4 := Classical.byContradiction fun e => ha (Or.inr e)
          have h3 : isCorrectColorCount a = true := by rcases h2 with h | h | h <;> simp [isCorrectColorCount, h]
          rw [validateImage, h3, show a.empty = false by simpa [Image.empty] using h1]
          rfl
        rw [bind_ok e, bind_throw (invalid_one hb _)]
    exact ⟨key _ _, key _ _, key _ _, key _ _⟩

/-- **C161.** Merge and Split refuse images that are none, and images of different sizes. -/
theorem C161_rejects_channels {m : BMem} {a b c d : Image} (h : NoImage a ∨ NoImage b ∨ NoImage c ∨ NoImage d ∨ ¬ OneSize a b ∨
    ¬ OneSize a c ∨ ¬ OneSize a d) : mergeWhole a b c d m = .throw m ∧ splitWhole a b c d m = .throw m := by
  have key : ∀ f : M BMem Unit, (do validateImages [a, b, c]; validateImages2 a d; f : M BMem Unit) m = .throw m := by
    intro f
    by_cases h1 : NoImage a ∨ NoImage b ∨ b.width ≠ a.width ∨ b.height ≠ a.height
    · have e : validateImages [a, b, c] m = .throw m := by rw [validateImages, bind_throw (invalid_two h1 _)]
      rw [bind_throw e]
    · have n1 : ¬ NoImage a ∧ ¬ NoImage b ∧ b.width = a.width ∧ b.height = a.height :=
        ⟨fun e => h1 (Or.inl e), fun e => h1 (Or.inr (Or.inl e)), Classical.byContradiction fun e => h1 (Or.inr (Or.inr (Or.inl e))),
          Classical.byContradiction fun e => h1 (Or.inr (Or.inr (Or.inr e)))⟩
      by_cases h2 : NoImage c ∨ c.width ≠ b.width ∨ c.height ≠ b.height
      · have e : validateImages [a, b, c] m = .throw m := by
          rw [validateImages, bind_ok (valid_pair n1.1 n1.2.1 n1.2.2.1 n1.2.2.2 _)]
          exact bind_throw (invalid_two (Or.inr h2) _)
        rw [bind_throw e]
      · have n2 : ¬ NoImage c ∧ c.width = b.width ∧ c.height = b.height :=
          ⟨fun e => h2 (Or.inl e), Classical.byContradiction fun e => h2 (Or.inr (Or.inl e)),
            Classical.byContradiction fun e => h2 (Or.inr (Or.inr e))⟩
        have e : validateImages [a, b, c] m = .ok () m := by
          rw [validateImages, bind_ok (valid_pair n1.1 n1.2.1 n1.2.2.1 n1.2.2.2 _)]
          exact bind_ok (valid_pair n1.2.1 n2.1 n2.2.1 n2.2.2 _)
        rw [bind_ok e, bind_throw (invalid_two ?_ _)]
        rcases h with h | h | h | h | h | h | h
        · exact absurd h n1.1
        · exact absurd h n1.2.1
        · exact absurd h n2.1
        · exact Or.inr (Or.inl h)
        · exact absurd ⟨n1.2.2.1, n1.2.2.2⟩ h
        · exact absurd ⟨n2.2.1.trans n1.2.2.1, n2.2.2.trans n1.2.2.2⟩ h
        · by_cases e : d.width = a.width
          · exact Or.inr (Or.inr (Or.inr fun e' => h ⟨e, e'⟩))
          · exact Or.inr (Or.inr (Or.inl e))
  exact ⟨key _, key _⟩

/-! ### Cases -/

theorem exWhole (b : Nat) (hb : b ≠ 0) : Whole exMem (padded b) :=
  ⟨wf_padded b hb, hb, Or.inl rfl, by simp [padded], by simp [padded], by simp [whole], by simp [whole]⟩

example : Whole exMem (padded 1) := exWhole 1 (by decide)
example : Apart (whole (padded 1)) 2 2 (whole (padded 2)) 2 2 := apart_of_ne _ _ _ _ (by decide)
example : NoImage ⟨0, 0, 0, 1, 0⟩ := Or.inl rfl
example : NoImage ⟨1, 2, 2, 2, 4⟩ := Or.inr (by decide)
example : sumWhole (padded 1) exMem = .ok 82 exMem := by rfl
example : isEqualWhole (padded 1) (tight 1) exMem = .ok false exMem := by rfl
example : profileNew (padded 1) true exMem = .ok [36, 46] exMem := by rfl
example : vecOf (accumulateWhole (padded 1) (exMem, [1, 2, 3, 4])) = some [11, 13, 29, 39] := by decide +kernel

/-- Transposing into an image of the size of the input, which is not square, is refused. -/
example : transposeWhole ⟨1, 3, 1, 1, 3⟩ ⟨2, 3, 1, 1, 3⟩ exMem = .throw exMem := by rfl

end PV.Props
