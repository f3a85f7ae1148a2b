import Verif.ApiForms
import Verif.PropsFormsMore
import Verif.PropsLibrary
import Verif.PropsSimdBuild
/-
  C171: the forms of the SIMD functions which return a new image or work on whole images.
  C172: the functions of the namespace `penguinV` for images of the host.
-/
namespace PV.Props
open PV PV.Forms PV.Library PV.TypeManager PV.Simd

/-! ### Forms of a function that is right -/

/-- The function `f` is right for the pixels of `o`, for every image and rectangle that `o` supports. -/
structure Does1 (f : Fn1) (o : Op1) : Prop where
  cc : ∀ n, f.cc n = o.colors n
  plain : ∀ img m, f.check img m = .ok () m
  plain2 : ∀ a b m, f.check2 a b m = .ok () m
  full : ∀ {m : BMem} {inp out : View} {w h : Nat}, Pair m inp w h out w h → o.good inp.img.cc out.img.cc →
    ∃ m', f.full inp out w h m = .ok () m' ∧ WritesRoi m m' out w h (o.pixel m inp w h)

theorem Does1.region {f : Fn1} {o : Op1} (D : Does1 f o) {d : Heap} (hd : HeapOk d) {v : View} {w h : Nat} (i : Input d v w h)
    (hg : o.good v.img.cc (o.colors v.img.cc)) (hs : w * o.colors v.img.cc * h < 2 ^ 32) :
    ∃ d' img, f.newRoi v w h d = .ok img d' ∧ NewImage d d' img w h (o.colors v.img.cc) (o.pixel d.mem v w h) := by
  have p := i.pair hd i.fit.wpos i.fit.hpos (o.colors_ok i.fit.colors) hs
  obtain ⟨m', h1, h2⟩ := D.full p hg
  rw [o.pixel_grown] at h2
  rw [← D.cc] at hs h1 h2 ⊢
  obtain ⟨d', img, e1, _, _, e2⟩ := newRoi_run hd i hs (D.plain _ _) h1 h2
  exact ⟨d', img, e1, e2⟩

theorem Does1.image {f : Fn1} {o : Op1} (D : Does1 f o) {d : Heap} (hd : HeapOk d) {img : Image} (i : InputImage d img)
    (hg : o.good img.cc (o.colors img.cc)) (hs : img.width * o.colors img.cc * img.height < 2 ^ 32) :
    ∃ d' new, f.newWhole img d = .ok new d' ∧
      NewImage d d' new img.width img.height (o.colors img.cc) (o.pixel d.mem (whole img) img.width img.height) := by
  rw [C101_image_region f i]
  exact D.region hd i hg hs

theorem Does1.whole {f : Fn1} {o : Op1} (D : Does1 f o) {m : BMem} {a b : Image} (t : Two m a b) (hw : b.width = a.width)
    (hh : b.height = a.height) (hg : o.good a.cc b.cc) :
    ∃ m', f.whole a b m = .ok () m' ∧ WritesRoi m m' (Props.whole b) b.width b.height (o.pixel m (Props.whole a) b.width b.height) := by
  have p : Pair m (Props.whole a) b.width b.height (Props.whole b) b.width b.height := by
    have h1 := t.fita
    have h2 := t.apart
    rw [← hw, ← hh] at h1 h2
    exact ⟨t.wfa, t.wfb, h1, t.fitb, h2⟩
  obtain ⟨m', h1, h2⟩ := D.full p hg
  refine ⟨m', ?_, h2⟩
  rw [Fn1.whole, bind_ok (validImages2 t.fita t.fitb hw hh), bind_ok (D.plain2 a b m), ← hw, ← hh]
  exact h1

/-- The function `f` refuses the images that `o` has to refuse. -/
structure Refuses1 (f : Fn1) (o : Op1) : Prop where
  full : ∀ {m : BMem} {inp out : View} {w h : Nat}, Pair m inp w h out w h → inp.U32 → out.U32 → w < 2 ^ 32 → h < 2 ^ 32 →
    out.img.cc = o.colors inp.img.cc → o.refused inp.img.cc → f.full inp out w h m = .throw m

theorem Refuses1.region {f : Fn1} {o : Op1} (D : Does1 f o) (R : Refuses1 f o) {d : Heap} (hd : HeapOk d) {v : View} {w h : Nat}
    (i : Input d v w h) (hr : o.refused v.img.cc) (hs : w * o.colors v.img.cc * h < 2 ^ 32) :
    ∃ d', f.newRoi v w h d = .throw d' ∧ SameHeap d d' := by
  obtain ⟨hv, hw, hh⟩ := i.fullU32
  have p := i.pair hd i.fit.wpos i.fit.hpos (o.colors_ok i.fit.colors) hs
  have := R.full p hv (made_u32 hw hh) hw hh rfl hr
  rw [← D.cc] at hs this
  exact newRoi_throw hd i hs (D.plain _ _) this

/-- The function `f` is right for the pixels of `o`, and refuses what it has to refuse. -/
structure Does2 (f : Fn2) (o : Op2) : Prop where
  full : ∀ {m : BMem} {in1 in2 out : View} {w h : Nat}, Ready2 m in1 in2 out w h → o.fine in1 in2 w h →
    ∃ (m' : BMem) (F : Nat → Nat → Nat → UInt8), f in1 in2 out w h m = .ok () m' ∧ WritesRoi m m' out w h F ∧
      ∀ x y c, o.value (in1.get m x y c) (in2.get m x y c) (F x y c)
  bad : ∀ {m : BMem} {in1 in2 out : View} {w h : Nat}, Bad [in1, in2, out] w h (SameColors2 in1 in2 out) →
    f in1 in2 out w h m = .throw m

theorem Does2.region {f : Fn2} {o : Op2} (D : Does2 f o) {d : Heap} (hd : HeapOk d) {v1 v2 : View} {w h : Nat} (i1 : Input d v1 w h)
    (i2 : Input d v2 w h) (hc : v2.img.cc = v1.img.cc) (hf : o.fine v1 v2 w h) :
    ∃ d' img G, newRoi2 f v1 v2 w h d = .ok img d' ∧ NewImage d d' img w h v1.img.cc G ∧
      ∀ x y c, o.value (v1.get d.mem x y c) (v2.get d.mem x y c) (G x y c) := by
  have hs := i1.small
  have p1 := i1.pair hd i1.fit.wpos i1.fit.hpos i1.fit.colors hs
  have p2 := i2.pair hd i1.fit.wpos i1.fit.hpos i1.fit.colors hs
  obtain ⟨m', F, h1, h2, h3⟩ := D.full ⟨p1.wfi, p2.wfi, p1.wfo, p1.fiti, p2.fiti, p1.fito, hc, rfl, noClash_of_apart p1.apart,
    noClash_of_apart p2.apart⟩ hf
  obtain ⟨d', e1, _, e3⟩ := filled_ok hd hs h1 h2
  refine ⟨d', _, F, ?_, e3, h3⟩
  rw [newRoi2, bind_ok (heapMem_keep (validateRois_ok _ (vs := [v1, v2]) (by simp; exact ⟨⟨i1.fit, i1.u32⟩, i2.fit, i2.u32⟩))),
    bind_ok (generate_ok i1.fit.wpos i1.fit.hpos hs)]
  exact e1

theorem Does2.image {f : Fn2} {o : Op2} (D : Does2 f o) {d : Heap} (hd : HeapOk d) {a b : Image} (i1 : InputImage d a)
    (i2 : InputImage d b) (hw : b.width = a.width) (hh : b.height = a.height) (hc : b.cc = a.cc)
    (hf : o.fine (Props.whole a) (Props.whole b) a.width a.height) :
    ∃ d' img G, newWhole2 f a b d = .ok img d' ∧ NewImage d d' img a.width a.height a.cc G ∧
      ∀ x y c, o.value ((Props.whole a).get d.mem x y c) ((Props.whole b).get d.mem x y c) (G x y c) := by
  have i2' : Input d (Props.whole b) a.width a.height := ⟨i2.wf, hw ▸ hh ▸ i2.fit⟩
  obtain ⟨d', img, G, e1, e2⟩ := D.region hd i1 i2' hc hf
  refine ⟨d', img, G, ?_, e2⟩
  have hv : validateImages [a, b] d.mem = .ok () d.mem := bind_ok (validImages2 i1.fit i2.fit hw hh)
  rw [newWhole2, bind_ok (heapMem_keep hv)]
  rw [newRoi2, bind_ok (heapMem_keep (validateRois_ok _ (vs := [Props.whole a, Props.whole b])
    (by simp; exact ⟨⟨i1.fit, i1.u32⟩, i2'.fit, i2'.u32⟩)))] at e1
  exact e1

theorem Does2.whole {f : Fn2} {o : Op2} (D : Does2 f o) {m : BMem} {a b c : Image} (t : Three m a b c) (h1 : b.cc = a.cc)
    (h2 : c.cc = a.cc) (hf : o.fine (Props.whole a) (Props.whole b) c.width c.height) :
    ∃ (m' : BMem) (F : Nat → Nat → Nat → UInt8), whole2 f a b c m = .ok () m' ∧ WritesRoi m m' (Props.whole c) c.width c.height F ∧
      ∀ x y k, o.value ((Props.whole a).get m x y k) ((Props.whole b).get m x y k) (F x y k) := by
  obtain ⟨m', F, e1, e2⟩ := D.full ⟨t.wfa, t.wfb, t.wfc, t.fita, t.fitb, t.fitc, h1, h2, t.n1, t.n2⟩ hf
  refine ⟨m', F, ?_, e2⟩
  have fa : (Props.whole a).Fits a.width a.height := by rw [t.wa.1, t.wa.2]; exact t.fita
  have fb : (Props.whole b).Fits b.width b.height := by rw [t.wb.1, t.wb.2]; exact t.fitb
  have hv : validateImages [a, b, c] m = .ok () m := by
    rw [validateImages, bind_ok (validImages2 fa fb (t.wb.1.trans t.wa.1.symm) (t.wb.2.trans t.wa.2.symm))]
    exact bind_ok (validImages2 fb t.fitc t.wb.1.symm t.wb.2.symm)
  rw [whole2, bind_ok hv]
  exact e1

theorem Does2.rejects {f : Fn2} {o : Op2} (D : Does2 f o) {d : Heap} (hd : HeapOk d) {v1 v2 : View} {w h : Nat} (u1 : v1.U32)
    (u2 : v2.U32) (hw : w < 2 ^ 32) (hh : h < 2 ^ 32) (wf : v1.img.WF d.mem)
    (hb : ¬ v1.Fits w h ∨ ¬ v2.Fits w h ∨ v2.img.cc ≠ v1.img.cc) :
    ∃ d', newRoi2 f v1 v2 w h d = .throw d' ∧ SameHeap d d' := by
  by_cases hf : v1.Fits w h ∧ v2.Fits w h
  · have hs := Input.small ⟨wf, hf.1⟩
    have bad : Bad [v1, v2, Props.whole (made d w h v1.img.cc)] w h (SameColors2 v1 v2 (Props.whole (made d w h v1.img.cc))) :=
      ⟨by simp [u1, u2, made_u32 hw hh], hw, hh, Or.inr fun e => (hb.resolve_left fun n => n hf.1).resolve_left (fun n => n hf.2) e.1⟩
    obtain ⟨d', e1, e2⟩ := filled_throw hd (D.bad bad)
    refine ⟨d', ?_, e2⟩
    rw [newRoi2, bind_ok (heapMem_keep (validateRois_ok _ (vs := [v1, v2]) (by simp; exact ⟨⟨hf.1, u1.hw, u1.hh⟩, hf.2, u2.hw, u2.hh⟩))),
      bind_ok (generate_ok hf.1.wpos hf.1.hpos hs)]
    exact e1
  · refine ⟨d, ?_, SameHeap.refl d⟩
    rw [newRoi2, bind_throw (heapMem_throw (validateRois_throw _ (by simp [u1, u2]) hw hh ?_))]
    by_cases h1 : v1.Fits w h
    · exact ⟨v2, by simp, fun h2 => hf ⟨h1, h2⟩⟩
    · exact ⟨v1, by simp, h1⟩

/-! ### The scalar functions -/

/-- The functions of one image which ask their colours only in the form with two rectangles. -/
def Op1.unchecked : Op1 → Prop
  | .rgba | .rgb => False
  | _ => True

theorem does_base1 (o : Op1) (hu : o.unchecked) : Does1 o.fn o := by
  refine ⟨o.cc_eq, ?_, ?_, fun p hg => o.full_ok p hg⟩
  · intro img m; cases o <;> first | rfl | exact hu.elim
  · intro a b m; cases o <;> first | rfl | exact hu.elim

theorem bad2 {m : BMem} {inp out : View} {w h : Nat} {P : Prop} (_ : Pair m inp w h out w h) (hi : inp.U32) (ho : out.U32)
    (hw : w < 2 ^ 32) (hh : h < 2 ^ 32) (hP : ¬ P) : Bad [inp, out] w h P := ⟨by simp [hi, ho], hw, hh, Or.inr hP⟩

theorem refuses_base1 (o : Op1) (hu : o.unchecked) : Refuses1 o.fn o := by
  refine ⟨fun {m inp out w h} p hi ho hw hh hc hr => ?_⟩
  have bad : ∀ {P : Prop}, ¬ P → Bad [inp, out] w h P := bad2 p hi ho hw hh
  cases o with
  | toGray => exact hr.elim
  | toRgb => exact hr.elim
  | invert => exact hr.elim
  | extract ch => exact C20_extractChannel_rejects (bad fun h => Nat.not_lt.2 hr h.2)
  | flip hor ver => exact C18_flip_rejects hor ver (bad fun h => hr h.1)
  | lookup table => exact C15_lookupTable_rejects table (bad fun h => hr h.2)
  | bgr => exact C21_rgbToBgr_rejects (bad fun h => hr h.1)
  | rgba => exact hu.elim
  | rgb => exact hu.elim
  | threshold t => exact (C14_threshold_rejects t 0 0 (bad fun h => hr h.1)).1
  | threshold2 lo hi =>
    by_cases hc' : inp.img.cc = 1
    · exact C14_threshold2_rejects_limits lo hi (hr.resolve_left fun h => h hc')
        ⟨p.wfi, p.wfo, p.fiti, p.fito, hc.trans hc'.symm, noClash_of_apart p.apart⟩ hc'
    · exact (C14_threshold_rejects 0 lo hi (bad fun h => hc' h.1)).2

theorem does_base2 (o : Op2) : Does2 o.fn o := by
  refine ⟨fun r hf => o.full_ok r hf, fun {m in1 in2 out w h} bad => ?_⟩
  cases o with
  | absoluteDifference => exact C09_absoluteDifference_rejects bad
  | bitwiseAnd => exact (C10_bitwise_rejects bad).1
  | bitwiseOr => exact (C10_bitwise_rejects bad).2.1
  | bitwiseXor => exact (C10_bitwise_rejects bad).2.2
  | maximum => exact (C11_rejects bad).1
  | minimum => exact (C11_rejects bad).2
  | subtract => exact C12_subtract_rejects bad

/-! ### C171 : the forms of SIMD functions -/

/-- The SIMD functions of one image -/
inductive SimdOp1
  | toRgb | flip (hor ver : Bool) | invert | bgr | threshold (t : UInt8) | threshold2 (lo hi : UInt8)

/-- What they compute -/
def SimdOp1.op : SimdOp1 → Op1
  | .toRgb => .toRgb
  | .flip hor ver => .flip hor ver
  | .invert => .invert
  | .bgr => .bgr
  | .threshold t => .threshold t
  | .threshold2 lo hi => .threshold2 lo hi

/-- The function called -/
def SimdOp1.fn (s : Setup) : SimdOp1 → Fn1
  | .toRgb => Api.simdToRgb s
  | .flip hor ver => Api.simdFlip s hor ver
  | .invert => Api.simdInvert s
  | .bgr => Api.simdRgbToBgr s
  | .threshold t => Api.simdThreshold s t
  | .threshold2 lo hi => Api.simdThreshold2 s lo hi

/-- The functions which move pixels: with SSE or AVX they need SSSE3 in the build. -/
def SimdOp1.moves : SimdOp1 → Prop
  | .toRgb | .flip _ _ | .bgr => True
  | _ => False

/-- The SIMD functions of two images -/
def Op2.simd (s : Setup) : Op2 → Fn2
  | .absoluteDifference => Simd.Api.AbsoluteDifference s
  | .bitwiseAnd => Simd.Api.BitwiseAnd s
  | .bitwiseOr => Simd.Api.BitwiseOr s
  | .bitwiseXor => Simd.Api.BitwiseXor s
  | .maximum => Simd.Api.Maximum s
  | .minimum => Simd.Api.Minimum s
  | .subtract => Simd.Api.Subtract s

theorem SimdOp1.unchecked (o : SimdOp1) : o.op.unchecked := by cases o <;> trivial

/-- The SIMD function leaves what the scalar one leaves. -/
theorem SimdOp1.same {p : Platform} {s : Setup} (hp : buildOf p = some s.build) (o : SimdOp1) (h3 : o.moves → WithSsse3 s) {m : BMem}
    {inp out : View} {w h : Nat} (c : Pair m inp w h out w h) (hg : o.op.good inp.img.cc out.img.cc) :
    (o.fn s).full inp out w h m = o.op.fn.full inp out w h m := by
  have r1 : out.img.cc = inp.img.cc → Ready1 m inp out w h := fun co =>
    ⟨c.wfi, c.wfo, c.fiti, c.fito, co, noClash_of_apart c.apart⟩
  have key : ∀ {f g : M BMem Unit} {P : BMem → Prop}, (∃ m', f m = .ok () m' ∧ g m = .ok () m' ∧ P m') → f m = g m := by
    rintro f g P ⟨m', h1, h2, _⟩
    rw [h1, h2]
  cases o with
  | toRgb =>
    obtain ⟨h1 | h1, h2⟩ := hg
    · exact key (C148_convertToRgb_gray_partial hp (h3 trivial) c h1 h2)
    · exact key (C148_convertToRgb_rgb_partial hp (h3 trivial) c h1 h2)
  | flip hor ver => exact key (C148_flip_partial hp (h3 trivial) hor ver c hg.1 hg.2)
  | invert => exact key (C148_invert hp (r1 hg))
  | bgr => exact key (C148_rgbToBgr_partial hp (h3 trivial) c hg.1 hg.2)
  | threshold t => exact key (C148_threshold hp t (r1 (hg.2.trans hg.1.symm)) hg.1)
  | threshold2 lo hi => exact key (C148_threshold2_partial hp lo hi hg.1 (r1 (hg.2.2.trans hg.2.1.symm)) hg.2.1)

theorem does_simd1 {p : Platform} {s : Setup} (hp : buildOf p = some s.build) (o : SimdOp1) (h3 : o.moves → WithSsse3 s) :
    Does1 (o.fn s) o.op := by
  refine ⟨fun n => by cases o <;> rfl, fun img m => by cases o <;> rfl, fun a b m => by cases o <;> rfl, fun c hg => ?_⟩
  rw [o.same hp h3 c hg]
  exact o.op.full_ok c hg

/-- Limits in the right order -/
def SimdOp1.ordered : SimdOp1 → Prop
  | .threshold2 lo hi => lo ≤ hi
  | _ => True

theorem refuses_simd1 {p : Platform} {s : Setup} (hp : buildOf p = some s.build) (o : SimdOp1) (hl : o.ordered) :
    Refuses1 (o.fn s) o.op := by
  refine ⟨fun {m inp out w h} q hi ho hw hh hc hr => ?_⟩
  have bad : ∀ {P : Prop}, ¬ P → Bad [inp, out] w h P := bad2 q hi ho hw hh
  cases o with
  | toRgb => exact hr.elim
  | invert => exact hr.elim
  | flip hor ver => exact C148_moves_reject.2.1 (bad fun h => hr h.1) hor ver
  | bgr => exact C148_moves_reject.2.2 (bad fun h => hr h.1)
  | threshold t => exact (C148_threshold_rejects hp t 0 0 (bad fun h => hr h.1)).1
  | threshold2 lo hi =>
    have hl : lo ≤ hi := hl
    have hr : inp.img.cc ≠ 1 ∨ hi < lo := hr
    have hn : inp.img.cc ≠ 1 := hr.resolve_right fun h => by
      rw [UInt8.le_iff_toNat_le] at hl
      rw [UInt8.lt_iff_toNat_lt] at h
      omega
    exact (C148_threshold_rejects hp 0 lo hi (bad fun h => hn h.1)).2

theorem Op2.same {p : Platform} {s : Setup} (hp : buildOf p = some s.build) (o : Op2) {m : BMem} {in1 in2 out : View} {w h : Nat}
    (r : Ready2 m in1 in2 out w h) (hf : o.fine in1 in2 w h) : o.simd s in1 in2 out w h m = o.fn in1 in2 out w h m := by
  have key : ∀ {f g : M BMem Unit} {P : BMem → Prop}, (∃ m', f m = .ok () m' ∧ g m = .ok () m' ∧ P m') → f m = g m := by
    rintro f g P ⟨m', h1, h2, _⟩
    rw [h1, h2]
  cases o with
  | absoluteDifference => exact key (C148_absoluteDifference hp r)
  | bitwiseAnd =>
    obtain ⟨m', F, h1, h2, _⟩ := C148_bitwiseAnd hp r
    exact h1.trans h2.symm
  | bitwiseOr =>
    obtain ⟨m', F, h1, h2, _⟩ := C148_bitwiseOr hp r
    exact h1.trans h2.symm
  | bitwiseXor =>
    obtain ⟨m', F, h1, h2, _⟩ := C148_bitwiseXor hp r
    exact h1.trans h2.symm
  | maximum => exact key (C148_maximum hp r)
  | minimum => exact key (C148_minimum hp r)
  | subtract =>
    refine key (C148_subtract_partial hp r ?_)
    rcases hf with h | h | h
    · exact Or.inl h
    · exact Or.inr (Or.inl fun e => h e.1)
    · exact Or.inr (Or.inr h)

theorem does_simd2 {p : Platform} {s : Setup} (hp : buildOf p = some s.build) (o : Op2) : Does2 (o.simd s) o := by
  refine ⟨fun {m in1 in2 out w h} r hf => ?_, fun {m in1 in2 out w h} bad => ?_⟩
  · rw [o.same hp r hf]
    exact o.full_ok r hf
  · obtain ⟨h1, h2, h3, h4, h5, h6, h7⟩ := C148_binary_rejects (m := m) hp bad
    cases o with
    | absoluteDifference => exact h1
    | bitwiseAnd => exact h2
    | bitwiseOr => exact h3
    | bitwiseXor => exact h4
    | maximum => exact h5
    | minimum => exact h6
    | subtract => exact h7

/-- **C171.** `Image F( in, startX, startY, width, height )` of `Image_Function_Simd`, in every build, on every processor and whatever has been
    switched off: a new image with the right pixels.

    Partial: ConvertToRgb, Flip and RgbToBgr not in builds with SSE and without SSSE3 (C148), ConvertToRgb not for RGBA images. -/
theorem C171_region_partial {p : Platform} {s : Setup} (hp : buildOf p = some s.build) (o : SimdOp1) (h3 : o.moves → WithSsse3 s) {d : Heap}
    (hd : HeapOk d) {v : View} {w h : Nat} (i : Input d v w h) (hg : o.op.good v.img.cc (o.op.colors v.img.cc))
    (hs : w * o.op.colors v.img.cc * h < 2 ^ 32) :
    ∃ d' img, (o.fn s).newRoi v w h d = .ok img d' ∧ NewImage d d' img w h (o.op.colors v.img.cc) (o.op.pixel d.mem v w h) :=
  (does_simd1 hp o h3).region hd i hg hs

/-- **C171.** `Image F( in )`. Partial as above. -/
theorem C171_image_partial {p : Platform} {s : Setup} (hp : buildOf p = some s.build) (o : SimdOp1) (h3 : o.moves → WithSsse3 s) {d : Heap}
    (hd : HeapOk d) {img : Image} (i : InputImage d img) (hg : o.op.good img.cc (o.op.colors img.cc))
    (hs : img.width * o.op.colors img.cc * img.height < 2 ^ 32) :
    ∃ d' new, (o.fn s).newWhole img d = .ok new d' ∧
      NewImage d d' new img.width img.height (o.op.colors img.cc) (o.op.pixel d.mem (whole img) img.width img.height) :=
  (does_simd1 hp o h3).image hd i hg hs

/-- **C171.** `F( in, out )`. Partial as above. -/
theorem C171_whole_partial {p : Platform} {s : Setup} (hp : buildOf p = some s.build) (o : SimdOp1) (h3 : o.moves → WithSsse3 s) {m : BMem}
    {a b : Image} (t : Two m a b) (hw : b.width = a.width) (hh : b.height = a.height) (hg : o.op.good a.cc b.cc) :
    ∃ m', (o.fn s).whole a b m = .ok () m' ∧ WritesRoi m m' (whole b) b.width b.height (o.op.pixel m (whole a) b.width b.height) :=
  (does_simd1 hp o h3).whole t hw hh hg

/-- **C171.** `Image F( in1, startX1, startY1, in2, startX2, startY2, width, height )`. Partial: Subtract as in C12. -/
theorem C171_region2_partial {p : Platform} {s : Setup} (hp : buildOf p = some s.build) (o : Op2) {d : Heap} (hd : HeapOk d) {v1 v2 : View}
    {w h : Nat} (i1 : Input d v1 w h) (i2 : Input d v2 w h) (hc : v2.img.cc = v1.img.cc) (hf : o.fine v1 v2 w h) :
    ∃ d' img G, newRoi2 (o.simd s) v1 v2 w h d = .ok img d' ∧ NewImage d d' img w h v1.img.cc G ∧
      ∀ x y c, o.value (v1.get d.mem x y c) (v2.get d.mem x y c) (G x y c) :=
  (does_simd2 hp o).region hd i1 i2 hc hf

/-- **C171.** `Image F( in1, in2 )`. Partial as above. -/
theorem C171_image2_partial {p : Platform} {s : Setup} (hp : buildOf p = some s.build) (o : Op2) {d : Heap} (hd : HeapOk d) {a b : Image}
    (i1 : InputImage d a) (i2 : InputImage d b) (hw : b.width = a.width) (hh : b.height = a.height) (hc : b.cc = a.cc)
    (hf : o.fine (whole a) (whole b) a.width a.height) :
    ∃ d' img G, newWhole2 (o.simd s) a b d = .ok img d' ∧ NewImage d d' img a.width a.height a.cc G ∧
      ∀ x y c, o.value ((whole a).get d.mem x y c) ((whole b).get d.mem x y c) (G x y c) :=
  (does_simd2 hp o).image hd i1 i2 hw hh hc hf

/-- **C171.** `F( in1, in2, out )`. Partial as above. -/
theorem C171_whole2_partial {p : Platform} {s : Setup} (hp : buildOf p = some s.build) (o : Op2) {m : BMem} {a b c : Image}
    (t : Three m a b c) (h1 : b.cc = a.cc) (h2 : c.cc = a.cc) (hf : o.fine (whole a) (whole b) c.width c.height) :
    ∃ (m' : BMem) (F : Nat → Nat → Nat → UInt8), whole2 (o.simd s) a b c m = .ok () m' ∧ WritesRoi m m' (whole c) c.width c.height F ∧
      ∀ x y k, o.value ((whole a).get m x y k) ((whole b).get m x y k) (F x y k) :=
  (does_simd2 hp o).whole t h1 h2 hf

/-- **C171.** Images and parameters which have to be refused: an exception, and nothing is left behind. Partial: limits of Threshold in the
    wrong order are accepted (`C171_threshold2_wrong`). -/
theorem C171_rejects_partial {p : Platform} {s : Setup} (hp : buildOf p = some s.build) (o : SimdOp1) (hl : o.ordered)
    (h3 : o.moves → WithSsse3 s) {d : Heap} (hd : HeapOk d) {v : View} {w h : Nat} (i : Input d v w h) (hr : o.op.refused v.img.cc)
    (hs : w * o.op.colors v.img.cc * h < 2 ^ 32) : ∃ d', (o.fn s).newRoi v w h d = .throw d' ∧ SameHeap d d' :=
  (refuses_simd1 hp o hl).region (does_simd1 hp o h3) hd i hr hs

/-- **C171.** Images of different colours, or rectangles which do not fit -/
theorem C171_rejects2 {p : Platform} {s : Setup} (hp : buildOf p = some s.build) (o : Op2) {d : Heap} (hd : HeapOk d) {v1 v2 : View}
    {w h : Nat} (u1 : v1.U32) (u2 : v2.U32) (hw : w < 2 ^ 32) (hh : h < 2 ^ 32) (wf : v1.img.WF d.mem)
    (hb : ¬ v1.Fits w h ∨ ¬ v2.Fits w h ∨ v2.img.cc ≠ v1.img.cc) :
    ∃ d', newRoi2 (o.simd s) v1 v2 w h d = .throw d' ∧ SameHeap d d' :=
  (does_simd2 hp o).rejects hd u1 u2 hw hh wf hb

/-- **C171.** Sum of a whole gray-scale image -/
theorem C171_sum {p : Platform} {s : Setup} (hp : buildOf p = some s.build) {m : BMem} {img : Image} (i : Whole m img) (cc : img.cc = 1) :
    ∃ t, Api.simdSumWhole s img m = .ok t m ∧ t.toNat = total m (whole img) img.width img.height % 2 ^ 32 := by
  obtain ⟨t, h1, _, h2⟩ := C148_sum hp i.one cc
  exact ⟨t, h1, h2⟩

/-- Setups whose horizontal profiles are right -/
def ProfileFine (s : Setup) (n : Nat) (horizontal : Bool) : Prop :=
  horizontal = true → s.kind = .sse ∨ s.kind = .cpu ∨ n < Simd.size s.kind

theorem simdProfile_any {p : Platform} {s : Setup} (hp : buildOf p = some s.build) {m : BMem} {v : View} {w h : Nat} (o : One m v w h)
    (horizontal : Bool) (hk : ProfileFine s (w * v.img.cc) horizontal) (vec : List UInt32) :
    ∃ prof, Simd.Api.ProjectionProfile s v w h horizontal (m, vec) = .ok () (m, prof) ∧ Profile m v w h horizontal prof := by
  cases horizontal
  · obtain ⟨prof, h1, _, h2⟩ := C148_projection_vertical hp o vec
    exact ⟨prof, h1, by simpa [Profile] using h2⟩
  · obtain ⟨prof, h1, _, h2⟩ := C148_projection_horizontal_partial hp o vec (hk rfl)
    exact ⟨prof, h1, by simpa [Profile] using h2⟩

/-- **C171.** The short forms of ProjectionProfile. Partial: horizontal profiles of rectangles as wide as a register are right with SSE only
    (C51). -/
theorem C171_profile_partial {p : Platform} {s : Setup} (hp : buildOf p = some s.build) (horizontal : Bool) (vec : List UInt32) :
    (∀ {m : BMem} {v : View} {w h : Nat}, One m v w h → ProfileFine s (w * v.img.cc) horizontal →
      ∃ prof, Api.simdProfileNewRoi s v w h horizontal m = .ok prof m ∧ Profile m v w h horizontal prof) ∧
    (∀ {m : BMem} {img : Image}, Whole m img → ProfileFine s (img.width * img.cc) horizontal →
      ∃ prof, Api.simdProfileNew s img horizontal m = .ok prof m ∧ Profile m (whole img) img.width img.height horizontal prof) ∧
    ∀ {m : BMem} {img : Image}, Whole m img → ProfileFine s (img.width * img.cc) horizontal →
      ∃ prof, Api.simdProfileWhole s img horizontal (m, vec) = .ok () (m, prof) ∧
        Profile m (whole img) img.width img.height horizontal prof := by
  refine ⟨fun o hk => ?_, fun i hk => ?_, fun i hk => simdProfile_any hp i.one horizontal hk vec⟩
  · obtain ⟨prof, h1, h2⟩ := simdProfile_any hp o horizontal hk []
    exact ⟨prof, by rw [Api.simdProfileNewRoi, withVec, h1], h2⟩
  · obtain ⟨prof, h1, h2⟩ := simdProfile_any hp i.one horizontal hk []
    have h1 : Simd.Api.ProjectionProfile s ⟨_, 0, 0⟩ _ _ horizontal (_, []) = _ := h1
    exact ⟨prof, by rw [Api.simdProfileNew, withVec, h1], h2⟩

/-- **C171.** Accumulate of a whole gray-scale image. Partial: not with AVX and AVX-512 (C51). -/
theorem C171_accumulate_partial {p : Platform} {s : Setup} (hp : buildOf p = some s.build) {m : BMem} {img : Image} (i : Whole m img)
    (cc : img.cc = 1) (vec : List UInt32) (hlen : vec.length = img.height * img.width) (hk : s.kind = .sse ∨ s.kind = .neon ∨ s.kind = .cpu) :
    ∃ res, Api.simdAccumulateWhole s img (m, vec) = .ok () (m, res) ∧ res.length = vec.length ∧
      ∀ y x, y < img.height → x < img.width →
        res[y * img.width + x]? = vec[y * img.width + x]?.map fun a => a + UInt32.ofNat ((whole img).get m x y 0).toNat := by
  obtain ⟨res, h1, _, h2⟩ := C148_accumulate_partial hp i.one cc vec hlen (by tauto)
  refine ⟨res, ?_, h2⟩
  rw [Api.simdAccumulateWhole, bind_ok (valid_one i.fit _)]
  exact h1

/-! ### Where the claim is false -/

/-- In a build with SSE and without SSSE3 the functions which move pixels refuse every rectangle as wide as a register, and leave nothing
    behind. -/
theorem C171_ssse3_wrong {s : Setup} (hk : s.kind = .sse) (h3 : s.build.ssse3 = false) {d : Heap} (hd : HeapOk d) {v : View} {w h : Nat}
    (i : Input d v w h) :
    (16 ≤ w → v.img.cc = 1 → w * 3 * h < 2 ^ 32 → ∃ d', (Api.simdToRgb s).newRoi v w h d = .throw d' ∧ SameHeap d d') ∧
    (16 ≤ w → v.img.cc = 1 → ∀ ver, ∃ d', (Api.simdFlip s true ver).newRoi v w h d = .throw d' ∧ SameHeap d d') ∧
    (16 ≤ w * 3 → v.img.cc = 3 → ∃ d', (Api.simdRgbToBgr s).newRoi v w h d = .throw d' ∧ SameHeap d d') := by
  refine ⟨fun hw hc hs => ?_, fun hw hc ver => ?_, fun hw hc => ?_⟩
  · have p := i.pair hd i.fit.wpos i.fit.hpos (cc := 3) (by decide) hs
    exact newRoi_throw (f := Api.simdToRgb s) hd i hs rfl ((C148_ssse3_refused hk h3 p).1 hw hc rfl)
  · have p := i.pair hd i.fit.wpos i.fit.hpos (cc := 1) (by decide) i.small1
    exact newRoi_throw (f := Api.simdFlip s true ver) hd i i.small1 rfl ((C148_ssse3_refused hk h3 p).2.1 hw hc rfl ver)
  · have hs : w * 3 * h < 4294967296 := hc ▸ i.small
    have p := i.pair hd i.fit.wpos i.fit.hpos (cc := 3) (by decide) hs
    exact newRoi_throw (f := Api.simdRgbToBgr s) hd i hs rfl ((C148_ssse3_refused hk h3 p).2.2 hw hc rfl)

/-- A heap with images of 17x2 pixels -/
def simdHeap : Heap := ⟨{ simdMem with size := fun b => if b = 0 ∨ 3 < b then 0 else 64 }, 4⟩

theorem simdHeap_ok : HeapOk simdHeap := by
  refine ⟨by decide, fun b hb => ?_⟩
  have : 4 ≤ b := hb
  show (if b = 0 ∨ 3 < b then 0 else 64) = 0
  rw [if_pos (by omega)]

theorem simdInput : Input simdHeap (wide 1) 17 2 :=
  ⟨⟨by decide, by decide, by decide⟩, by decide, Or.inl rfl, by decide, by decide, by decide, by decide⟩

theorem simdInput' : Input simdHeap (wide 2) 17 2 :=
  ⟨⟨by decide, by decide, by decide⟩, by decide, Or.inl rfl, by decide, by decide, by decide, by decide⟩

/-- gcc without options on an ordinary processor -/
def onPlain : Setup := ⟨⟨false, true, false, false, false⟩, haswell.cpu, []⟩
theorem built_onPlain : buildOf gccPlain = some onPlain.build := by decide

/-- Threshold with a lower limit above the upper one gives an image, where the scalar function throws. -/
theorem C171_threshold2_wrong :
    (SimdOp1.threshold2 9 3).op.refused (wide 1).img.cc ∧
    newByte ((Forms.threshold2 9 3).newRoi (wide 1) 17 2 simdHeap) 0 = none ∧
    newByte ((Api.simdThreshold2 onPlain 9 3).newRoi (wide 1) 17 2 simdHeap) 0 = some (4, 0) :=
  ⟨Or.inr (by decide), by decide +kernel, by decide +kernel⟩

example : onPlain.kind = .sse ∧ onPlain.build.ssse3 = false := by decide
example : ∃ d', (Api.simdFlip onPlain true false).newRoi (wide 1) 17 2 simdHeap = .throw d' ∧ SameHeap simdHeap d' :=
  (C171_ssse3_wrong (by decide) rfl simdHeap_ok simdInput).2.1 (by decide) rfl false
example : newByte ((Api.simdFlip onHaswell true false).newRoi (wide 1) 17 2 simdHeap) 0 = some (4, 213) := by decide +kernel
example : ∃ d' img, ((SimdOp1.flip true false).fn onHaswell).newRoi (wide 1) 17 2 simdHeap = .ok img d' ∧
    NewImage simdHeap d' img 17 2 1 ((SimdOp1.flip true false).op.pixel simdHeap.mem (wide 1) 17 2) :=
  C171_region_partial built_onHaswell (.flip true false) (fun _ _ => rfl) simdHeap_ok simdInput ⟨rfl, rfl⟩ (by decide)
example : newByte (newRoi2 ((Op2.absoluteDifference).simd onPlain) (wide 1) (wide 2) 17 2 simdHeap) 16 = some (4, 37) := by decide +kernel
example : ∃ t, Api.simdSumWhole onPlain (wide 1).img simdHeap.mem = .ok t simdHeap.mem ∧
    t.toNat = total simdHeap.mem (whole (wide 1).img) 17 2 % 2 ^ 32 := C171_sum built_onPlain ⟨simdInput.wf, simdInput.fit⟩ rfl
example : ProfileFine onPlain 17 true := fun _ => Or.inl (by decide)

end PV.Props
