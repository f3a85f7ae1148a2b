import Verif.DeviceForms
import Verif.PropsForms
import Verif.PropsCuda
import Verif.PropsOpenCl
/-
  Property C169: forms that return a new image, and forms for whole images, on CUDA and OpenCL devices.
-/
namespace PV.Props

open Forms

/-! ### What is said about the result -/

/-- The call returns an image and leaves a launch behind; in every order of the accesses of its threads nothing goes wrong, all
    threads come to their end, and then the image and the heap satisfy `Q`. -/
def HeapRuns (call : M Heap (Image × Launch)) (d : Heap) (Q : Image → Heap → Prop) : Prop :=
  ∃ img L d1, call d = .ok (img, L) d1 ∧ L.Always d1.mem fun m' => Q img ⟨m', d1.next⟩

/-- The same for calls on OpenCL devices. -/
def HeapLaunches (call : M Heap (Image × Option Launch)) (d : Heap) (Q : Image → Heap → Prop) : Prop :=
  ∃ img L d1, call d = .ok (img, some L) d1 ∧ L.Always d1.mem fun m' => Q img ⟨m', d1.next⟩

/-! ### Lemmas -/

theorem pending_ok {α : Type} {d : Heap} {w h cc : Nat} {f : M BMem α} {a : α}
    (hf : f (grown d w h cc).mem = .ok a (grown d w h cc).mem) :
    pending (made d w h cc) f (grown d w h cc) = .ok (made d w h cc, a) (grown d w h cc) := by
  rw [pending, heapMem_keep hf]

theorem pending_throw {α : Type} {d : Heap} (hd : HeapOk d) {w h cc : Nat} {f : M BMem α}
    (hf : f (grown d w h cc).mem = .throw (grown d w h cc).mem) :
    ∃ d', pending (made d w h cc) f (grown d w h cc) = .throw d' ∧ SameHeap d d' := by
  obtain ⟨d', h1, h2⟩ := filled_throw hd (f := fun m => .throw m) (w := w) (h := h) (cc := cc) rfl
  refine ⟨d', ?_, h2⟩
  have h1 : (Res.throw ((grown d w h cc).release (made d w h cc)) : Res Heap Image) = .throw d' := h1
  rw [pending, heapMem_throw hf, ← Res.throw.inj h1]

theorem made_new {d : Heap} (hd : HeapOk d) {w h cc : Nat} (hs : w * cc * h < 4294967296) {m' : BMem} {G : Nat → Nat → Nat → UInt8}
    (hw : WritesRoi (grown d w h cc).mem m' (whole (made d w h cc)) w h G) :
    NewImage d ⟨m', (grown d w h cc).next⟩ (made d w h cc) w h cc G := by
  obtain ⟨d', h1, _, h3⟩ := filled_ok hd hs (f := fun _ => .ok () m') rfl hw
  have h1 : (Res.ok (made d w h cc) ⟨m', (grown d w h cc).next⟩ : Res Heap Image) = .ok (made d w h cc) d' := h1
  have e : d' = ⟨m', (grown d w h cc).next⟩ := (Res.ok.inj h1).2.symm
  rw [← e]
  exact h3

theorem callRoi_ok {α : Type} {f : Call1 α} {d : Heap} {v : View} {w h : Nat} (i : Input d v w h)
    (hs : w * f.cc v.img.cc * h < 4294967296) {a : α}
    (hf : f.full v (whole (made d w h (f.cc v.img.cc))) w h (grown d w h (f.cc v.img.cc)).mem = .ok a (grown d w h (f.cc v.img.cc)).mem) :
    f.newRoi v w h d = .ok (made d w h (f.cc v.img.cc), a) (grown d w h (f.cc v.img.cc)) := by
  rw [Call1.newRoi, bind_ok (heapMem_keep (validateRoi_ok _ i.fit i.u32.1 i.u32.2)), bind_ok (generate_ok i.fit.wpos i.fit.hpos hs)]
  exact pending_ok hf

theorem callRoi_throw {α : Type} {f : Call1 α} {d : Heap} (hd : HeapOk d) {v : View} {w h : Nat} (i : Input d v w h)
    (hs : w * f.cc v.img.cc * h < 4294967296)
    (hf : f.full v (whole (made d w h (f.cc v.img.cc))) w h (grown d w h (f.cc v.img.cc)).mem = .throw (grown d w h (f.cc v.img.cc)).mem) :
    ∃ d', f.newRoi v w h d = .throw d' ∧ SameHeap d d' := by
  rw [Call1.newRoi, bind_ok (heapMem_keep (validateRoi_ok _ i.fit i.u32.1 i.u32.2)), bind_ok (generate_ok i.fit.wpos i.fit.hpos hs)]
  exact pending_throw hd hf

theorem callRoi2_ok {α : Type} {f : Call2 α} {d : Heap} {v1 v2 : View} {w h : Nat} (i1 : Input d v1 w h) (i2 : Input d v2 w h) {a : α}
    (hf : f v1 v2 (whole (made d w h v1.img.cc)) w h (grown d w h v1.img.cc).mem = .ok a (grown d w h v1.img.cc).mem) :
    callRoi2 f v1 v2 w h d = .ok (made d w h v1.img.cc, a) (grown d w h v1.img.cc) := by
  rw [callRoi2, bind_ok (heapMem_keep (validateRois_ok _ (vs := [v1, v2]) (by simp; exact ⟨⟨i1.fit, i1.u32⟩, i2.fit, i2.u32⟩))),
    bind_ok (generate_ok i1.fit.wpos i1.fit.hpos i1.small)]
  exact pending_ok hf

theorem callRoi_runs {f : Call1 Launch} {d : Heap} (hd : HeapOk d) {v : View} {w h : Nat} (i : Input d v w h)
    (hs : w * f.cc v.img.cc * h < 4294967296) {G : Nat → Nat → Nat → UInt8}
    (hr : Runs (f.full v (whole (made d w h (f.cc v.img.cc))) w h) (grown d w h (f.cc v.img.cc)).mem fun m' =>
      WritesRoi (grown d w h (f.cc v.img.cc)).mem m' (whole (made d w h (f.cc v.img.cc))) w h G) :
    HeapRuns (f.newRoi v w h) d fun img d' => NewImage d d' img w h (f.cc v.img.cc) G := by
  obtain ⟨L, h1, h2⟩ := hr
  exact ⟨_, L, _, callRoi_ok i hs h1, h2.mono fun m' hw => made_new hd hs hw⟩

theorem callRoi_launches {f : Call1 (Option Launch)} {d : Heap} (hd : HeapOk d) {v : View} {w h : Nat} (i : Input d v w h)
    (hs : w * f.cc v.img.cc * h < 4294967296) {G : Nat → Nat → Nat → UInt8}
    (hr : OpenCl.Launches (f.full v (whole (made d w h (f.cc v.img.cc))) w h) (grown d w h (f.cc v.img.cc)).mem fun m' =>
      WritesRoi (grown d w h (f.cc v.img.cc)).mem m' (whole (made d w h (f.cc v.img.cc))) w h G) :
    HeapLaunches (f.newRoi v w h) d fun img d' => NewImage d d' img w h (f.cc v.img.cc) G := by
  obtain ⟨L, h1, h2⟩ := hr
  exact ⟨_, L, _, callRoi_ok i hs h1, h2.mono fun m' hw => made_new hd hs hw⟩

theorem launched_runs {f : M BMem Launch} {m : BMem} {Q : BMem → Prop} (h : Runs f m Q) : OpenCl.Launches (launched f) m Q := by
  obtain ⟨L, h1, h2⟩ := h
  exact ⟨L, by rw [launched, bind_ok h1]; rfl, h2⟩

theorem launched_throw {f : M BMem Launch} {m : BMem} (h : f m = .throw m) : launched f m = .throw m := by
  rw [launched, bind_throw h]

/-! ### Forms of every function -/

/-- **C169.** The form for a whole image is the form with the rectangle of the image. -/
theorem C169_image_region {α : Type} (f : Call1 α) {d : Heap} {img : Image} (i : InputImage d img) :
    f.newWhole img d = f.newRoi (whole img) img.width img.height d := by
  rw [Call1.newWhole, Call1.newRoi, bind_ok (heapMem_keep (validateRoi_ok _ i.fit i.u32.1 i.u32.2)),
    bind_ok (heapMem_keep (validImage_ok (img := img) i.fit.colors i.fit.nonempty _))]
  rfl

/-- **C169.** `void F( in, out )` for images of the same size is the form for rectangles, with the whole images. -/
theorem C169_into {α : Type} (f : Call1 α) {m : BMem} {a b : Image} (ha : (whole a).Fits a.width a.height)
    (hb : (whole b).Fits b.width b.height) (hw : b.width = a.width) (hh : b.height = a.height) :
    f.whole a b m = f.full (whole a) (whole b) a.width a.height m := by
  rw [Call1.whole, bind_ok (validImages2 ha hb hw hh)]
  rfl

/-- **C169.** `void F( in1, in2, out )` for images of the same size is the form for rectangles, with the whole images. -/
theorem C169_into2 {α : Type} (f : Call2 α) {m : BMem} {a b c : Image} (ha : (whole a).Fits a.width a.height)
    (hb : (whole b).Fits b.width b.height) (hc : (whole c).Fits c.width c.height) (hw : b.width = a.width) (hh : b.height = a.height)
    (hw' : c.width = a.width) (hh' : c.height = a.height) :
    callInto2 f a b c m = f (whole a) (whole b) (whole c) a.width a.height m := by
  have hv : validateImages [a, b, c] m = .ok () m := by
    rw [validateImages, bind_ok (validImages2 ha hb hw hh), validateImages, bind_ok (validImages2 hb hc (hw'.trans hw.symm) (hh'.trans hh.symm))]
    rfl
  rw [callInto2, bind_ok hv, hw', hh']
  rfl

theorem differentImages {m : BMem} {a b : Image} (hb : b.width ≠ a.width ∨ b.height ≠ a.height ∨ a.data = 0 ∨ b.data = 0 ∨
    ¬ (a.cc = 1 ∨ a.cc = 3 ∨ a.cc = 4) ∨ ¬ (b.cc = 1 ∨ b.cc = 3 ∨ b.cc = 4)) : validateImages2 a b m = .throw m := by
  have h := C102_rejects ⟨fun _ _ _ _ => pure (), id, fun _ => pure (), fun _ _ => pure ()⟩ m hb
  rw [Fn1.whole] at h
  rw [validateImages2, throwIf] at h ⊢
  by_cases e : (a.empty || b.empty || !isCorrectColorCount a || !isCorrectColorCount b || a.width != b.width || a.height != b.height) = true
  · rw [if_pos e]
    rfl
  · rw [if_neg e] at h
    cases h

/-- **C169.** `void F( in, out )` of images of different sizes, of empty images or of images with an unknown colour count. -/
theorem C169_into_rejects {α : Type} (f : Call1 α) (m : BMem) {a b : Image}
    (hb : b.width ≠ a.width ∨ b.height ≠ a.height ∨ a.data = 0 ∨ b.data = 0 ∨ ¬ (a.cc = 1 ∨ a.cc = 3 ∨ a.cc = 4) ∨
      ¬ (b.cc = 1 ∨ b.cc = 3 ∨ b.cc = 4)) : f.whole a b m = .throw m := by
  rw [Call1.whole, bind_throw (differentImages hb)]

/-- **C169.** A rectangle which does not fit, for any function of one image. -/
theorem C169_rejects_rectangle {α : Type} (f : Call1 α) (d : Heap) {v : View} {w h : Nat} (hv : v.U32) (hw : w < 2 ^ 32) (hh : h < 2 ^ 32)
    (hn : ¬ v.Fits w h) : f.newRoi v w h d = .throw d := by
  rw [Call1.newRoi, bind_throw (heapMem_throw (validateRoi_throw _ hn hv hw hh))]

/-- **C169.** An empty image or an unknown colour count, for any function of one image. -/
theorem C169_rejects_image {α : Type} (f : Call1 α) (d : Heap) {img : Image}
    (hn : img.data = 0 ∨ ¬ (img.cc = 1 ∨ img.cc = 3 ∨ img.cc = 4)) : f.newWhole img d = .throw d := by
  rw [Call1.newWhole, bind_throw (heapMem_throw ?_)]
  rw [validateImage, invalidImage hn]
  rfl

/-! ### Functions of one image -/

/-- The functions of one image whose pixels are given by a formula. -/
inductive GpuOp1
  | toGray | toRgb | extract (ch : Nat) | flip (hor ver : Bool) | invert | lookup (table : List UInt8) | copy
  | threshold (t : UInt8) | threshold2 (lo hi : UInt8)

/-- The function called on a CUDA device. -/
def GpuOp1.cuda (d : CudaDevice) : GpuOp1 → Call1 Launch
  | .toGray => OnCuda.convertToGrayScale d
  | .toRgb => OnCuda.convertToRgb d
  | .extract ch => OnCuda.extractChannel d ch
  | .flip hor ver => OnCuda.flip d hor ver
  | .invert => OnCuda.invert d
  | .lookup table => OnCuda.lookupTable d table
  | .copy => OnCuda.copy d
  | .threshold t => OnCuda.threshold d t
  | .threshold2 lo hi => OnCuda.threshold2 d lo hi

/-- The function called on an OpenCL device. -/
def GpuOp1.opencl (total : Nat) : GpuOp1 → Call1 (Option Launch)
  | .toGray => OnOpenCl.convertToGrayScale total
  | .toRgb => OnOpenCl.convertToRgb total
  | .extract ch => OnOpenCl.extractChannel total ch
  | .flip hor ver => OnOpenCl.flip total hor ver
  | .invert => OnOpenCl.invert total
  | .lookup table => OnOpenCl.lookupTable total table
  | .copy => OnOpenCl.copy total
  | .threshold t => OnOpenCl.threshold total t
  | .threshold2 lo hi => OnOpenCl.threshold2 total lo hi

/-- The colour count of the result. -/
def GpuOp1.colors : GpuOp1 → Nat → Nat
  | .toRgb, _ => 3
  | .invert, n | .copy, n => n
  | _, _ => 1

/-- The parameters and the colour count of the input which are supported. -/
def GpuOp1.good : GpuOp1 → Nat → Prop
  | .toGray, _ | .invert, _ | .copy, _ => True
  | .toRgb, n => n = 1 ∨ n = 3
  | .extract ch, n => ch < n
  | .flip _ _, n => n = 1
  | .lookup table, n => table.length = 256 ∧ n = 1
  | .threshold _, n => n = 1
  | .threshold2 _ _, n => n = 1

/-- The pixel (x, y), colour c, of the result. -/
def GpuOp1.pixel (o : GpuOp1) (m : BMem) (v : View) (w h x y c : Nat) : UInt8 :=
  match o with
  | .toGray => UInt8.ofNat (((List.range v.img.cc).map fun c => (v.get m x y c).toNat).sum / v.img.cc)
  | .toRgb => if v.img.cc = 1 then v.get m x y 0 else v.get m x y c
  | .extract ch => v.get m x y ch
  | .flip hor ver => v.get m (if hor then w - 1 - x else x) (if ver then h - 1 - y else y) 0
  | .invert => UInt8.ofNat (255 - (v.get m x y c).toNat)
  | .lookup table => table.getD (v.get m x y c).toNat 0
  | .copy => v.get m x y c
  | .threshold t => if t.toNat ≤ (v.get m x y c).toNat then 255 else 0
  | .threshold2 lo hi => if lo.toNat ≤ (v.get m x y c).toNat ∧ (v.get m x y c).toNat ≤ hi.toNat then 255 else 0

theorem GpuOp1.cuda_cc (o : GpuOp1) (d : CudaDevice) (n : Nat) : (o.cuda d).cc n = o.colors n := by cases o <;> rfl

theorem GpuOp1.opencl_cc (o : GpuOp1) (total n : Nat) : (o.opencl total).cc n = o.colors n := by cases o <;> rfl

theorem GpuOp1.colors_ok (o : GpuOp1) {n : Nat} (h : n = 1 ∨ n = 3 ∨ n = 4) : o.colors n = 1 ∨ o.colors n = 3 ∨ o.colors n = 4 := by
  cases o <;> simp [GpuOp1.colors, h]

theorem GpuOp1.pixel_grown (o : GpuOp1) (d : Heap) (w' h' cc : Nat) (v : View) (w h : Nat) :
    o.pixel (grown d w' h' cc).mem v w h = o.pixel d.mem v w h := by
  cases o <;> rfl

theorem GpuOp1.cuda_full (o : GpuOp1) {d : CudaDevice} {m : BMem} {inp out : View} {w h : Nat} (p : Pair m inp w h out w h)
    (hg : o.good inp.img.cc) (hk : out.img.cc = o.colors inp.img.cc) (s : d.Serves (w * out.img.cc) h) :
    Runs ((o.cuda d).full inp out w h) m fun m' => WritesRoi m m' out w h (o.pixel m inp w h) := by
  have r1 : out.img.cc = inp.img.cc → Ready1 m inp out w h := fun co =>
    ⟨p.wfi, p.wfo, p.fiti, p.fito, co, noClash_of_apart p.apart⟩
  have s1 : out.img.cc = 1 → d.Serves w h := fun e => by rw [e, Nat.mul_one] at s; exact s
  have key : ∀ {G : Nat → Nat → Nat → UInt8} {f : M BMem Launch}, Runs f m (fun m' => WritesRoi m m' out w h G) →
      (∀ x y c, x < w → y < h → c < out.img.cc → G x y c = o.pixel m inp w h x y c) →
      Runs f m fun m' => WritesRoi m m' out w h (o.pixel m inp w h) := fun hr he => hr.mono fun m' b => b.congr' he
  cases o with
  | toGray =>
    have hk : out.img.cc = 1 := hk
    by_cases h1 : inp.img.cc = 1
    · refine key (C110_convertToGrayScale_gray (r1 (hk.trans h1.symm)) h1 (s1 hk)) fun x y c _ _ hc => ?_
      rw [show c = 0 by omega]
      simp [GpuOp1.pixel, h1]
    · exact Cuda.gray_runs p h1 hk (s1 hk)
  | toRgb =>
    have hk : out.img.cc = 3 := hk
    rw [hk] at s
    refine key (C110_convertToRgb_partial p hg hk s) fun x y c _ _ _ => ?_
    rw [GpuOp1.pixel]
    split <;> rfl
  | extract ch => exact C110_extractChannel p hk hg (s1 hk)
  | flip hor ver =>
    have hk : out.img.cc = 1 := hk
    refine key (C110_flip hor ver p hg hk (s1 hk)) fun x y c _ _ hc => ?_
    rw [GpuOp1.pixel, show c = 0 by omega]
    simp only [mirror]
  | invert => exact C109_invert (r1 hk) s
  | lookup table =>
    refine key (C109_lookupTable table hg.1 (r1 (by rw [hg.2]; exact hk)) s) fun x y c _ _ hc => ?_
    have hl : (inp.get m x y c).toNat < table.length := by rw [hg.1]; exact UInt8.toNat_lt _
    simp [GpuOp1.pixel, hl]
  | copy => exact C109_copy (r1 hk) s
  | threshold t =>
    have hg : inp.img.cc = 1 := hg
    exact C109_threshold t (r1 (by rw [hg]; exact hk)) hg (s1 hk)
  | threshold2 lo hi =>
    have hg : inp.img.cc = 1 := hg
    exact C109_threshold2 lo hi (r1 (by rw [hg]; exact hk)) hg (s1 hk)

/-- **C169.** `Image F( in, startX, startY, width, height )` on a CUDA device, for every function of one image: a new image of the
    size of the rectangle, of the right colours, with the right pixels; no image that existed is changed.

    Partial: ConvertToRgb not for RGBA images, LookupTable only for gray-scale images. -/
theorem C169_cuda_region_partial (o : GpuOp1) {dev : CudaDevice} {d : Heap} (hd : HeapOk d) {v : View} {w h : Nat} (i : Input d v w h)
    (hg : o.good v.img.cc) (hs : w * o.colors v.img.cc * h < 2 ^ 32) (s : dev.Serves (w * o.colors v.img.cc) h) :
    HeapRuns ((o.cuda dev).newRoi v w h) d fun img d' =>
      NewImage d d' img w h (o.colors v.img.cc) (o.pixel d.mem v w h) := by
  have p := i.pair hd i.fit.wpos i.fit.hpos (o.colors_ok i.fit.colors) hs
  have hr := o.cuda_full (d := dev) p hg rfl s
  rw [o.pixel_grown] at hr
  have e := o.cuda_cc dev v.img.cc
  rw [← e] at hs hr ⊢
  exact callRoi_runs hd i hs hr

/-- **C169.** `Image F( in )` on a CUDA device, for every function of one image but Copy, which has no such form. Partial as above. -/
theorem C169_cuda_image_partial (o : GpuOp1) (_ : o ≠ .copy) {dev : CudaDevice} {d : Heap} (hd : HeapOk d) {img : Image} (i : InputImage d img)
    (hg : o.good img.cc) (hs : img.width * o.colors img.cc * img.height < 2 ^ 32) (s : dev.Serves (img.width * o.colors img.cc) img.height) :
    HeapRuns ((o.cuda dev).newWhole img) d fun new d' =>
      NewImage d d' new img.width img.height (o.colors img.cc) (o.pixel d.mem (whole img) img.width img.height) := by
  rw [HeapRuns, C169_image_region _ i]
  exact C169_cuda_region_partial o hd i hg hs s

/-- **C169.** `void F( in, out )` on a CUDA device, for every function of one image: every pixel of `out` gets its value, nothing else
    is written. Not for Copy, whose form of this kind assigns the image. Partial: as above, and `out` has no pixel of `in`. -/
theorem C169_cuda_into_partial (o : GpuOp1) (_ : o ≠ .copy) {dev : CudaDevice} {m : BMem} {a b : Image} (t : Two m a b) (hw : b.width = a.width)
    (hh : b.height = a.height) (hg : o.good a.cc) (hk : b.cc = o.colors a.cc) (s : dev.Serves (a.width * b.cc) a.height) :
    Runs ((o.cuda dev).whole a b) m fun m' => WritesRoi m m' (whole b) a.width a.height (o.pixel m (whole a) a.width a.height) := by
  have p : Pair m (whole a) a.width a.height (whole b) a.width a.height := by
    have h1 := t.fitb
    have h2 := t.apart
    rw [hw, hh] at h1 h2
    exact ⟨t.wfa, t.wfb, t.fita, h1, h2⟩
  rw [Runs, C169_into _ t.fita t.fitb hw hh]
  exact o.cuda_full p hg hk s

/-- Images and parameters which have to be refused. -/
def GpuOp1.refused : GpuOp1 → Nat → Prop
  | .toGray, _ | .toRgb, _ | .invert, _ | .copy, _ => False
  | .extract ch, n => n ≤ ch
  | .flip _ _, n => n ≠ 1
  | .lookup table, n => table.length ≠ 256 ∨ n ≠ 1
  | .threshold _, n => n ≠ 1
  | .threshold2 _ _, n => n ≠ 1

/-- **C169.** Refused images and parameters: an exception, and nothing is left behind; on CUDA devices -/
theorem C169_cuda_rejects (o : GpuOp1) (dev : CudaDevice) {d : Heap} (hd : HeapOk d) {v : View} {w h : Nat} (i : Input d v w h)
    (hr : o.refused v.img.cc) : ∃ d', (o.cuda dev).newRoi v w h d = .throw d' ∧ SameHeap d d' := by
  obtain ⟨hv, hw, hh⟩ := i.fullU32
  have bad : ∀ {cc : Nat} {P : Prop}, ¬ P → Bad [v, whole (made d w h cc)] w h P := fun hP =>
    ⟨by simp [hv, made_u32 hw hh], hw, hh, Or.inr hP⟩
  have hs := i.small1
  cases o with
  | toGray => exact hr.elim
  | toRgb => exact hr.elim
  | invert => exact hr.elim
  | copy => exact hr.elim
  | extract ch => exact callRoi_throw hd i hs (C110_rejects.1 ch (bad fun h => Nat.not_lt.2 hr h.2))
  | flip hor ver => exact callRoi_throw hd i hs (C110_rejects.2.1 hor ver (bad fun h => hr h.1))
  | lookup table =>
    refine callRoi_throw hd i hs (C109_rejects.2.2.1 table (bad fun h => ?_))
    rcases hr with hr | hr
    · exact hr h.2
    · exact hr h.1.symm
  | threshold t => exact callRoi_throw hd i hs (C109_rejects.2.1 t 0 0 (bad fun h => hr h.1)).1
  | threshold2 lo hi => exact callRoi_throw hd i hs (C109_rejects.2.1 0 lo hi (bad fun h => hr h.1)).2

/-- **C169.** Refused images and parameters: an exception, and nothing is left behind; on OpenCL devices -/
theorem C169_opencl_rejects (o : GpuOp1) (total : Nat) {d : Heap} (hd : HeapOk d) {v : View} {w h : Nat} (i : Input d v w h)
    (hr : o.refused v.img.cc) : ∃ d', (o.opencl total).newRoi v w h d = .throw d' ∧ SameHeap d d' := by
  obtain ⟨hv, hw, hh⟩ := i.fullU32
  have bad : ∀ {cc : Nat} {P : Prop}, ¬ P → Bad [v, whole (made d w h cc)] w h P := fun hP =>
    ⟨by simp [hv, made_u32 hw hh], hw, hh, Or.inr hP⟩
  have hs := i.small1
  cases o with
  | toGray => exact hr.elim
  | toRgb => exact hr.elim
  | invert => exact hr.elim
  | copy => exact hr.elim
  | extract ch => exact callRoi_throw hd i hs (launched_throw (C113_rejects.2.2.2.2.2.1 ch (bad fun h => Nat.not_lt.2 hr h.2)))
  | flip hor ver => exact callRoi_throw hd i hs (launched_throw (C113_rejects.2.2.2.2.2.2.1 hor ver (bad fun h => hr h.1)))
  | lookup table =>
    refine callRoi_throw hd i hs (launched_throw (C113_rejects.2.2.1 table (bad fun h => ?_)))
    rcases hr with hr | hr
    · exact hr h.2
    · exact hr h.1.symm
  | threshold t => exact callRoi_throw hd i hs (launched_throw (C113_rejects.2.1 t 0 0 (bad fun h => hr h.1)).1)
  | threshold2 lo hi => exact callRoi_throw hd i hs (launched_throw (C113_rejects.2.1 0 lo hi (bad fun h => hr h.1)).2)

/-- The rectangles for which a call on an OpenCL device is right. -/
def GpuOp1.fine (o : GpuOp1) (v : View) (w h : Nat) : Prop :=
  match o with
  | .invert => True
  | .copy => False
  | .toGray => v.img.cc ≠ 1 ∧ v.x = v.y
  | .toRgb => v.img.cc = 1 ∧ v.x = v.y
  | .extract _ => (h = 1 ∨ v.img.cc = 1) ∧ v.x = v.y
  | .flip hor ver => (hor || ver) = true ∧ w = v.img.width ∧ h = v.img.height
  | _ => v.x = v.y

theorem GpuOp1.opencl_full (o : GpuOp1) {total : Nat} {m : BMem} {inp out : View} {w h : Nat} (p : Pair m inp w h out w h)
    (hg : o.good inp.img.cc) (hk : out.img.cc = o.colors inp.img.cc) (hf : o.fine inp w h) (dev : OpenCl.Device total) :
    OpenCl.Launches ((o.opencl total).full inp out w h) m fun m' => WritesRoi m m' out w h (o.pixel m inp w h) := by
  have r1 : out.img.cc = inp.img.cc → Ready1 m inp out w h := fun co =>
    ⟨p.wfi, p.wfo, p.fiti, p.fito, co, noClash_of_apart p.apart⟩
  have key : ∀ {G : Nat → Nat → Nat → UInt8} {f : M BMem Launch}, Runs f m (fun m' => WritesRoi m m' out w h G) →
      (∀ x y c, x < w → y < h → c < out.img.cc → G x y c = o.pixel m inp w h x y c) →
      OpenCl.Launches (launched f) m fun m' => WritesRoi m m' out w h (o.pixel m inp w h) :=
    fun hr he => launched_runs (hr.mono fun m' b => b.congr' he)
  cases o with
  | toGray => exact C113_convertToGrayScale_partial p hf.1 hk dev hf.2
  | toRgb =>
    obtain ⟨L, h1, h2⟩ := C113_convertToRgb_partial p hf.1 hk dev hf.2
    exact ⟨L, h1, h2.mono fun m' b => b.congr' fun x y c _ _ _ => by rw [GpuOp1.pixel, if_pos hf.1]⟩
  | extract ch => exact key (C113_extractChannel_partial p hk hg dev hf.2 hf.1) fun _ _ _ _ _ _ => rfl
  | flip hor ver =>
    have hk : out.img.cc = 1 := hk
    refine key (C113_flip_partial hor ver p hg hk dev hf.1 hf.2.1 hf.2.2) fun x y c _ _ hc => ?_
    rw [GpuOp1.pixel, show c = 0 by omega]
    simp only [mirror]
  | invert => exact key (C112_invert (r1 hk) dev) fun _ _ _ _ _ _ => rfl
  | lookup table =>
    refine key (C113_lookupTable_partial table hg.1 (r1 (by rw [hg.2]; exact hk)) dev hf) fun x y c _ _ hc => ?_
    have hl : (inp.get m x y c).toNat < table.length := by rw [hg.1]; exact UInt8.toNat_lt _
    simp [GpuOp1.pixel, hl]
  | copy => exact hf.elim
  | threshold t =>
    have hg : inp.img.cc = 1 := hg
    exact key (C113_threshold_partial t (r1 (by rw [hg]; exact hk)) hg dev hf) fun _ _ _ _ _ _ => rfl
  | threshold2 lo hi =>
    have hg : inp.img.cc = 1 := hg
    exact key (C113_threshold2_partial lo hi (r1 (by rw [hg]; exact hk)) hg dev hf) fun _ _ _ _ _ _ => rfl

/-- **C169.** `Image F( in, startX, startY, width, height )` on an OpenCL device.  Partial: what C113 says about the forms for rectangles,
    collected in `fine`; Copy never (`C169_opencl_copy_never`). -/
theorem C169_opencl_region_partial (o : GpuOp1) {total : Nat} {d : Heap} (hd : HeapOk d) {v : View} {w h : Nat} (i : Input d v w h)
    (hg : o.good v.img.cc) (hf : o.fine v w h) (hs : w * o.colors v.img.cc * h < 2 ^ 32) (dev : OpenCl.Device total) :
    HeapLaunches ((o.opencl total).newRoi v w h) d fun img d' =>
      NewImage d d' img w h (o.colors v.img.cc) (o.pixel d.mem v w h) := by
  have p := i.pair hd i.fit.wpos i.fit.hpos (o.colors_ok i.fit.colors) hs
  have hr := o.opencl_full (total := total) p hg rfl hf dev
  rw [o.pixel_grown] at hr
  have e := o.opencl_cc total v.img.cc
  rw [← e] at hs hr ⊢
  exact callRoi_launches hd i hs hr

/-- What has to hold for whole images on an OpenCL device. -/
def GpuOp1.fineImage (o : GpuOp1) (img : Image) : Prop :=
  match o with
  | .toGray => img.cc ≠ 1
  | .toRgb => img.cc = 1
  | .extract _ => img.height = 1 ∨ img.cc = 1
  | .flip hor ver => (hor || ver) = true
  | .copy => False
  | _ => True

theorem GpuOp1.fine_image {o : GpuOp1} {img : Image} (hf : o.fineImage img) : o.fine (whole img) img.width img.height := by
  cases o with
  | toGray => exact ⟨hf, rfl⟩
  | toRgb => exact ⟨hf, rfl⟩
  | extract _ => exact ⟨hf, rfl⟩
  | flip _ _ => exact ⟨hf, rfl, rfl⟩
  | copy => exact hf
  | invert => trivial
  | lookup _ => rfl
  | threshold _ => rfl
  | threshold2 _ _ => rfl

/-- **C169.** `Image F( in )` on an OpenCL device.  Partial: ConvertToGrayScale for RGB and RGBA images, ConvertToRgb for gray-scale images,
    ExtractChannel for gray-scale images and images of one row, Flip with at least one direction. -/
theorem C169_opencl_image_partial (o : GpuOp1) {total : Nat} {d : Heap} (hd : HeapOk d) {img : Image} (i : InputImage d img)
    (hg : o.good img.cc) (hf : o.fineImage img) (hs : img.width * o.colors img.cc * img.height < 2 ^ 32) (dev : OpenCl.Device total) :
    HeapLaunches ((o.opencl total).newWhole img) d fun new d' =>
      NewImage d d' new img.width img.height (o.colors img.cc) (o.pixel d.mem (whole img) img.width img.height) := by
  rw [HeapLaunches, C169_image_region _ i]
  exact C169_opencl_region_partial o hd i hg (o.fine_image hf) hs dev

/-- **C169.** `void F( in, out )` on an OpenCL device. Partial as above, and `out` has no pixel of `in`. -/
theorem C169_opencl_into_partial (o : GpuOp1) {total : Nat} {m : BMem} {a b : Image} (t : Two m a b) (hw : b.width = a.width)
    (hh : b.height = a.height) (hg : o.good a.cc) (hk : b.cc = o.colors a.cc) (hf : o.fineImage a) (dev : OpenCl.Device total) :
    OpenCl.Launches ((o.opencl total).whole a b) m fun m' =>
      WritesRoi m m' (whole b) a.width a.height (o.pixel m (whole a) a.width a.height) := by
  have p : Pair m (whole a) a.width a.height (whole b) a.width a.height := by
    have h1 := t.fitb
    have h2 := t.apart
    rw [hw, hh] at h1 h2
    exact ⟨t.wfa, t.wfb, t.fita, h1, h2⟩
  rw [OpenCl.Launches, C169_into _ t.fita t.fitb hw hh]
  exact o.opencl_full p hg hk (o.fine_image hf) dev

theorem write_ub {L : Launch} {m : BMem} (t : L.Thread) {b j b' j' : Nat} {f : UInt8 → UInt8}
    (hk : L.kernel (L.posX t) (L.posY t) = .read b j fun q => .write b' j' (f q) (.ret ())) (hv : ¬ m.Valid b' j') :
    (((L.sys m).exec [t, t]).task t) = .ub := by
  have h0 : (L.sys m).task t = .read b j fun q => .write b' j' (f q) (.ret ()) := hk
  have h0' : (L.sys m).mem = m := rfl
  show (((L.sys m).step t).step t).task t = .ub
  by_cases hb : m.Valid b j
  · have h1 : ((L.sys m).step t).task t = .write b' j' (f (m.byte b j)) (.ret ()) := by
      simp only [Sys.step, h0, h0', Prog.step, if_pos hb, if_true]
    have h2 : ((L.sys m).step t).mem = m := by
      simp only [Sys.step, h0, h0', Prog.step, if_pos hb]
    rw [Sys.step]
    simp only [h1, h2, Prog.step, if_neg hv, if_true]
  · have h1 : ((L.sys m).step t).task t = .ub := by
      simp only [Sys.step, h0, h0', Prog.step, if_neg hb, if_true]
    rw [Sys.step]
    simp only [h1, Prog.step, if_true]

/-- **C169** fails for Copy on OpenCL devices, for every image and every rectangle: the copy begins in the second row of the new image,
    so the last row goes beyond its memory. -/
theorem C169_opencl_copy_never {total : Nat} {d : Heap} (hd : HeapOk d) {v : View} {w h : Nat} (i : Input d v w h) (dev : OpenCl.Device total)
    (Q : Image → Heap → Prop) : ¬ HeapLaunches ((GpuOp1.copy.opencl total).newRoi v w h) d Q := by
  rintro ⟨img, L', d1, e', hA⟩
  have hs := i.small
  have p := i.pair hd i.fit.wpos i.fit.hpos i.fit.colors hs
  obtain ⟨hcc, _⟩ := View.facts i.wf i.fit
  have hw := i.fit.wpos
  have hh := i.fit.hpos
  have hr : w * v.img.cc * 1 ≤ w * v.img.cc * h := Nat.mul_le_mul_left _ hh
  have hwc : 0 < w * v.img.cc := Nat.mul_pos hw hcc
  have hh2 : 1 * h ≤ w * v.img.cc * h := Nat.mul_le_mul_right _ hwc
  have hu : u32 (w * v.img.cc) = w * v.img.cc := u32_of_lt (by omega)
  obtain ⟨g, eg, hL⟩ := OpenCl.geometry_ok (μ := BMem) dev hwc hh (by omega) (by omega)
  have e : (GpuOp1.copy.opencl total).full v (whole (made d w h v.img.cc)) w h (grown d w h v.img.cc).mem
      = .ok (some ⟨g, guarded (w * v.img.cc) h (kernelUnary id (OpenCl.addr v.img.data (OpenCl.offXY v v.img.cc) v.img.rowSize)
        (OpenCl.addr d.next (w * v.img.cc) (w * v.img.cc)))⟩) (grown d w h v.img.cc).mem := by
    show launched (OpenCl.Copy total v (whole (made d w h v.img.cc)) w h) _ = _
    rw [launched, OpenCl.Copy, bind_assoc', bind_ok (Cuda.validate_pair p), bind_assoc', bind_ok (common_ok (by simp [whole, made]))]
    dsimp only
    rw [hu, OpenCl.launch2D, eg]
    rfl
  have e2 := callRoi_ok (f := GpuOp1.copy.opencl total) i hs e
  obtain ⟨e3, rfl⟩ := Res.ok.inj (e2.symm.trans e')
  obtain ⟨rfl, e4⟩ := Prod.mk.inj e3
  obtain rfl := Option.some.inj e4
  obtain ⟨t, tx, ty⟩ := hL.cover 0 (h - 1) hwc (by omega)
  have hsz : (grown d w h v.img.cc).mem.size d.next = h * (w * v.img.cc) := by simp [grown, Heap.grow]
  have ha : OpenCl.addr d.next (w * v.img.cc) (w * v.img.cc) 0 (h - 1) = (d.next, h * (w * v.img.cc)) := by
    have e1 : (h - 1) * (w * v.img.cc) + w * v.img.cc = h * (w * v.img.cc) := by
      rw [← Nat.succ_mul, Nat.succ_eq_add_one, Nat.sub_add_cancel hh]
    have e2 : h * (w * v.img.cc) = w * v.img.cc * h := Nat.mul_comm _ _
    simp only [OpenCl.addr, size64]
    congr 1
    omega
  have hv : ¬ (grown d w h v.img.cc).mem.Valid d.next (h * (w * v.img.cc)) := fun hv => by
    have := hv.2
    omega
  refine (hA.safe [t, t] t).2 (write_ub (L := ⟨g, _⟩) t (b := (OpenCl.addr v.img.data (OpenCl.offXY v v.img.cc) v.img.rowSize 0 (h - 1)).1)
    (j := (OpenCl.addr v.img.data (OpenCl.offXY v v.img.cc) v.img.rowSize 0 (h - 1)).2) (f := id) ?_ hv)
  show guarded _ _ _ (g.posX t) (g.posY t) = _
  rw [tx, ty, guarded, if_pos ⟨hwc, by omega⟩, kernelUnary, ha]
  rfl

/-! ### GammaCorrection -/

/-- **C169.** GammaCorrection on a CUDA device makes the image that the same form makes on the host. -/
theorem C169_cuda_gammaCorrection {rnd : ℚ → ℚ} (rr : Rounding rnd) {pow : ℚ → ℚ → ℚ} {a gamma : ℚ} (hp : PowOk pow gamma) (ha : 0 ≤ a)
    (hg : 0 ≤ gamma) {dev : CudaDevice} {d : Heap} (hd : HeapOk d) {v : View} {w h : Nat} (i : Input d v w h) (g : v.img.cc = 1)
    (s : dev.Serves w h) :
    ∃ img d', (Forms.gammaCorrection rnd pow a gamma).newRoi v w h d = .ok img d' ∧
      HeapRuns ((OnCuda.gammaCorrection rnd pow dev a gamma).newRoi v w h) d fun img' d'' => img' = img ∧ d'' = d' := by
  have p := i.pair hd i.fit.wpos i.fit.hpos (Or.inl rfl) i.small1
  obtain ⟨m', h1, L, h2, h3⟩ := C109_gammaCorrection (d := dev) rr hp ha hg
    ⟨p.wfi, p.wfo, p.fiti, p.fito, g.symm, noClash_of_apart p.apart⟩ g s
  refine ⟨made d w h 1, ⟨m', (grown d w h 1).next⟩, ?_, _, L, _, callRoi_ok (f := OnCuda.gammaCorrection rnd pow dev a gamma) i i.small1 h2,
    h3.mono fun m'' e => ⟨rfl, by rw [e]; rfl⟩⟩
  rw [Fn1.newRoi, bind_ok (heapMem_keep (validateRoi_ok _ i.fit i.u32.1 i.u32.2)), bind_ok (heapMem_keep (f := (Forms.gammaCorrection rnd pow a gamma).check v.img) (a := ()) rfl),
    bind_ok (generate_ok (cc := (Forms.gammaCorrection rnd pow a gamma).cc v.img.cc) i.fit.wpos i.fit.hpos i.small1)]
  show filled (made d w h 1) (GammaCorrection rnd pow v (whole (made d w h 1)) w h a gamma) (grown d w h 1) = _
  rw [filled, heapMem_ok h1]

/-- **C169.** GammaCorrection on an OpenCL device makes the image that the same form makes on the host.
    Partial: the rectangle begins on the diagonal (C113). -/
theorem C169_opencl_gammaCorrection_partial {rnd : ℚ → ℚ} (rr : Rounding rnd) {pow : ℚ → ℚ → ℚ} {a gamma : ℚ} (hp : PowOk pow gamma)
    (ha : 0 ≤ a) (hg : 0 ≤ gamma) {total : Nat} (dev : OpenCl.Device total) {d : Heap} (hd : HeapOk d) {v : View} {w h : Nat}
    (i : Input d v w h) (g : v.img.cc = 1) (hxy : v.x = v.y) :
    ∃ img d', (Forms.gammaCorrection rnd pow a gamma).newRoi v w h d = .ok img d' ∧
      HeapLaunches ((OnOpenCl.gammaCorrection rnd pow total a gamma).newRoi v w h) d fun img' d'' => img' = img ∧ d'' = d' := by
  have p := i.pair hd i.fit.wpos i.fit.hpos (Or.inl rfl) i.small1
  obtain ⟨m', h1, hr⟩ := C113_gammaCorrection_partial rr hp ha hg
    ⟨p.wfi, p.wfo, p.fiti, p.fito, g.symm, noClash_of_apart p.apart⟩ g dev hxy
  obtain ⟨L, h2, h3⟩ := launched_runs hr
  refine ⟨made d w h 1, ⟨m', (grown d w h 1).next⟩, ?_, _, L, _,
    callRoi_ok (f := OnOpenCl.gammaCorrection rnd pow total a gamma) i i.small1 h2, h3.mono fun m'' e => ⟨rfl, by rw [e]; rfl⟩⟩
  rw [Fn1.newRoi, bind_ok (heapMem_keep (validateRoi_ok _ i.fit i.u32.1 i.u32.2)), bind_ok (heapMem_keep (f := (Forms.gammaCorrection rnd pow a gamma).check v.img) (a := ()) rfl),
    bind_ok (generate_ok (cc := (Forms.gammaCorrection rnd pow a gamma).cc v.img.cc) i.fit.wpos i.fit.hpos i.small1)]
  show filled (made d w h 1) (GammaCorrection rnd pow v (whole (made d w h 1)) w h a gamma) (grown d w h 1) = _
  rw [filled, heapMem_ok h1]

/-! ### Functions of two images -/

/-- The function called on a CUDA device. -/
def Op2.cuda (d : CudaDevice) : Op2 → Call2 Launch
  | .absoluteDifference => Cuda.AbsoluteDifference d
  | .bitwiseAnd => Cuda.BitwiseAnd d
  | .bitwiseOr => Cuda.BitwiseOr d
  | .bitwiseXor => Cuda.BitwiseXor d
  | .maximum => Cuda.Maximum d
  | .minimum => Cuda.Minimum d
  | .subtract => Cuda.Subtract d

/-- The function called on an OpenCL device. -/
def Op2.opencl (total : Nat) : Op2 → Call2 Launch
  | .absoluteDifference => OpenCl.AbsoluteDifference total
  | .bitwiseAnd => OpenCl.BitwiseAnd total
  | .bitwiseOr => OpenCl.BitwiseOr total
  | .bitwiseXor => OpenCl.BitwiseXor total
  | .maximum => OpenCl.Maximum total
  | .minimum => OpenCl.Minimum total
  | .subtract => OpenCl.Subtract total

theorem Op2.value_absDiff (a b : UInt8) : Op2.absoluteDifference.value a b (specAbsDiff a b) := by
  have a1 := a.toNat_lt
  have a2 := b.toNat_lt
  rw [Op2.value, specAbsDiff, ofNat_toNat' (by omega), Int.natCast_natAbs]

theorem Op2.value_max (a b : UInt8) : Op2.maximum.value a b (specMax a b) := by
  have a1 := a.toNat_lt
  have a2 := b.toNat_lt
  rw [Op2.value, specMax, show Nat.max _ _ = max _ _ from rfl, ofNat_toNat' (by omega)]

theorem Op2.value_min (a b : UInt8) : Op2.minimum.value a b (specMin a b) := by
  have a1 := a.toNat_lt
  have a2 := b.toNat_lt
  rw [Op2.value, specMin, show Nat.min _ _ = min _ _ from rfl, ofNat_toNat' (by omega)]

theorem Op2.value_sub (a b : UInt8) : Op2.subtract.value a b (specSub a b) := by
  have a1 := a.toNat_lt
  have a2 := b.toNat_lt
  rw [Op2.value, specSub, ofNat_toNat' (by omega)]

theorem Op2.cuda_full (o : Op2) {d : CudaDevice} {m : BMem} {in1 in2 out : View} {w h : Nat} (r : Ready2 m in1 in2 out w h)
    (s : d.Serves (w * out.img.cc) h) :
    ∃ F, Runs (o.cuda d in1 in2 out w h) m (fun m' => WritesRoi m m' out w h F) ∧
      ∀ x y c, o.value (in1.get m x y c) (in2.get m x y c) (F x y c) := by
  cases o with
  | absoluteDifference => exact ⟨_, C108_absoluteDifference r s, fun _ _ _ => Op2.value_absDiff _ _⟩
  | bitwiseAnd =>
    obtain ⟨F, h1, h2⟩ := C108_bitwiseAnd r s
    exact ⟨F, h1, fun x y c k => h2 x y c k⟩
  | bitwiseOr =>
    obtain ⟨F, h1, h2⟩ := C108_bitwiseOr r s
    exact ⟨F, h1, fun x y c k => h2 x y c k⟩
  | bitwiseXor =>
    obtain ⟨F, h1, h2⟩ := C108_bitwiseXor r s
    exact ⟨F, h1, fun x y c k => h2 x y c k⟩
  | maximum => exact ⟨_, C108_maximum r s, fun _ _ _ => Op2.value_max _ _⟩
  | minimum => exact ⟨_, C108_minimum r s, fun _ _ _ => Op2.value_min _ _⟩
  | subtract => exact ⟨_, C108_subtract r s, fun _ _ _ => Op2.value_sub _ _⟩

theorem Op2.opencl_full (o : Op2) {total : Nat} {m : BMem} {in1 in2 out : View} {w h : Nat} (r : Ready2 m in1 in2 out w h)
    (d : OpenCl.Device total) :
    ∃ F, Runs (o.opencl total in1 in2 out w h) m (fun m' => WritesRoi m m' out w h F) ∧
      ∀ x y c, o.value (in1.get m x y c) (in2.get m x y c) (F x y c) := by
  cases o with
  | absoluteDifference => exact ⟨_, C112_absoluteDifference r d, fun _ _ _ => Op2.value_absDiff _ _⟩
  | bitwiseAnd =>
    obtain ⟨F, h1, h2⟩ := C112_bitwiseAnd r d
    exact ⟨F, h1, fun x y c k => h2 x y c k⟩
  | bitwiseOr =>
    obtain ⟨F, h1, h2⟩ := C112_bitwiseOr r d
    exact ⟨F, h1, fun x y c k => h2 x y c k⟩
  | bitwiseXor =>
    obtain ⟨F, h1, h2⟩ := C112_bitwiseXor r d
    exact ⟨F, h1, fun x y c k => h2 x y c k⟩
  | maximum => exact ⟨_, C112_maximum r d, fun _ _ _ => Op2.value_max _ _⟩
  | minimum => exact ⟨_, C112_minimum r d, fun _ _ _ => Op2.value_min _ _⟩
  | subtract => exact ⟨_, C112_subtract r d, fun _ _ _ => Op2.value_sub _ _⟩

theorem callRoi2_runs {f : Call2 Launch} {d : Heap} (hd : HeapOk d) {v1 v2 : View} {w h : Nat} (i1 : Input d v1 w h) (i2 : Input d v2 w h)
    {G : Nat → Nat → Nat → UInt8}
    (hr : Runs (f v1 v2 (whole (made d w h v1.img.cc)) w h) (grown d w h v1.img.cc).mem fun m' =>
      WritesRoi (grown d w h v1.img.cc).mem m' (whole (made d w h v1.img.cc)) w h G) :
    HeapRuns (callRoi2 f v1 v2 w h) d fun img d' => NewImage d d' img w h v1.img.cc G := by
  obtain ⟨L, h1, h2⟩ := hr
  exact ⟨_, L, _, callRoi2_ok i1 i2 h1, h2.mono fun m' hw => made_new hd i1.small hw⟩

theorem ready_new {d : Heap} (hd : HeapOk d) {v1 v2 : View} {w h : Nat} (i1 : Input d v1 w h) (i2 : Input d v2 w h)
    (hc : v2.img.cc = v1.img.cc) : Ready2 (grown d w h v1.img.cc).mem v1 v2 (whole (made d w h v1.img.cc)) w h := by
  have p1 := i1.pair hd i1.fit.wpos i1.fit.hpos i1.fit.colors i1.small
  have p2 := i2.pair hd i1.fit.wpos i1.fit.hpos i1.fit.colors i1.small
  exact ⟨p1.wfi, p2.wfi, p1.wfo, p1.fiti, p2.fiti, p1.fito, hc, rfl, noClash_of_apart p1.apart, noClash_of_apart p2.apart⟩

/-- **C169.** `Image F( in1, startX1, startY1, in2, startX2, startY2, width, height )` on CUDA devices, for every function of two images. -/
theorem C169_cuda_region2 (o : Op2) {dev : CudaDevice} {d : Heap} (hd : HeapOk d) {v1 v2 : View} {w h : Nat} (i1 : Input d v1 w h)
    (i2 : Input d v2 w h) (hc : v2.img.cc = v1.img.cc) (s : dev.Serves (w * v1.img.cc) h) :
    ∃ G, HeapRuns (callRoi2 (o.cuda dev) v1 v2 w h) d (fun img d' => NewImage d d' img w h v1.img.cc G) ∧
      ∀ x y c, o.value (v1.get d.mem x y c) (v2.get d.mem x y c) (G x y c) := by
  obtain ⟨F, h1, h2⟩ := o.cuda_full (d := dev) (ready_new hd i1 i2 hc) s
  exact ⟨F, callRoi2_runs hd i1 i2 h1, h2⟩

/-- **C169.** `Image F( in1, startX1, startY1, in2, startX2, startY2, width, height )` on OpenCL devices, for every function of two images. -/
theorem C169_opencl_region2 (o : Op2) {total : Nat} (dev : OpenCl.Device total) {d : Heap} (hd : HeapOk d) {v1 v2 : View} {w h : Nat}
    (i1 : Input d v1 w h) (i2 : Input d v2 w h) (hc : v2.img.cc = v1.img.cc) :
    ∃ G, HeapRuns (callRoi2 (o.opencl total) v1 v2 w h) d (fun img d' => NewImage d d' img w h v1.img.cc G) ∧
      ∀ x y c, o.value (v1.get d.mem x y c) (v2.get d.mem x y c) (G x y c) := by
  obtain ⟨F, h1, h2⟩ := o.opencl_full (ready_new hd i1 i2 hc) dev
  exact ⟨F, callRoi2_runs hd i1 i2 h1, h2⟩

/-- **C169.** `Image F( in1, in2 )` for two images of the same size is the form with the rectangles of the images. -/
theorem C169_image_region2 {α : Type} (f : Call2 α) {d : Heap} {a b : Image} (i1 : InputImage d a) (i2 : InputImage d b)
    (hw : b.width = a.width) (hh : b.height = a.height) :
    callWhole2 f a b d = callRoi2 f (whole a) (whole b) a.width a.height d := by
  have i2' : Input d (whole b) a.width a.height := ⟨i2.wf, hw ▸ hh ▸ i2.fit⟩
  have hv : validateImages [a, b] d.mem = .ok () d.mem := bind_ok (validImages2 i1.fit i2.fit hw hh)
  rw [callWhole2, bind_ok (heapMem_keep hv), callRoi2,
    bind_ok (heapMem_keep (validateRois_ok _ (vs := [whole a, whole b]) (by simp; exact ⟨⟨i1.fit, i1.u32⟩, i2'.fit, i2'.u32⟩)))]
  rfl

/-- **C169.** `void F( in1, in2, out )` on CUDA and OpenCL devices. -/
theorem C169_into2_values (o : Op2) {dev : CudaDevice} {total : Nat} (cl : OpenCl.Device total) {m : BMem} {a b c : Image} (t : Three m a b c)
    (h1 : b.cc = a.cc) (h2 : c.cc = a.cc) (s : dev.Serves (c.width * c.cc) c.height) :
    (∃ F, Runs (callInto2 (o.cuda dev) a b c) m (fun m' => WritesRoi m m' (whole c) c.width c.height F) ∧
      ∀ x y k, o.value ((whole a).get m x y k) ((whole b).get m x y k) (F x y k)) ∧
    ∃ F, Runs (callInto2 (o.opencl total) a b c) m (fun m' => WritesRoi m m' (whole c) c.width c.height F) ∧
      ∀ x y k, o.value ((whole a).get m x y k) ((whole b).get m x y k) (F x y k) := by
  have r : Ready2 m (whole a) (whole b) (whole c) c.width c.height := ⟨t.wfa, t.wfb, t.wfc, t.fita, t.fitb, t.fitc, h1, h2, t.n1, t.n2⟩
  have fa : (whole a).Fits a.width a.height := by rw [t.wa.1, t.wa.2]; exact t.fita
  have fb : (whole b).Fits b.width b.height := by rw [t.wb.1, t.wb.2]; exact t.fitb
  have e : ∀ f : Call2 Launch, callInto2 f a b c m = f (whole a) (whole b) (whole c) c.width c.height m := fun f => by
    rw [C169_into2 f fa fb t.fitc (t.wb.1.trans t.wa.1.symm) (t.wb.2.trans t.wa.2.symm) t.wa.1.symm t.wa.2.symm, t.wa.1, t.wa.2]
  constructor
  · simp only [Runs, e]
    exact o.cuda_full r s
  · simp only [Runs, e]
    exact o.opencl_full r cl

/-- **C169.** Rectangles which do not fit and images of different colours, for functions of two images. -/
theorem C169_rejects2 (o : Op2) (dev : CudaDevice) (total : Nat) {d : Heap} (hd : HeapOk d) {v1 v2 : View} {w h : Nat} (u1 : v1.U32)
    (u2 : v2.U32) (hw : w < 2 ^ 32) (hh : h < 2 ^ 32) (wf : v1.img.WF d.mem)
    (hb : ¬ v1.Fits w h ∨ ¬ v2.Fits w h ∨ v2.img.cc ≠ v1.img.cc) :
    (∃ d', callRoi2 (o.cuda dev) v1 v2 w h d = .throw d' ∧ SameHeap d d') ∧
    ∃ d', callRoi2 (o.opencl total) v1 v2 w h d = .throw d' ∧ SameHeap d d' := by
  by_cases hf : v1.Fits w h ∧ v2.Fits w h
  · have hs := Input.small ⟨wf, hf.1⟩
    have bad : Bad [v1, v2, whole (made d w h v1.img.cc)] w h (SameColors2 v1 v2 (whole (made d w h v1.img.cc))) :=
      ⟨by simp [u1, u2, made_u32 hw hh], hw, hh, Or.inr fun e => (hb.resolve_left fun n => n hf.1).resolve_left (fun n => n hf.2) e.1⟩
    have key : ∀ f : Call2 Launch, (∀ m : BMem, f v1 v2 (whole (made d w h v1.img.cc)) w h m = .throw m) →
        ∃ d', callRoi2 f v1 v2 w h d = .throw d' ∧ SameHeap d d' := by
      intro f ht
      rw [callRoi2, bind_ok (heapMem_keep (validateRois_ok _ (vs := [v1, v2]) (by simp; exact ⟨⟨hf.1, u1.hw, u1.hh⟩, hf.2, u2.hw, u2.hh⟩))),
        bind_ok (generate_ok hf.1.wpos hf.1.hpos hs)]
      exact pending_throw hd (ht _)
    constructor
    · refine key _ fun m => ?_
      have := C108_rejects (d := dev) (m := m) bad
      cases o with
      | absoluteDifference => exact this.1
      | bitwiseAnd => exact this.2.1
      | bitwiseOr => exact this.2.2.1
      | bitwiseXor => exact this.2.2.2.1
      | maximum => exact this.2.2.2.2.1
      | minimum => exact this.2.2.2.2.2.1
      | subtract => exact this.2.2.2.2.2.2
    · refine key _ fun m => ?_
      have := (C112_rejects (total := total) (m := m)).1 bad
      cases o with
      | absoluteDifference => exact this.1
      | bitwiseAnd => exact this.2.1
      | bitwiseOr => exact this.2.2.1
      | bitwiseXor => exact this.2.2.2.1
      | maximum => exact this.2.2.2.2.1
      | minimum => exact this.2.2.2.2.2.1
      | subtract => exact this.2.2.2.2.2.2
  · have key : ∀ f : Call2 Launch, callRoi2 f v1 v2 w h d = .throw d := fun f => by
      rw [callRoi2, bind_throw (heapMem_throw (validateRois_throw _ (by simp [u1, u2]) hw hh ?_))]
      by_cases h1 : v1.Fits w h
      · exact ⟨v2, by simp, fun h2 => hf ⟨h1, h2⟩⟩
      · exact ⟨v1, by simp, h1⟩
    exact ⟨⟨d, key _, SameHeap.refl d⟩, d, key _, SameHeap.refl d⟩

/-! ### Examples -/

/-- A byte of the new image, when the threads run one after the other. -/
def newByteSeq (r : Res Heap (Image × Launch)) (i : Nat) : Option (Nat × UInt8) :=
  match r with
  | .ok (img, L) d => (after (L.seq d.mem) img.data i).map fun b => (img.data, b)
  | _ => none

/-- The same on OpenCL devices. -/
def newByteSeq' (r : Res Heap (Image × Option Launch)) (i : Nat) : Option (Nat × UInt8) :=
  match r with
  | .ok (img, some L) d => (after (L.seq d.mem) img.data i).map fun b => (img.data, b)
  | _ => none

example : HeapOk exHeap ∧ InputImage exHeap (padded 2) ∧ small.Serves (2 * 1) 2 ∧ OpenCl.Device 256 :=
  ⟨exHeap_ok, exInput, small_serves (by decide) (by decide), by decide, by decide⟩
example : newByteSeq ((GpuOp1.invert.cuda small).newWhole (padded 2) exHeap) 3 = some (8, 210) := by decide +kernel
example : newByteSeq ((GpuOp1.copy.cuda small).newRoi ⟨padded 2, 1, 0⟩ 1 2 exHeap) 1 = some (8, 45) := by decide +kernel
example : newByteSeq ((GpuOp1.flip true false |>.cuda small).newWhole (padded 2) exHeap) 0 = some (8, 21) := by decide +kernel
example : newByteSeq' ((GpuOp1.threshold 30 |>.opencl 2).newWhole (padded 2) exHeap) 2 = some (8, 255) := by decide +kernel
example : (GpuOp1.threshold 30).fineImage (padded 2) := trivial
example : newByteSeq (callRoi2 (Op2.absoluteDifference.cuda small) ⟨padded 2, 0, 0⟩ ⟨tight 1, 0, 0⟩ 2 2 exHeap) 3 = some (8, 26) := by
  decide +kernel
example : newByteSeq (callWhole2 (Op2.absoluteDifference.opencl 2) (padded 2) (tight 1) exHeap) 3 = some (8, 26) := by decide +kernel
example : (GpuOp1.lookup []).refused 1 := Or.inl (by decide)

end PV.Props
