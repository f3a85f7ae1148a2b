import Verif.GpuTransfer
import Verif.PropsForms
import Verif.PropsValidation
/-
  Property C114: images go to a device and come back unchanged.
-/
namespace PV.Props

open Forms Transfer

/-! ### What is asked of the images -/

/-- Two existing images of the same size and colours, each in its own memory. -/
structure Passes (m : BMem) (inp out : Image) : Prop where
  wfi : inp.WF m
  wfo : out.WF m
  fiti : (whole inp).Fits inp.width inp.height
  data : out.data ≠ 0
  width : out.width = inp.width
  height : out.height = inp.height
  colors : out.cc = inp.cc
  other : out.data ≠ inp.data

/-- The rows of the image follow each other without padding. -/
def NoPadding (img : Image) : Prop := img.rowSize = img.width * img.cc

theorem Passes.fito {m : BMem} {inp out : Image} (p : Passes m inp out) : (whole out).Fits inp.width inp.height := by
  have f := p.fiti
  refine ⟨p.data, ?_, f.wpos, f.hpos, ?_, ?_⟩
  · show out.cc = 1 ∨ out.cc = 3 ∨ out.cc = 4
    rw [p.colors]
    exact f.colors
  · show 0 + inp.width ≤ out.width
    rw [p.width]
    omega
  · show 0 + inp.height ≤ out.height
    rw [p.height]
    omega

/-! ### Lemmas -/

theorem rowSize_pos_small {m : BMem} {img : Image} (wf : img.WF m) (fit : (whole img).Fits img.width img.height) :
    img.rowSize < 4294967296 ∧ img.width * img.cc < 4294967296 ∧ img.rowSize * img.height < 4294967296 := by
  have h1 : img.rowSize * 1 ≤ img.rowSize * img.height := Nat.mul_le_mul_left _ fit.hpos
  have h2 := wf.small
  have h3 := wf.row
  omega

theorem rowsTight_iff {m : BMem} {img : Image} (wf : img.WF m) (fit : (whole img).Fits img.width img.height) :
    rowsTight img = true ↔ NoPadding img := by
  obtain ⟨_, h2, _⟩ := rowSize_pos_small wf fit
  rw [rowsTight, u32_of_lt h2, beq_iff_eq, NoPadding]

theorem Passes.whole_out {m : BMem} {inp out : Image} (p : Passes m inp out) : (whole out).Fits out.width out.height := by
  have := p.fito
  rw [← p.width, ← p.height] at this
  exact this

theorem Passes.same {m : BMem} {inp out : Image} (p : Passes m inp out) : differ inp out = false := by
  rw [differ, p.width, p.height, p.colors]
  simp

theorem Passes.checks {m : BMem} {inp out : Image} (p : Passes m inp out) {α : Type} (f : M BMem α) :
    (do validateImage inp; validateImage out; throwIf (differ inp out); f) m = f m := by
  rw [bind_ok (validImage_ok (img := inp) p.fiti.colors p.fiti.nonempty _),
    bind_ok (validImage_ok (img := out) p.fito.colors p.fito.nonempty _), p.same,
    throwIf_false, pure_bind']

theorem Passes.checks2 {m : BMem} {inp out : Image} (p : Passes m inp out) {α : Type} (f : M BMem α) :
    (do validateImages2 inp out; throwIf (differ inp out); f) m = f m := by
  have e : (inp.empty || out.empty || !isCorrectColorCount inp || !isCorrectColorCount out || inp.width != out.width
      || inp.height != out.height) = false := by
    have h1 : inp.empty = false := by
      have : inp.data ≠ 0 := p.fiti.nonempty
      simpa [Image.empty] using this
    have h2 : out.empty = false := by simpa [Image.empty] using p.data
    have h3 : isCorrectColorCount inp = true := by
      rcases p.fiti.colors with h | h | h <;> (have h : inp.cc = _ := h) <;> simp [isCorrectColorCount, h]
    have h4 : isCorrectColorCount out = true := by
      rw [← h3, isCorrectColorCount, isCorrectColorCount, p.colors]
    rw [h1, h2, h3, h4, p.width, p.height]
    simp
  rw [validateImages2, e, throwIf_false, pure_bind', p.same, throwIf_false, pure_bind']

/-- Both copies of the CUDA functions give the pixels. -/
theorem Passes.flat {m : BMem} {inp out : Image} (p : Passes m inp out) (ti : NoPadding inp) (tt : NoPadding out) :
    ∃ m', memcpyC out.data 0 inp.data 0 (inp.rowSize * inp.height) m = .ok () m' ∧
      WritesRoi m m' (whole out) inp.width inp.height fun x y c => (whole inp).get m x y c :=
  flat_copied (inp := whole inp) (out := whole out) ⟨rfl, rfl⟩ ⟨rfl, rfl⟩ p.wfi p.wfo p.fiti p.fito p.colors p.other ti
    (by show out.rowSize = inp.width * inp.cc; rw [tt, p.width, p.colors])

theorem Passes.pitched {m : BMem} {inp out : Image} (p : Passes m inp out) :
    ∃ m', cudaMemcpy2D out.data out.rowSize inp.data inp.rowSize (u32 (inp.cc * inp.width)) inp.height m = .ok () m' ∧
      WritesRoi m m' (whole out) inp.width inp.height fun x y c => (whole inp).get m x y c := by
  obtain ⟨_, h2, _⟩ := rowSize_pos_small p.wfi p.fiti
  rw [Nat.mul_comm inp.cc, u32_of_lt h2]
  exact pitched_copied (inp := whole inp) (out := whole out) ⟨rfl, rfl⟩ ⟨rfl, rfl⟩ p.wfi p.wfo p.fiti p.fito p.colors p.other

/-! ### Transfers into an existing image -/

/-- **C114.** `ConvertToCuda( in, out )`: the pixels of the image arrive on the device, and nothing else is changed.  Partial: not when
    the image of the host has no padding and the image of the device has (`C114_to_cuda_wrong`). -/
theorem C114_to_cuda_partial {m : BMem} {inp out : Image} (p : Passes m inp out) (hp : NoPadding inp → NoPadding out) :
    ∃ m', ToCuda inp out m = .ok () m' ∧
      WritesRoi m m' (whole out) inp.width inp.height fun x y c => (whole inp).get m x y c := by
  rw [ToCuda, p.checks]
  by_cases ht : NoPadding inp
  · rw [if_pos ((rowsTight_iff p.wfi p.fiti).2 ht), u32_of_lt (rowSize_pos_small p.wfi p.fiti).2.2]
    exact p.flat ht (hp ht)
  · rw [if_neg fun h => ht ((rowsTight_iff p.wfi p.fiti).1 h)]
    exact p.pitched

/-- **C114.** `ConvertFromCuda( in, out )`: the pixels of the device arrive in the image of the host.  Partial: not when the image of the
    device has padding and the image of the host has none (`C114_from_cuda_wrong`). -/
theorem C114_from_cuda_partial {m : BMem} {inp out : Image} (p : Passes m inp out) (hp : NoPadding out → NoPadding inp) :
    ∃ m', FromCuda inp out m = .ok () m' ∧
      WritesRoi m m' (whole out) inp.width inp.height fun x y c => (whole inp).get m x y c := by
  rw [FromCuda, p.checks]
  by_cases ht : NoPadding out
  · rw [if_pos ((rowsTight_iff p.wfo p.whole_out).2 ht), u32_of_lt (rowSize_pos_small p.wfi p.fiti).2.2]
    exact p.flat (hp ht) ht
  · rw [if_neg fun h => ht ((rowsTight_iff p.wfo p.whole_out).1 h)]
    exact p.pitched

/-- **C114.** `ConvertToOpenCL( in, out )`, for images without padding.  Partial: a padded image of the host is refused
    (`C114_to_opencl_padded`), a padded image of the device gets the wrong pixels (`C114_to_opencl_wrong`). -/
theorem C114_to_opencl_partial {m : BMem} {inp out : Image} (p : Passes m inp out) (ti : NoPadding inp) (tt : NoPadding out) :
    ∃ m', ToOpenCL inp out m = .ok () m' ∧
      WritesRoi m m' (whole out) inp.width inp.height fun x y c => (whole inp).get m x y c := by
  obtain ⟨_, _, h3⟩ := rowSize_pos_small p.wfi p.fiti
  have h4 : inp.rowSize * inp.height ≤ m.size out.data := by
    have h := p.wfo.block
    rw [tt, p.height, p.width, p.colors] at h
    rw [ti]
    exact h
  rw [ToOpenCL, p.checks, if_pos ((rowsTight_iff p.wfi p.fiti).2 ti), size64_id (by omega), writeBuffer, if_neg (by omega)]
  exact p.flat ti tt

/-- **C114.** `ConvertFromOpenCL( in, out )`, for images without padding.  Partial as above. -/
theorem C114_from_opencl_partial {m : BMem} {inp out : Image} (p : Passes m inp out) (ti : NoPadding inp) (tt : NoPadding out) :
    ∃ m', FromOpenCL inp out m = .ok () m' ∧
      WritesRoi m m' (whole out) inp.width inp.height fun x y c => (whole inp).get m x y c := by
  obtain ⟨_, _, h3⟩ := rowSize_pos_small p.wfi p.fiti
  have h4 := p.wfi.block
  rw [FromOpenCL, p.checks2, if_pos ((rowsTight_iff p.wfo p.whole_out).2 tt), size64_id (by omega), readBuffer, if_neg (by omega)]
  exact p.flat ti tt

/-- **C114.** OpenCL and padded images of the host: an exception, and no byte has been changed. -/
theorem C114_to_opencl_padded {m : BMem} {inp out : Image} (p : Passes m inp out) (ti : ¬ NoPadding inp) :
    ToOpenCL inp out m = .throw m := by
  rw [ToOpenCL, p.checks, if_neg fun h => ti ((rowsTight_iff p.wfi p.fiti).1 h)]
  rfl

theorem C114_from_opencl_padded {m : BMem} {inp out : Image} (p : Passes m inp out) (tt : ¬ NoPadding out) :
    FromOpenCL inp out m = .throw m := by
  rw [FromOpenCL, p.checks2, if_neg fun h => tt ((rowsTight_iff p.wfo p.whole_out).1 h)]
  rfl

/-- **C114.** Empty images, unknown colour counts and images of different size or colours: an exception, and no byte has been changed. -/
theorem C114_rejects (m : BMem) {inp out : Image} (h : inp.data = 0 ∨ out.data = 0 ∨ ¬ (inp.cc = 1 ∨ inp.cc = 3 ∨ inp.cc = 4) ∨
      ¬ (out.cc = 1 ∨ out.cc = 3 ∨ out.cc = 4) ∨ inp.width ≠ out.width ∨ inp.height ≠ out.height ∨ inp.cc ≠ out.cc) :
    ToCuda inp out m = .throw m ∧ FromCuda inp out m = .throw m ∧ ToOpenCL inp out m = .throw m ∧ FromOpenCL inp out m = .throw m := by
  have key : ∀ f : M BMem Unit, (do validateImage inp; validateImage out; throwIf (differ inp out); f) m = .throw m := by
    intro f
    by_cases h1 : inp.data = 0 ∨ ¬ (inp.cc = 1 ∨ inp.cc = 3 ∨ inp.cc = 4)
    · refine bind_throw ?_
      rw [validateImage, invalidImage h1]
      rfl
    have a1 : validateImage inp m = .ok () m :=
      validImage_ok (by by_cases hc : inp.cc = 1 ∨ inp.cc = 3 ∨ inp.cc = 4; exact hc; exact absurd (Or.inr hc) h1) (fun e => h1 (Or.inl e)) _
    rw [bind_ok a1]
    by_cases h2 : out.data = 0 ∨ ¬ (out.cc = 1 ∨ out.cc = 3 ∨ out.cc = 4)
    · refine bind_throw ?_
      rw [validateImage, invalidImage h2]
      rfl
    have a2 : validateImage out m = .ok () m :=
      validImage_ok (by by_cases hc : out.cc = 1 ∨ out.cc = 3 ∨ out.cc = 4; exact hc; exact absurd (Or.inr hc) h2) (fun e => h2 (Or.inl e)) _
    rw [bind_ok a2]
    refine bind_throw ?_
    have h3 : inp.width ≠ out.width ∨ inp.height ≠ out.height ∨ inp.cc ≠ out.cc := by
      rcases h with h | h | h | h | h
      · exact absurd (Or.inl h) h1
      · exact absurd (Or.inl h) h2
      · exact absurd (Or.inr h) h1
      · exact absurd (Or.inr h) h2
      · exact h
    have : differ inp out = true := by
      simp only [differ, Bool.or_eq_true, bne_iff_ne, ne_eq]
      tauto
    rw [this]
    exact throwIf_true m
  refine ⟨key _, key _, key _, ?_⟩
  rw [FromOpenCL]
  by_cases hs : SameShape inp.width inp.height [inp, out]
  · rw [bind_ok ((images2_iff m inp out).1 hs)]
    refine bind_throw ?_
    have : differ inp out = true := by
      simp only [SameShape] at hs
      simp only [differ, Bool.or_eq_true, bne_iff_ne, ne_eq]
      simp at hs
      tauto
    rw [this]
    exact throwIf_true m
  · exact bind_throw ((images2_iff m inp out).2 hs)

/-! ### Transfers into a new image -/

/-- The new image is a partner for the image it is made for. -/
theorem passes_new {d : Heap} (hd : HeapOk d) {inp : Image} (i : InputImage d inp) :
    Passes (grown d inp.width inp.height inp.cc).mem inp (made d inp.width inp.height inp.cc) := by
  obtain ⟨h1, h2⟩ := old_image hd i.wf i.fit inp.width inp.height inp.cc
  exact ⟨h1, made_wf _ _ _ i.small, i.fit, (made_fits hd i.fit.wpos i.fit.hpos i.fit.colors).nonempty, rfl, rfl, rfl, Ne.symm h2⟩

theorem new_run {d : Heap} (hd : HeapOk d) {inp : Image} (i : InputImage d inp) {f : Image → Image → M BMem Unit}
    (hf : ∀ {m out}, Passes m inp out → NoPadding out → ∃ m', f inp out m = .ok () m' ∧
      WritesRoi m m' (whole out) inp.width inp.height fun x y c => (whole inp).get m x y c) :
    ∃ d' img, new f inp d = .ok img d' ∧ NewImage d d' img inp.width inp.height inp.cc fun x y c => (whole inp).get d.mem x y c := by
  obtain ⟨m', e1, e2⟩ := hf (passes_new hd i) rfl
  obtain ⟨d', e3, _, e4⟩ := filled_ok hd i.small e1 e2
  refine ⟨d', _, ?_, e4⟩
  rw [new, bind_ok (generate_ok (cc := inp.cc) i.fit.wpos i.fit.hpos i.small)]
  exact e3

/-- **C114.** `ConvertToCuda( in )`: a new image on the device with the pixels of the image, whatever its padding is. -/
theorem C114_to_cuda_new {d : Heap} (hd : HeapOk d) {inp : Image} (i : InputImage d inp) :
    ∃ d' img, new ToCuda inp d = .ok img d' ∧ NewImage d d' img inp.width inp.height inp.cc fun x y c => (whole inp).get d.mem x y c :=
  new_run hd i fun p ht => C114_to_cuda_partial p fun _ => ht

/-- **C114.** `ConvertFromCuda( in )`: a new image of the host with the pixels of the device.  Partial: the image of the device must have
    no padding (`C114_from_cuda_new_wrong`). -/
theorem C114_from_cuda_new_partial {d : Heap} (hd : HeapOk d) {inp : Image} (i : InputImage d inp) (ti : NoPadding inp) :
    ∃ d' img, new FromCuda inp d = .ok img d' ∧ NewImage d d' img inp.width inp.height inp.cc fun x y c => (whole inp).get d.mem x y c :=
  new_run hd i fun p _ => C114_from_cuda_partial p fun _ => ti

/-- **C114.** `ConvertToOpenCL( in )` and `ConvertFromOpenCL( in )`, for images without padding. -/
theorem C114_opencl_new_partial {d : Heap} (hd : HeapOk d) {inp : Image} (i : InputImage d inp) (ti : NoPadding inp) :
    (∃ d' img, new ToOpenCL inp d = .ok img d' ∧ NewImage d d' img inp.width inp.height inp.cc fun x y c => (whole inp).get d.mem x y c) ∧
    (∃ d' img, new FromOpenCL inp d = .ok img d' ∧ NewImage d d' img inp.width inp.height inp.cc fun x y c => (whole inp).get d.mem x y c) :=
  ⟨new_run hd i fun p tt => C114_to_opencl_partial p ti tt, new_run hd i fun p tt => C114_from_opencl_partial p ti tt⟩

/-- A new image is an existing image without padding. -/
theorem NewImage.input {d d' : Heap} {img : Image} {w h cc : Nat} {G : Nat → Nat → Nat → UInt8} (n : NewImage d d' img w h cc G) (hw : 0 < w)
    (hh : 0 < h) (hc : cc = 1 ∨ cc = 3 ∨ cc = 4) (hs : w * cc * h < 4294967296) : InputImage d' img ∧ NoPadding img := by
  refine ⟨⟨⟨?_, ?_, ?_⟩, n.data, ?_, ?_, ?_, ?_, ?_⟩, ?_⟩
  · show img.width * img.cc ≤ img.rowSize
    rw [n.row, n.width, n.colors]
  · show img.rowSize * img.height ≤ d'.mem.size img.data
    rw [n.size, n.row, n.height]
  · show img.rowSize * img.height < _
    rw [n.row, n.height]
    exact hs
  · show img.cc = 1 ∨ img.cc = 3 ∨ img.cc = 4
    rw [n.colors]
    exact hc
  · rw [n.width]; exact hw
  · rw [n.height]; exact hh
  · simp [whole]
  · simp [whole]
  · rw [NoPadding, n.row, n.width, n.colors]

/-- The pixels go there and back. -/
theorem there_and_back {d : Heap} {inp : Image} (i : InputImage d inp) {there back : Image → M Heap Image}
    (h1 : ∃ d' img, there inp d = .ok img d' ∧ NewImage d d' img inp.width inp.height inp.cc fun x y c => (whole inp).get d.mem x y c)
    (h2 : ∀ {d'} {img : Image}, HeapOk d' → InputImage d' img → NoPadding img →
      ∃ d'' img', back img d' = .ok img' d'' ∧ NewImage d' d'' img' img.width img.height img.cc fun x y c => (whole img).get d'.mem x y c) :
    ∃ d' d'' img img', there inp d = .ok img d' ∧ back img d' = .ok img' d'' ∧
      NewImage d' d'' img' inp.width inp.height inp.cc fun x y c => (whole inp).get d.mem x y c := by
  obtain ⟨d', img, e1, n⟩ := h1
  obtain ⟨i', t'⟩ := n.input i.fit.wpos i.fit.hpos i.fit.colors i.small
  obtain ⟨d'', img', e2, n'⟩ := h2 n.ok i' t'
  rw [n.width, n.height, n.colors] at n'
  refine ⟨d', d'', img, img', e1, e2, n'.width, n'.height, n'.colors, n'.row, n'.data, n'.before, n'.size, ?_, n'.others, n'.ok⟩
  intro x y c hx hy hc
  rw [n'.pixels x y c hx hy hc, n.pixels x y c hx hy hc]

/-- **C114.** To a CUDA device and back: an image with the same pixels, for every image. -/
theorem C114_cuda_round_trip {d : Heap} (hd : HeapOk d) {inp : Image} (i : InputImage d inp) :
    ∃ d' d'' img img', new ToCuda inp d = .ok img d' ∧ new FromCuda img d' = .ok img' d'' ∧
      NewImage d' d'' img' inp.width inp.height inp.cc fun x y c => (whole inp).get d.mem x y c :=
  there_and_back i (C114_to_cuda_new hd i) fun h i t => C114_from_cuda_new_partial h i t

/-- **C114.** To an OpenCL device and back.  Partial: images without padding. -/
theorem C114_opencl_round_trip_partial {d : Heap} (hd : HeapOk d) {inp : Image} (i : InputImage d inp) (ti : NoPadding inp) :
    ∃ d' d'' img img', new ToOpenCL inp d = .ok img d' ∧ new FromOpenCL img d' = .ok img' d'' ∧
      NewImage d' d'' img' inp.width inp.height inp.cc fun x y c => (whole inp).get d.mem x y c :=
  there_and_back i (C114_opencl_new_partial hd i ti).1 fun h i t => (C114_opencl_new_partial h i t).2

/-- **C114.** A padded image cannot be brought to an OpenCL device: an exception, and nothing is left behind. -/
theorem C114_to_opencl_new_padded {d : Heap} (hd : HeapOk d) {inp : Image} (i : InputImage d inp) (ti : ¬ NoPadding inp) :
    ∃ d', new ToOpenCL inp d = .throw d' ∧ SameHeap d d' := by
  obtain ⟨d', e1, e2⟩ := filled_throw hd (C114_to_opencl_padded (passes_new hd i) ti)
  refine ⟨d', ?_, e2⟩
  rw [new, bind_ok (generate_ok (cc := inp.cc) i.fit.wpos i.fit.hpos i.small)]
  exact e1

/-! ### Examples -/

theorem passes_ex {a b : Image} (ha : a = tight 1 ∨ a = padded 1) (hb : b = tight 2 ∨ b = padded 2) : Passes exMem a b := by
  rcases ha with rfl | rfl <;> rcases hb with rfl | rfl <;>
    exact ⟨⟨by decide, by decide, by decide⟩, ⟨by decide, by decide, by decide⟩,
      ⟨by decide, Or.inl rfl, by decide, by decide, by decide, by decide⟩, by decide, rfl, rfl, rfl, by decide⟩

example : after (ToCuda (padded 1) (tight 2) exMem) 2 3 = some 35 := by decide +kernel
example : after (ToCuda (padded 1) (padded 2) exMem) 2 5 = some 35 := by decide +kernel
example : after (FromCuda (tight 1) (padded 2) exMem) 2 4 = some 14 := by decide +kernel
example : after (ToOpenCL (tight 1) (tight 2) exMem) 2 3 = some 19 := by decide +kernel
example : InputImage exHeap (padded 2) ∧ ¬ NoPadding (padded 2) ∧ NoPadding (tight 1) :=
  ⟨exInput, by show ¬ (4 = 2 * 1); decide, rfl⟩

/-- The pixel in the second row of an image without padding is not the one a padded image on the device shows there. -/
theorem C114_to_cuda_wrong : Passes exMem (tight 1) (padded 2) ∧
    ∃ m', ToCuda (tight 1) (padded 2) exMem = .ok () m' ∧ (whole (padded 2)).get m' 0 1 0 ≠ (whole (tight 1)).get exMem 0 1 0 :=
  ⟨passes_ex (Or.inl rfl) (Or.inr rfl), _, rfl, by decide +kernel⟩

/-- The same with OpenCL. -/
theorem C114_to_opencl_wrong : Passes exMem (tight 1) (padded 2) ∧
    ∃ m', ToOpenCL (tight 1) (padded 2) exMem = .ok () m' ∧ (whole (padded 2)).get m' 0 1 0 ≠ (whole (tight 1)).get exMem 0 1 0 :=
  ⟨passes_ex (Or.inl rfl) (Or.inr rfl), _, rfl, by decide +kernel⟩

/-- A padded image of the device and an image of the host without padding: wrong pixels, and bytes behind the image are
    overwritten. -/
theorem C114_from_cuda_wrong : Passes exMem (padded 1) (tight 2) ∧
    ∃ m', FromCuda (padded 1) (tight 2) exMem = .ok () m' ∧ (whole (tight 2)).get m' 0 1 0 ≠ (whole (padded 1)).get exMem 0 1 0 ∧
      (tight 2).rowSize * (tight 2).height = 4 ∧ m'.byte 2 4 ≠ exMem.byte 2 4 :=
  ⟨passes_ex (Or.inr rfl) (Or.inl rfl), _, rfl, by decide +kernel, rfl, by decide +kernel⟩

/-- `ConvertFromCuda( in )` and `ConvertFromOpenCL( in )` of a padded image write behind the block of the new image. -/
theorem C114_from_cuda_new_wrong : InputImage exHeap (padded 2) ∧ isUb (new FromCuda (padded 2) exHeap) = true ∧
    isUb (new FromOpenCL (padded 2) exHeap) = true :=
  ⟨exInput, by decide +kernel, by decide +kernel⟩

end PV.Props
