import Verif.PropsApiForms
/-
  C172: the functions of the namespace `penguinV` for images of the host.
-/
namespace PV.Props
open PV PV.Forms PV.Library PV.TypeManager PV.Simd PV.Api

/-! ### Which function is called -/

theorem host_of {μ α : Type} {p : Program} {s : Slot} {m : Module} (hs : member s ≠ none) (h : Chosen p.files 0 s m) (base simd : M μ α) :
    host p s base simd = if m = .base then base else simd := by
  rw [host, C160_host p.files p.conversion s m hs h]
  show (if address m s = address .base s then base else if address m s = address .simd s then simd else ubE) = _
  have hm : m = .base ∨ m = .simd := by
    have := h.2.1
    cases m <;> simp [imageType] at this ⊢
  rcases hm with rfl | rfl
  · rw [if_pos rfl, if_pos rfl]
  · rw [if_neg fun e => by simpa using (address_inj _ _ _ _ e).1, if_pos rfl, if_neg (by decide)]

/-- The program has a function `s` for images of the host. -/
def HasHost (p : Program) (s : Slot) : Prop := Module.base ∈ p.files ∨ (Module.simd ∈ p.files ∧ provides .simd s = true)

/-- A call comes to the scalar or to the SIMD function. -/
theorem host_cases {p : Program} {s : Slot} (hs : member s ≠ none) (h : HasHost p s) :
    (∀ {μ α : Type} (base simd : M μ α), host p s base simd = base) ∨
    (provides .simd s = true ∧ Module.simd ∈ p.files ∧ ∀ {μ α : Type} (base simd : M μ α), host p s base simd = simd) := by
  by_cases hv : Module.simd ∈ p.files ∧ provides .simd s = true
  · refine Or.inr ⟨hv.2, hv.1, fun base simd => ?_⟩
    rw [host_of hs (m := .simd) ⟨hv.1, rfl, hv.2, nofun⟩, if_neg (by decide)]
  · refine Or.inl fun base simd => ?_
    rw [host_of hs (m := .base) ⟨h.resolve_right hv, rfl, rfl, fun _ => hv⟩, if_pos rfl]

/-- The functions the SIMD file does not have are the scalar ones. -/
theorem host_base {p : Program} {s : Slot} (hs : member s ≠ none) (hb : Module.base ∈ p.files) (hn : provides .simd s = false)
    {μ α : Type} (base simd : M μ α) : host p s base simd = base := by
  rcases host_cases hs (Or.inl hb) with h | h
  · exact h base simd
  · exact absurd (hn.symm.trans h.1) (by decide)

/-! ### C172 : functions of one image -/

/-- The functions of `penguinV` of one image whose pixels are given by a formula -/
inductive ApiOp1
  | toGray | toRgb | extract (ch : Nat) | flip (hor ver : Bool) | invert | lookup (table : List UInt8) | bgr
  | threshold (t : UInt8) | threshold2 (lo hi : UInt8)

/-- What they compute -/
def ApiOp1.op : ApiOp1 → Op1
  | .toGray => .toGray
  | .toRgb => .toRgb
  | .extract ch => .extract ch
  | .flip hor ver => .flip hor ver
  | .invert => .invert
  | .lookup table => .lookup table
  | .bgr => .bgr
  | .threshold t => .threshold t
  | .threshold2 lo hi => .threshold2 lo hi

/-- The function called -/
def ApiOp1.fn (p : Program) : ApiOp1 → Fn1
  | .toGray => Api.convertToGrayScale p
  | .toRgb => Api.convertToRgb p
  | .extract ch => Api.extractChannel p ch
  | .flip hor ver => Api.flip p hor ver
  | .invert => Api.invert p
  | .lookup table => Api.lookupTable p table
  | .bgr => Api.rgbToBgr p
  | .threshold t => Api.threshold p t
  | .threshold2 lo hi => Api.threshold2 p lo hi

/-- Its SIMD form -/
def ApiOp1.simd : ApiOp1 → Option SimdOp1
  | .toRgb => some .toRgb
  | .flip hor ver => some (.flip hor ver)
  | .invert => some .invert
  | .bgr => some .bgr
  | .threshold t => some (.threshold t)
  | .threshold2 lo hi => some (.threshold2 lo hi)
  | _ => none

/-- The programs and functions of the claim: there is a function for images of the host; where the SIMD form is used, the build has SSSE3 if
    the function moves pixels. -/
structure HostUsable (p : Program) (o : ApiOp1) : Prop where
  built : ∃ q, buildOf q = some p.setup.build
  has : Module.base ∈ p.files ∨ (Module.simd ∈ p.files ∧ o.simd ≠ none)
  moves : Module.simd ∈ p.files → ∀ v, o.simd = some v → v.moves → WithSsse3 p.setup

/-- The form with two rectangles is the scalar function, or the SIMD function. -/
theorem ApiOp1.which (o : ApiOp1) {p : Program} (hh : Module.base ∈ p.files ∨ (Module.simd ∈ p.files ∧ o.simd ≠ none)) :
    (o.fn p).full = o.op.fn.full ∨ ∃ v, o.simd = some v ∧ Module.simd ∈ p.files ∧ v.op = o.op ∧ (o.fn p).full = (v.fn p.setup).full := by
  have only : ∀ {s : Slot} {base : View → View → Nat → Nat → M BMem Unit}, member s ≠ none → o.simd = none → provides .simd s = false →
      (fun v o w h => host p s (base v o w h) ubE) = base := fun hs hn hp =>
    funext fun _ => funext fun _ => funext fun _ => funext fun _ => host_base hs (hh.resolve_right fun h => h.2 hn) hp _ _
  have both : ∀ {s : Slot} {base simd : View → View → Nat → Nat → M BMem Unit}, member s ≠ none → provides .simd s = true →
      (fun v o w h => host p s (base v o w h) (simd v o w h)) = base ∨
        (Module.simd ∈ p.files ∧ (fun v o w h => host p s (base v o w h) (simd v o w h)) = simd) := by
    intro s base simd hs hp
    rcases host_cases hs (p := p) (hh.imp_right fun h => ⟨h.1, hp⟩) with h | h
    · exact Or.inl (funext fun _ => funext fun _ => funext fun _ => funext fun _ => h _ _)
    · exact Or.inr ⟨h.2.1, funext fun _ => funext fun _ => funext fun _ => funext fun _ => h.2.2 _ _⟩
  cases o with
  | toGray => exact Or.inl (only (by decide) rfl (by decide))
  | extract ch => exact Or.inl (only (by decide) rfl (by decide))
  | lookup table => exact Or.inl (only (by decide) rfl (by decide))
  | toRgb => exact (both (s := .ConvertToRgb) (by decide) (by decide)).imp_right fun h => ⟨_, rfl, h.1, rfl, h.2⟩
  | flip hor ver => exact (both (s := .Flip) (by decide) (by decide)).imp_right fun h => ⟨.flip hor ver, rfl, h.1, rfl, h.2⟩
  | invert => exact (both (s := .Invert) (by decide) (by decide)).imp_right fun h => ⟨_, rfl, h.1, rfl, h.2⟩
  | bgr => exact (both (s := .RgbToBgr) (by decide) (by decide)).imp_right fun h => ⟨_, rfl, h.1, rfl, h.2⟩
  | threshold t => exact (both (s := .Threshold) (by decide) (by decide)).imp_right fun h => ⟨.threshold t, rfl, h.1, rfl, h.2⟩
  | threshold2 lo hi =>
    exact (both (s := .Threshold2) (by decide) (by decide)).imp_right fun h => ⟨.threshold2 lo hi, rfl, h.1, rfl, h.2⟩

theorem ApiOp1.unchecked (o : ApiOp1) : o.op.unchecked := by cases o <;> trivial

theorem does_api1 {p : Program} {o : ApiOp1} (u : HostUsable p o) : Does1 (o.fn p) o.op := by
  obtain ⟨q, hq⟩ := u.built
  refine ⟨fun n => by cases o <;> rfl, fun img m => by cases o <;> rfl, fun a b m => by cases o <;> rfl, fun c hg => ?_⟩
  rcases o.which u.has with e | ⟨v, h1, h2, h3, e⟩
  · rw [e]
    exact (does_base1 o.op o.unchecked).full c hg
  · rw [e]
    rw [← h3] at hg ⊢
    exact (does_simd1 hq v (u.moves h2 v h1)).full c hg

/-- Limits in the right order -/
def ApiOp1.ordered : ApiOp1 → Prop
  | .threshold2 lo hi => lo ≤ hi
  | _ => True

theorem refuses_api1 {p : Program} {o : ApiOp1} (u : HostUsable p o) (hl : Module.simd ∈ p.files → o.ordered) : Refuses1 (o.fn p) o.op := by
  obtain ⟨q, hq⟩ := u.built
  refine ⟨fun c a1 a2 a3 a4 a5 a6 => ?_⟩
  rcases o.which u.has with e | ⟨v, h1, h2, h3, e⟩
  · rw [e]
    exact (refuses_base1 o.op o.unchecked).full c a1 a2 a3 a4 a5 a6
  · rw [e]
    rw [← h3] at a5 a6
    have ho : v.ordered := by
      have hl := hl h2
      cases o <;> cases h1 <;> first | trivial | exact hl
    exact (refuses_simd1 hq v ho).full c a1 a2 a3 a4 a5 a6

/-- **C172.** `F( in, startXIn, startYIn, out, startXOut, startYOut, width, height )` of `penguinV` with images of the host, whatever files the
    program is linked with, in whatever order they are registered, with or without SIMD instructions: the right pixels, nothing else is written.

    Partial: ConvertToRgb, Flip and RgbToBgr not with SIMD functions built with SSE and without SSSE3; overlapping rectangles; RGBA images in
    ConvertToGrayScale and ConvertToRgb. -/
theorem C172_full_partial {p : Program} (o : ApiOp1) (u : HostUsable p o) {m : BMem} {inp out : View} {w h : Nat} (c : Pair m inp w h out w h)
    (hg : o.op.good inp.img.cc out.img.cc) :
    ∃ m', (o.fn p).full inp out w h m = .ok () m' ∧ WritesRoi m m' out w h (o.op.pixel m inp w h) := (does_api1 u).full c hg

/-- **C172.** `Image F( in, startX, startY, width, height )`. Partial as above, and LookupTable only for gray-scale images. -/
theorem C172_region_partial {p : Program} (o : ApiOp1) (u : HostUsable p o) {d : Heap} (hd : HeapOk d) {v : View} {w h : Nat} (i : Input d v w h)
    (hg : o.op.good v.img.cc (o.op.colors v.img.cc)) (hs : w * o.op.colors v.img.cc * h < 2 ^ 32) :
    ∃ d' img, (o.fn p).newRoi v w h d = .ok img d' ∧ NewImage d d' img w h (o.op.colors v.img.cc) (o.op.pixel d.mem v w h) :=
  (does_api1 u).region hd i hg hs

/-- **C172.** `Image F( in )`. Partial as above. -/
theorem C172_image_partial {p : Program} (o : ApiOp1) (u : HostUsable p o) {d : Heap} (hd : HeapOk d) {img : Image} (i : InputImage d img)
    (hg : o.op.good img.cc (o.op.colors img.cc)) (hs : img.width * o.op.colors img.cc * img.height < 2 ^ 32) :
    ∃ d' new, (o.fn p).newWhole img d = .ok new d' ∧
      NewImage d d' new img.width img.height (o.op.colors img.cc) (o.op.pixel d.mem (whole img) img.width img.height) :=
  (does_api1 u).image hd i hg hs

/-- **C172.** `F( in, out )`. Partial as the form with rectangles. -/
theorem C172_whole_partial {p : Program} (o : ApiOp1) (u : HostUsable p o) {m : BMem} {a b : Image} (t : Two m a b) (hw : b.width = a.width)
    (hh : b.height = a.height) (hg : o.op.good a.cc b.cc) :
    ∃ m', (o.fn p).whole a b m = .ok () m' ∧ WritesRoi m m' (whole b) b.width b.height (o.op.pixel m (whole a) b.width b.height) :=
  (does_api1 u).whole t hw hh hg

/-- **C172.** Images and parameters which have to be refused: an exception, and nothing is left behind. Partial: with the SIMD file, limits of
    Threshold in the wrong order are accepted (`C172_threshold2_wrong`). -/
theorem C172_rejects_partial {p : Program} (o : ApiOp1) (u : HostUsable p o) (hl : Module.simd ∈ p.files → o.ordered) {d : Heap} (hd : HeapOk d)
    {v : View} {w h : Nat} (i : Input d v w h) (hr : o.op.refused v.img.cc) (hs : w * o.op.colors v.img.cc * h < 2 ^ 32) :
    ∃ d', (o.fn p).newRoi v w h d = .throw d' ∧ SameHeap d d' :=
  (refuses_api1 u hl).region (does_api1 u) hd i hr hs

/-! ### C172 : functions of two images -/

/-- The functions of `penguinV` of two images -/
def Op2.api (p : Program) : Op2 → Fn2
  | .absoluteDifference => Api.absoluteDifference p
  | .bitwiseAnd => Api.bitwiseAnd p
  | .bitwiseOr => Api.bitwiseOr p
  | .bitwiseXor => Api.bitwiseXor p
  | .maximum => Api.maximum p
  | .minimum => Api.minimum p
  | .subtract => Api.subtract p

/-- A program with functions of two images for the host -/
structure HostUsable2 (p : Program) : Prop where
  built : ∃ q, buildOf q = some p.setup.build
  has : Module.base ∈ p.files ∨ Module.simd ∈ p.files

theorem Op2.which (o : Op2) {p : Program} (hh : Module.base ∈ p.files ∨ Module.simd ∈ p.files) :
    o.api p = o.fn ∨ o.api p = o.simd p.setup := by
  have both : ∀ {s : Slot} {base simd : Fn2}, member s ≠ none → provides .simd s = true →
      (fun a b o w h => host p s (base a b o w h) (simd a b o w h)) = base ∨
        (fun a b o w h => host p s (base a b o w h) (simd a b o w h)) = simd := by
    intro s base simd hs hp
    rcases host_cases hs (p := p) (hh.imp_right fun h => ⟨h, hp⟩) with h | h
    · exact Or.inl (funext fun _ => funext fun _ => funext fun _ => funext fun _ => funext fun _ => h _ _)
    · exact Or.inr (funext fun _ => funext fun _ => funext fun _ => funext fun _ => funext fun _ => h.2.2 _ _)
  cases o with
  | absoluteDifference => exact both (s := .AbsoluteDifference) (by decide) (by decide)
  | bitwiseAnd => exact both (s := .BitwiseAnd) (by decide) (by decide)
  | bitwiseOr => exact both (s := .BitwiseOr) (by decide) (by decide)
  | bitwiseXor => exact both (s := .BitwiseXor) (by decide) (by decide)
  | maximum => exact both (s := .Maximum) (by decide) (by decide)
  | minimum => exact both (s := .Minimum) (by decide) (by decide)
  | subtract => exact both (s := .Subtract) (by decide) (by decide)

theorem does_api2 {p : Program} (u : HostUsable2 p) (o : Op2) : Does2 (o.api p) o := by
  obtain ⟨q, hq⟩ := u.built
  rcases o.which u.has with e | e
  · rw [e]; exact does_base2 o
  · rw [e]; exact does_simd2 hq o

/-- **C172.** The form of a function of two images with three rectangles. Partial: Subtract as in C12. -/
theorem C172_full2_partial {p : Program} (u : HostUsable2 p) (o : Op2) {m : BMem} {in1 in2 out : View} {w h : Nat}
    (r : Ready2 m in1 in2 out w h) (hf : o.fine in1 in2 w h) :
    ∃ (m' : BMem) (F : Nat → Nat → Nat → UInt8), o.api p in1 in2 out w h m = .ok () m' ∧ WritesRoi m m' out w h F ∧
      ∀ x y c, o.value (in1.get m x y c) (in2.get m x y c) (F x y c) := (does_api2 u o).full r hf

/-- **C172.** `Image F( in1, startX1, startY1, in2, startX2, startY2, width, height )`. Partial as above. -/
theorem C172_region2_partial {p : Program} (u : HostUsable2 p) (o : Op2) {d : Heap} (hd : HeapOk d) {v1 v2 : View} {w h : Nat}
    (i1 : Input d v1 w h) (i2 : Input d v2 w h) (hc : v2.img.cc = v1.img.cc) (hf : o.fine v1 v2 w h) :
    ∃ d' img G, newRoi2 (o.api p) v1 v2 w h d = .ok img d' ∧ NewImage d d' img w h v1.img.cc G ∧
      ∀ x y c, o.value (v1.get d.mem x y c) (v2.get d.mem x y c) (G x y c) := (does_api2 u o).region hd i1 i2 hc hf

/-- **C172.** `Image F( in1, in2 )`. Partial as above. -/
theorem C172_image2_partial {p : Program} (u : HostUsable2 p) (o : Op2) {d : Heap} (hd : HeapOk d) {a b : Image} (i1 : InputImage d a)
    (i2 : InputImage d b) (hw : b.width = a.width) (hh : b.height = a.height) (hc : b.cc = a.cc)
    (hf : o.fine (whole a) (whole b) a.width a.height) :
    ∃ d' img G, newWhole2 (o.api p) a b d = .ok img d' ∧ NewImage d d' img a.width a.height a.cc G ∧
      ∀ x y c, o.value ((whole a).get d.mem x y c) ((whole b).get d.mem x y c) (G x y c) := (does_api2 u o).image hd i1 i2 hw hh hc hf

/-- **C172.** `F( in1, in2, out )`. Partial as above. -/
theorem C172_whole2_partial {p : Program} (u : HostUsable2 p) (o : Op2) {m : BMem} {a b c : Image} (t : Three m a b c) (h1 : b.cc = a.cc)
    (h2 : c.cc = a.cc) (hf : o.fine (whole a) (whole b) c.width c.height) :
    ∃ (m' : BMem) (F : Nat → Nat → Nat → UInt8), whole2 (o.api p) a b c m = .ok () m' ∧ WritesRoi m m' (whole c) c.width c.height F ∧
      ∀ x y k, o.value ((whole a).get m x y k) ((whole b).get m x y k) (F x y k) := (does_api2 u o).whole t h1 h2 hf

/-- **C172.** Images of different colours, or rectangles which do not fit: an exception, and nothing is left behind. -/
theorem C172_rejects2 {p : Program} (u : HostUsable2 p) (o : Op2) {d : Heap} (hd : HeapOk d) {v1 v2 : View} {w h : Nat} (u1 : v1.U32)
    (u2 : v2.U32) (hw : w < 2 ^ 32) (hh : h < 2 ^ 32) (wf : v1.img.WF d.mem)
    (hb : ¬ v1.Fits w h ∨ ¬ v2.Fits w h ∨ v2.img.cc ≠ v1.img.cc) :
    ∃ d', newRoi2 (o.api p) v1 v2 w h d = .throw d' ∧ SameHeap d d' := (does_api2 u o).rejects hd u1 u2 hw hh wf hb

/-! ### C172 : copying an image -/

theorem copy_eq {p : Program} (hb : Module.base ∈ p.files) : Api.copy p = Forms.copy := by
  have : (Api.copy p).full = CopyRoi := funext fun _ => funext fun _ => funext fun _ => funext fun _ =>
    host_base (by decide) hb (by decide) _ _
  show Fn1.mk _ _ _ _ = Fn1.mk _ _ _ _
  rw [show (fun v o w h => host p .Copy (CopyRoi v o w h) ubE) = CopyRoi from this]

/-- **C172.** `Copy( in, out )`: whatever `out` was - empty, of another size, the same image - it becomes an image of the size of `in` with its own
    block and the pixels `in` had; the old block of `out` is gone and no other block has changed. -/
theorem C172_copy {p : Program} (hb : Module.base ∈ p.files) {d : Heap} (hd : HeapOk d) {inp : Image} (out : Image) (i : InputImage d inp)
    (ho : out.data < d.next) :
    ∃ d' new, Api.copyWhole p inp out d = .ok new d' ∧ new.width = inp.width ∧ new.height = inp.height ∧ new.cc = inp.cc ∧
      new.data ≠ out.data ∧ d.mem.size new.data = 0 ∧ new.WF d'.mem ∧
      (∀ x y c, x < inp.width → y < inp.height → c < inp.cc → (whole new).get d'.mem x y c = (whole inp).get d.mem x y c) ∧
      (out.data ≠ 0 → d'.mem.size out.data = 0) ∧
      ∀ b, b ≠ new.data → b ≠ out.data → d'.mem.size b = d.mem.size b ∧ ∀ k, d'.mem.byte b k = d.mem.byte b k := by
  obtain ⟨d1, new, e1, n⟩ := C101_copy hd i
  have hi := i.fit.wpos
  have hfresh : new.data ≠ out.data := by
    intro e
    have h1 : newByte (Forms.copy.newRoi (whole inp) inp.width inp.height d) 0 = some (new.data, d1.mem.byte new.data 0) := by rw [e1]; rfl
    have p := i.pair hd i.fit.wpos i.fit.hpos i.fit.colors i.small
    obtain ⟨m', f1, f2⟩ := C16_copy p.wfi p.wfo p.fiti p.fito rfl p.apart
    obtain ⟨d2, img, g1, _, g3, _⟩ := newRoi_run (f := Forms.copy) hd i i.small rfl f1 f2
    rw [g1] at e1
    injection e1 with a1 a2
    rw [← a1, g3] at e
    simp only [made] at e
    omega
  refine ⟨if out.data = 0 then d1 else d1.release out, new, ?_, n.width, n.height, n.colors, hfresh, n.before, ?_, ?_, ?_, ?_⟩
  · have e1 : Forms.copy.newRoi ⟨inp, 0, 0⟩ inp.width inp.height d = .ok new d1 := e1
    rw [Api.copyWhole, copy_eq hb, bind_ok e1]
    rfl
  · have hsz : (if out.data = 0 then d1 else d1.release out).mem.size new.data = inp.width * inp.cc * inp.height := by
      split
      · exact n.size
      · show (if new.data = out.data then 0 else d1.mem.size new.data) = _
        rw [if_neg hfresh]; exact n.size
    refine ⟨?_, ?_, ?_⟩
    · rw [n.row, n.width, n.colors]
    · rw [hsz, n.row, n.height]; exact Nat.le_refl _
    · rw [n.row, n.height]; exact i.small
  · intro x y c hx hy hc
    rw [← n.pixels x y c hx hy hc]
    split <;> rfl
  · intro h0
    rw [if_neg h0]
    show (if out.data = out.data then 0 else _) = 0
    rw [if_pos rfl]
  · intro b h1 h2
    obtain ⟨g1, g2⟩ := n.others b h1
    refine ⟨?_, fun k => ?_⟩
    · split
      · exact g1
      · show (if b = out.data then 0 else d1.mem.size b) = _
        rw [if_neg h2]; exact g1
    · rw [← g2 k]
      split <;> rfl

/-! ### C172 : the other functions -/

/-- **C172.** The functions without a SIMD form are those of `Image_Function`, with all their forms: every theorem about these holds for them. -/
theorem C172_same {p : Program} (hb : Module.base ∈ p.files) :
    (∀ rnd pow a gamma, Api.gammaCorrection p rnd pow a gamma = Forms.gammaCorrection rnd pow a gamma) ∧
    (∀ rnd oob, Api.normalize p rnd oob = Forms.normalize rnd oob) ∧
    Api.copy p = Forms.copy ∧ Api.fill p = Fill ∧ Api.getPixel p = GetPixel ∧ Api.setPixel p = SetPixel ∧ Api.setPixels p = SetPixels ∧
    Api.histogram p = Histogram ∧ Api.histogramNew p = FormsMore.histogramNew ∧ Api.histogramWhole p = FormsMore.histogramWhole ∧
    Api.histogramNewRoi p = FormsMore.histogramNewRoi ∧ Api.isEqual p = IsEqual ∧ Api.isEqualWhole p = FormsMore.isEqualWhole ∧
    Api.merge p = Merge ∧ Api.mergeNew p = newMerge ∧ Api.mergeWhole p = FormsMore.mergeWhole ∧ Api.mergeNewRoi p = newMergeRoi ∧
    Api.split p = Split ∧ Api.splitWhole p = FormsMore.splitWhole ∧
    Api.resize p = Resize ∧ Api.resizeNew p = newResize ∧ Api.resizeWhole p = FormsMore.resizeWhole ∧ Api.resizeNewRoi p = newResizeRoi ∧
    Api.transpose p = Transpose ∧ Api.transposeNew p = newTranspose ∧ Api.transposeWhole p = FormsMore.transposeWhole ∧
    Api.transposeNewRoi p = newTransposeRoi := by
  have key : ∀ {s : Slot} {μ α : Type} (base simd : M μ α), member s ≠ none → provides .simd s = false → host p s base simd = base :=
    fun base simd hs hn => host_base hs hb hn base simd
  have hH : Api.histogram p = Histogram := funext fun _ => funext fun _ => funext fun _ => key _ _ (by decide) (by decide)
  have hE : Api.isEqual p = IsEqual := funext fun _ => funext fun _ => funext fun _ => funext fun _ => key _ _ (by decide) (by decide)
  have hM : Api.merge p = Merge := funext fun _ => funext fun _ => funext fun _ => funext fun _ => funext fun _ => funext fun _ =>
    key _ _ (by decide) (by decide)
  have hS : Api.split p = Split := funext fun _ => funext fun _ => funext fun _ => funext fun _ => funext fun _ => funext fun _ =>
    key _ _ (by decide) (by decide)
  have hR : Api.resize p = Resize := funext fun _ => funext fun _ => funext fun _ => funext fun _ => funext fun _ => funext fun _ =>
    key _ _ (by decide) (by decide)
  have hT : Api.transpose p = Transpose := funext fun _ => funext fun _ => funext fun _ => funext fun _ => key _ _ (by decide) (by decide)
  refine ⟨fun rnd pow a gamma => ?_, fun rnd oob => ?_, copy_eq hb, ?_, ?_, ?_, ?_, hH, ?_, ?_, ?_, hE, ?_, hM, ?_, ?_, ?_, hS, ?_, hR, ?_, ?_, ?_,
    hT, ?_, ?_, ?_⟩
  · have : (fun v o w h => host p .GammaCorrection (GammaCorrection rnd pow v o w h a gamma) ubE) =
        fun v o w h => GammaCorrection rnd pow v o w h a gamma :=
      funext fun _ => funext fun _ => funext fun _ => funext fun _ => key _ _ (by decide) (by decide)
    show Fn1.mk _ _ _ _ = Fn1.mk _ _ _ _
    rw [this]
  · have : (fun v o w h => host p .Normalize (Normalize rnd oob v o w h) ubE) = Normalize rnd oob :=
      funext fun _ => funext fun _ => funext fun _ => funext fun _ => key _ _ (by decide) (by decide)
    show Fn1.mk _ _ _ _ = Fn1.mk _ _ _ _
    rw [this]
  · exact funext fun _ => funext fun _ => funext fun _ => funext fun _ => key _ _ (by decide) (by decide)
  · exact funext fun _ => funext fun _ => funext fun _ => key _ _ (by decide) (by decide)
  · exact funext fun _ => funext fun _ => funext fun _ => funext fun _ => key _ _ (by decide) (by decide)
  · exact funext fun _ => funext fun _ => funext fun _ => funext fun _ => key _ _ (by decide) (by decide)
  · funext img; rw [Api.histogramNew, hH]; rfl
  · funext img; rw [Api.histogramWhole, hH]; rfl
  · funext v w h; rw [Api.histogramNewRoi, hH]; rfl
  · funext a b; rw [Api.isEqualWhole, hE]; rfl
  · funext a b c; rw [Api.mergeNew, hM]; rfl
  · funext a b c d; rw [Api.mergeWhole, hM]; rfl
  · funext a b c w h; rw [Api.mergeNewRoi, hM]; rfl
  · funext a b c d; rw [Api.splitWhole, hS]; rfl
  · funext a w h; rw [Api.resizeNew, hR]; rfl
  · funext a b; rw [Api.resizeWhole, hR]; rfl
  · funext v a b c d; rw [Api.resizeNewRoi, hR]; rfl
  · funext a; rw [Api.transposeNew, hT]; rfl
  · funext a b; rw [Api.transposeWhole, hT]; rfl
  · funext v w h; rw [Api.transposeNewRoi, hT]; rfl

/-- **C172.** Sum of a rectangle and of a whole gray-scale image -/
theorem C172_sum {p : Program} (u : HostUsable2 p) :
    (∀ {m : BMem} {v : View} {w h : Nat}, One m v w h → v.img.cc = 1 →
      ∃ t, Api.sum p v w h m = .ok t m ∧ t.toNat = total m v w h % 2 ^ 32) ∧
    ∀ {m : BMem} {img : Image}, Whole m img → img.cc = 1 →
      ∃ t, Api.sumWhole p img m = .ok t m ∧ t.toNat = total m (whole img) img.width img.height % 2 ^ 32 := by
  obtain ⟨q, hq⟩ := u.built
  have long : ∀ {m : BMem} {v : View} {w h : Nat}, One m v w h → v.img.cc = 1 →
      ∃ t, Api.sum p v w h m = .ok t m ∧ t.toNat = total m v w h % 2 ^ 32 := by
    intro m v w h o cc
    rw [Api.sum]
    rcases host_cases (s := .Sum) (by decide) (u.has.imp_right fun h => ⟨h, by decide⟩) with e | e
    · rw [e]; exact C25_sum o cc
    · rw [e.2.2]
      obtain ⟨t, h1, _, h2⟩ := C148_sum hq o cc
      exact ⟨t, h1, h2⟩
  exact ⟨long, fun i cc => long i.one cc⟩

/-- **C172.** ProjectionProfile. Partial: with the SIMD file, horizontal profiles of rectangles as wide as a register are right with SSE only. -/
theorem C172_profile_partial {p : Program} (u : HostUsable2 p) (horizontal : Bool) (vec : List UInt32) {m : BMem} {v : View} {w h : Nat}
    (o : One m v w h) (hk : Module.simd ∈ p.files → ProfileFine p.setup (w * v.img.cc) horizontal) :
    (∃ prof, Api.profile p v w h horizontal (m, vec) = .ok () (m, prof) ∧ Profile m v w h horizontal prof) ∧
    ∃ prof, Api.profileNewRoi p v w h horizontal m = .ok prof m ∧ Profile m v w h horizontal prof := by
  obtain ⟨q, hq⟩ := u.built
  have long : ∀ vec, ∃ prof, Api.profile p v w h horizontal (m, vec) = .ok () (m, prof) ∧ Profile m v w h horizontal prof := by
    intro vec
    rw [Api.profile]
    rcases host_cases (s := .ProjectionProfile) (by decide) (u.has.imp_right fun h => ⟨h, by decide⟩) with e | e
    · rw [e]; exact profile_any o horizontal vec
    · rw [e.2.2]; exact simdProfile_any hq o horizontal (hk e.2.1) vec
  refine ⟨long vec, ?_⟩
  obtain ⟨prof, h1, h2⟩ := long []
  exact ⟨prof, by rw [Api.profileNewRoi, withVec, h1], h2⟩

/-- The forms for whole images are the forms with the rectangle of the image. -/
theorem C172_profile_image (p : Program) (img : Image) (horizontal : Bool) :
    Api.profileWhole p img horizontal = Api.profile p (whole img) img.width img.height horizontal ∧
    Api.profileNew p img horizontal = Api.profileNewRoi p (whole img) img.width img.height horizontal := ⟨rfl, rfl⟩

/-- **C172.** Accumulate of a gray-scale rectangle and of a whole image. Partial: with the SIMD file, not with AVX and AVX-512; gray-scale images
    only, as C51. -/
theorem C172_accumulate_partial {p : Program} (u : HostUsable2 p) (hk : Module.simd ∈ p.files → p.setup.kind = .sse ∨ p.setup.kind = .neon ∨ p.setup.kind = .cpu)
    {m : BMem} (vec : List UInt32) :
    (∀ {v : View} {w h : Nat}, One m v w h → v.img.cc = 1 → vec.length = h * w →
      ∃ res, Api.accumulate p v w h (m, vec) = .ok () (m, res) ∧ res.length = vec.length ∧
        ∀ y x, y < h → x < w → res[y * w + x]? = vec[y * w + x]?.map fun a => a + UInt32.ofNat (v.get m x y 0).toNat) ∧
    ∀ {img : Image}, Whole m img → img.cc = 1 → vec.length = img.height * img.width →
      ∃ res, Api.accumulateWhole p img (m, vec) = .ok () (m, res) ∧ res.length = vec.length ∧
        ∀ y x, y < img.height → x < img.width →
          res[y * img.width + x]? = vec[y * img.width + x]?.map fun a => a + UInt32.ofNat ((whole img).get m x y 0).toNat := by
  obtain ⟨q, hq⟩ := u.built
  have long : ∀ {v : View} {w h : Nat}, One m v w h → v.img.cc = 1 → vec.length = h * w →
      ∃ res, Api.accumulate p v w h (m, vec) = .ok () (m, res) ∧ res.length = vec.length ∧
        ∀ y x, y < h → x < w → res[y * w + x]? = vec[y * w + x]?.map fun a => a + UInt32.ofNat (v.get m x y 0).toNat := by
    intro v w h o cc hlen
    rw [Api.accumulate]
    rcases host_cases (s := .Accumulate) (by decide) (u.has.imp_right fun h => ⟨h, by decide⟩) with e | e
    · rw [e]
      obtain ⟨res, _, h1, h2⟩ := C51_accumulate_partial .cpu o cc vec hlen (by simp)
      exact ⟨res, h1, h2⟩
    · rw [e.2.2]
      obtain ⟨res, h1, _, h2⟩ := C148_accumulate_partial hq o cc vec hlen (by have := hk e.2.1; tauto)
      exact ⟨res, h1, h2⟩
  refine ⟨long, fun {img} i cc hlen => ?_⟩
  obtain ⟨res, h1, h2⟩ := long i.one cc hlen
  refine ⟨res, ?_, h2⟩
  rw [Api.accumulateWhole, bind_ok (valid_one i.fit _)]
  exact h1

/-- **C172.** A program without a function for images of the host, and without conversions: every call with an image of the host throws, and the
    memory is as it was. -/
theorem C172_missing {p : Program} {s : Slot} (hs : member s ≠ none) (hc : p.conversion = false) (hb : Module.base ∉ p.files)
    (hv : Module.simd ∉ p.files) {μ α : Type} (base simd : M μ α) (m : μ) : host p s base simd m = .throw m := by
  have h : invoke (linked p.files p.conversion) s 0 = some .throws := by
    rw [hc]
    refine C160_rejects p.files s 0 hs fun k hk ht => ?_
    cases k with
    | base => exact absurd hk hb
    | simd => exact absurd hk hv
    | cuda => cases ht
    | opencl => cases ht
  rw [host, h]
  rfl

/-! ### Where the claim is false -/

/-- The SIMD function is used although the scalar function would do: a program linked with the SIMD file of a build with SSE and without SSSE3
    (gcc and clang for x86-64 without options) cannot mirror an image of 16 or more columns. -/
theorem C172_ssse3_wrong {p : Program} (hv : Module.simd ∈ p.files) (hk : p.setup.kind = .sse) (h3 : p.setup.build.ssse3 = false) {d : Heap}
    (hd : HeapOk d) {v : View} {w h : Nat} (i : Input d v w h) (hw : 16 ≤ w) (hc : v.img.cc = 1) (ver : Bool) :
    ∃ d', (Api.flip p true ver).newRoi v w h d = .throw d' ∧ SameHeap d d' := by
  have e : (Api.flip p true ver).full = (Api.simdFlip p.setup true ver).full := by
    refine funext fun _ => funext fun _ => funext fun _ => funext fun _ => ?_
    show host p .Flip _ _ = _
    rw [host_of (m := .simd) (by decide) ⟨hv, rfl, by decide, nofun⟩, if_neg (by decide)]
    rfl
  have q := i.pair hd i.fit.wpos i.fit.hpos (cc := 1) (by decide) i.small1
  refine newRoi_throw (f := Api.flip p true ver) hd i i.small1 rfl ?_
  rw [e]
  exact (C148_ssse3_refused hk h3 q).2.1 hw hc rfl ver

/-- A program with all files, the SIMD table registered first, on an ordinary machine -/
def everything (s : Setup) : Program := ⟨[.simd, .opencl, .base, .cuda], false, s⟩

/-- Limits in the wrong order are refused by a program without the SIMD file, and accepted with it. -/
theorem C172_threshold2_wrong :
    newByte ((Api.threshold2 ⟨[.base], false, onPlain⟩ 9 3).newRoi (wide 1) 17 2 simdHeap) 0 = none ∧
    newByte ((Api.threshold2 (everything onPlain) 9 3).newRoi (wide 1) 17 2 simdHeap) 0 = some (4, 0) := by
  have e1 : ∀ v o w h, (Api.threshold2 ⟨[.base], false, onPlain⟩ 9 3).full v o w h = Threshold2 v o w h 9 3 := fun v o w h => by
    show host ⟨[.base], false, onPlain⟩ .Threshold2 (Threshold2 v o w h 9 3) (Simd.Api.Threshold2 onPlain v o w h 9 3) = _
    rw [host_of (m := .base) (by decide) ⟨by decide, rfl, rfl, by decide⟩, if_pos rfl]
  have e2 : ∀ v o w h, (Api.threshold2 (everything onPlain) 9 3).full v o w h = Simd.Api.Threshold2 onPlain v o w h 9 3 := fun v o w h => by
    show host (everything onPlain) .Threshold2 (Threshold2 v o w h 9 3) (Simd.Api.Threshold2 onPlain v o w h 9 3) = _
    rw [host_of (m := .simd) (by decide) ⟨by decide, rfl, rfl, by decide⟩, if_neg (by decide)]
  constructor
  · show newByte (Fn1.newRoi ⟨(Api.threshold2 ⟨[.base], false, onPlain⟩ 9 3).full, fun _ => 1, fun _ => pure (), fun _ _ => pure ()⟩ (wide 1) 17 2 simdHeap) 0 = _
    rw [show (Api.threshold2 ⟨[.base], false, onPlain⟩ 9 3).full = fun v o w h => Threshold2 v o w h 9 3 from
      funext fun _ => funext fun _ => funext fun _ => funext fun _ => e1 _ _ _ _]
    exact C171_threshold2_wrong.2.1
  · show newByte (Fn1.newRoi ⟨(Api.threshold2 (everything onPlain) 9 3).full, fun _ => 1, fun _ => pure (), fun _ _ => pure ()⟩ (wide 1) 17 2 simdHeap) 0 = _
    rw [show (Api.threshold2 (everything onPlain) 9 3).full = fun v o w h => Simd.Api.Threshold2 onPlain v o w h 9 3 from
      funext fun _ => funext fun _ => funext fun _ => funext fun _ => e2 _ _ _ _]
    exact C171_threshold2_wrong.2.2

example : HostUsable (everything onHaswell) (.flip true false) := ⟨⟨_, built_onHaswell⟩, Or.inl (by decide), fun _ _ _ _ _ => rfl⟩
example : HostUsable2 (everything onHaswell) := ⟨⟨_, built_onHaswell⟩, Or.inl (by decide)⟩
example : ∃ d' img, ((ApiOp1.flip true false).fn (everything onHaswell)).newRoi (wide 1) 17 2 simdHeap = .ok img d' ∧
    NewImage simdHeap d' img 17 2 1 ((ApiOp1.flip true false).op.pixel simdHeap.mem (wide 1) 17 2) :=
  C172_region_partial (.flip true false) ⟨⟨_, built_onHaswell⟩, Or.inl (by decide), fun _ _ _ _ _ => rfl⟩ simdHeap_ok simdInput ⟨rfl, rfl⟩ (by decide)
example : ∃ d' new, Api.copyWhole (everything onHaswell) (wide 1).img (wide 2).img simdHeap = .ok new d' ∧ d'.mem.size 2 = 0 := by
  obtain ⟨d', new, h1, _, _, _, _, _, _, _, h2, _⟩ := C172_copy (p := everything onHaswell) (by decide) simdHeap_ok (wide 2).img
    (inp := (wide 1).img) simdInput (by decide)
  exact ⟨d', new, h1, h2 (by decide)⟩
example (m : BMem) : Api.getPixel ⟨[.cuda], false, onPlain⟩ (wide 1).img 0 0 m = .throw m :=
  C172_missing (by decide) rfl (by decide) (by decide) _ _ m

end PV.Props
