import Verif.ClSetPixel
import Verif.PropsCudaSetPixel
/-
  Property C168: SetPixel on an OpenCL device.
-/
namespace PV.Props

open PV.Cuda (Stamped)
open PV.OpenCl (SetPixelKernel Device)

/-! ### Lemmas -/

/-- The byte the kernel writes to: the offset of the host, with the coordinates exchanged, is added to the place of the pixel. -/
theorem pointAddr_eq (r x y : Nat) :
    OpenCl.pointAddr (u32 (u32 (x * r) + y)) r x y = ((x + y) * r + (x + y)) % 4294967296 := by
  simp only [OpenCl.pointAddr, u32, Nat.add_mul]
  omega

theorem set_call {total : Nat} {m : BMem} {img : Image} (g : AnyImage m img) {x y : Nat} (value : UInt8)
    (hx : x < img.width) (hy : y < img.height) (d : Device total) :
    ∃ L : Launch, OpenCl.SetPixel total (some .point) img x y value m = .ok L m ∧ L.Covers 1 1 ∧
      ∀ i j, L.kernel i j = Prog.store img.data (((x + y) * img.rowSize + (x + y)) % 4294967296) value := by
  obtain ⟨L, e, hk, hL⟩ := OpenCl.launch1D_ok (μ := BMem) d (w := 1) (by decide) (by decide)
    (OpenCl.kernelSetPixel img.data (u32 (u32 (x * img.rowSize) + y)) img.rowSize img.width img.height x y value)
  refine ⟨L, ?_, hL, fun i j => ?_⟩
  · have he : img.empty = false := by simp [Image.empty, g.data]
    have ht : (img.empty || decide (x ≥ img.width) || decide (y ≥ img.height)) = false := by
      simp only [he, Bool.false_or, Bool.or_eq_false_iff, decide_eq_false_iff_not]
      omega
    rw [OpenCl.SetPixel, bind_ok g.valid]
    dsimp only
    rw [ht, throwIf_false, pure_bind']
    show (pure () >>= fun _ => OpenCl.launch1D total 1 _) m = _
    rw [pure_bind', e]
    rfl
  · rw [hk, OpenCl.kernelSetPixel, if_pos ⟨hx, hy⟩, pointAddr_eq]

/-! ### One pixel -/

/-- **C168.** What `SetPixel( image, x, y, value )` does when the driver finds the kernel of one point: byte (x + y) of row (x + y) gets the
    value if there is memory for it, and no other byte is changed. -/
theorem C168_setPixel_exact {total : Nat} {m : BMem} {img : Image} (g : AnyImage m img) {x y : Nat} (value : UInt8)
    (hx : x < img.width) (hy : y < img.height) (d : Device total)
    (hm : ((x + y) * img.rowSize + (x + y)) % 4294967296 < m.size img.data) :
    Runs (OpenCl.SetPixel total (some .point) img x y value) m fun m' =>
      Stamped m m' value fun c => c = (img.data, ((x + y) * img.rowSize + (x + y)) % 4294967296) := by
  obtain ⟨L, e, hL, hk⟩ := set_call g value hx hy d
  refine ⟨L, e, (Cuda.Launch.always_stamp (v := value)
    (fun _ => some (img.data, ((x + y) * img.rowSize + (x + y)) % 4294967296)) (fun t => hk _ _) ?_).mono ?_⟩
  · intro t a ha
    rw [← Option.some.inj ha]
    exact ⟨g.data, hm⟩
  · intro m' h
    obtain ⟨t, _⟩ := hL.cover 0 0 (by decide) (by decide)
    exact ⟨h.size_eq, fun b i hc => h.inside b i ⟨t, by rw [hc]⟩, fun b i hc => h.outside b i fun ⟨_, h2⟩ => hc (Option.some.inj h2).symm⟩

/-- **C168.** If there is no memory for that byte, the call writes outside the memory of the image, whatever is asked of the result. -/
theorem C168_setPixel_outside {total : Nat} {m : BMem} {img : Image} (g : AnyImage m img) {x y : Nat} (value : UInt8)
    (hx : x < img.width) (hy : y < img.height) (d : Device total)
    (hm : m.size img.data ≤ ((x + y) * img.rowSize + (x + y)) % 4294967296) (Q : BMem → Prop) :
    ¬ Runs (OpenCl.SetPixel total (some .point) img x y value) m Q := by
  rintro ⟨L', e', hA⟩
  obtain ⟨L, e, hL, hk⟩ := set_call g value hx hy d
  obtain rfl : L' = L := (Res.ok.inj (e'.symm.trans e)).1
  obtain ⟨t, _⟩ := hL.cover 0 0 (by decide) (by decide)
  refine (hA.safe [t] t).2 ?_
  have hv : ¬ m.Valid img.data (((x + y) * img.rowSize + (x + y)) % 4294967296) := fun h => by
    have := h.2
    omega
  show ((L'.sys m).step t).task t = .ub
  simp only [Sys.step, Launch.sys, hk, Prog.store, Prog.step, if_neg hv, if_true]

/-- **C168.** `SetPixel( image, x, y, value )` sets exactly this pixel.  Partial: the driver has to find the kernel of one point, the image
    is gray-scale, and the pixel is the first one, or `x * rowSize + y` is a multiple of 2^32 (`C168_setPixel_never`). -/
theorem C168_setPixel_partial {total : Nat} {m : BMem} {img : Image} (g : GrayImage m img) {x y : Nat} (value : UInt8)
    (hx : x < img.width) (hy : y < img.height) (d : Device total) (h0 : (x * img.rowSize + y) % 4294967296 = 0) :
    Runs (OpenCl.SetPixel total (some .point) img x y value) m fun m' => WritesRoi m m' ⟨img, x, y⟩ 1 1 fun _ _ _ => value := by
  obtain ⟨a1, a2⟩ := g.any.addr hx hy
  have a3 := a2.2
  have e : ((x + y) * img.rowSize + (x + y)) % 4294967296 = byteAt img x y := by
    rw [← a1]
    simp only [u32, Nat.add_mul]
    omega
  refine (C168_setPixel_exact g.any value hx hy d (by rw [e]; exact a3)).mono fun m' h => ⟨h.size_eq, ?_, ?_⟩
  · intro x' y' c' hx' hy' hc'
    have hc' : c' < img.cc := hc'
    rw [g.cc] at hc'
    obtain rfl : x' = 0 := by omega
    obtain rfl : y' = 0 := by omega
    obtain rfl : c' = 0 := by omega
    refine h.inside _ _ ?_
    rw [e]
    simp [byteAt, View.cell, g.cc]
  · intro b i hn
    refine h.outside b i fun hc => hn ?_
    rw [e] at hc
    obtain ⟨h1, h2⟩ := Prod.mk.inj hc
    refine ⟨h1, 0, 0, 0, by decide, by decide, ?_, ?_⟩
    · show 0 < img.cc
      rw [g.cc]
      decide
    · rw [h2]
      simp [byteAt, View.cell, g.cc]

/-- **C168.** No other pixel is ever set: whenever the call runs, the pixel asked for has its old value. -/
theorem C168_setPixel_never {total : Nat} {m : BMem} {img : Image} (g : GrayImage m img) {x y : Nat} (value : UInt8)
    (hx : x < img.width) (hy : y < img.height) (d : Device total) (h0 : (x * img.rowSize + y) % 4294967296 ≠ 0)
    {Q : BMem → Prop} (hr : Runs (OpenCl.SetPixel total (some .point) img x y value) m Q) :
    Runs (OpenCl.SetPixel total (some .point) img x y value) m fun m' => (whole img).get m' x y 0 = (whole img).get m x y 0 := by
  obtain ⟨a1, a2⟩ := g.any.addr hx hy
  have hm : ((x + y) * img.rowSize + (x + y)) % 4294967296 < m.size img.data := by
    by_contra hm
    exact C168_setPixel_outside g.any value hx hy d (Nat.le_of_not_lt hm) Q hr
  refine (C168_setPixel_exact g.any value hx hy d hm).mono fun m' h => ?_
  show m'.byte img.data _ = m.byte img.data _
  rw [← byteAt_gray g.cc]
  refine h.outside _ _ fun hc => ?_
  have hc := (Prod.mk.inj hc).2
  rw [← a1] at hc
  simp only [u32, Nat.add_mul] at hc
  omega

/-- **C168.** Empty images, wrong numbers of colours, points outside of the image, and a driver which finds no kernel or the kernel of lists:
    an exception, and nothing is started. -/
theorem C168_setPixel_rejects (total : Nat) (found : Option SetPixelKernel) {m : BMem} {img : Image} {x y : Nat} (value : UInt8)
    (hb : img.data = 0 ∨ ¬ (img.cc = 1 ∨ img.cc = 3 ∨ img.cc = 4) ∨ img.width ≤ x ∨ img.height ≤ y ∨ found ≠ some .point) :
    OpenCl.SetPixel total found img x y value m = .throw m := by
  by_cases h1 : img.data = 0 ∨ ¬ (img.cc = 1 ∨ img.cc = 3 ∨ img.cc = 4)
  · refine bind_throw ?_
    rw [validateImage, invalidImage h1]
    rfl
  · have hv : validateImage img m = .ok () m :=
      validImage_ok (by by_cases hc : img.cc = 1 ∨ img.cc = 3 ∨ img.cc = 4; exact hc; exact absurd (Or.inr hc) h1) (fun e => h1 (Or.inl e)) _
    rw [OpenCl.SetPixel.eq_def, bind_ok hv]
    match found with
    | none => rfl
    | some k =>
      dsimp only
      by_cases h2 : (img.empty || decide (x ≥ img.width) || decide (y ≥ img.height)) = true
      · rw [h2]
        exact bind_throw (throwIf_true m)
      · have h2' : (img.empty || decide (x ≥ img.width) || decide (y ≥ img.height)) = false := by simpa using h2
        rw [h2', throwIf_false, pure_bind']
        match k with
        | .list => exact bind_throw rfl
        | .point =>
          simp only [Bool.or_eq_true, decide_eq_true_eq] at h2
          exfalso
          rcases hb with h | h | h | h | h
          · exact h1 (Or.inl h)
          · exact h1 (Or.inr h)
          · exact h2 (Or.inl (Or.inr h))
          · exact h2 (Or.inr h)
          · exact h rfl

/-! ### A list of pixels -/

/-- **C168.** The list form never sets anything: it ends with an exception for all images and all lists, whatever kernel the driver finds. -/
theorem C168_list_rejected (total : Nat) (found : Option SetPixelKernel) (m : BMem) (img : Image) (X Y : List Nat) (bx by' : Nat)
    (value : UInt8) : OpenCl.SetPixels total found img X Y bx by' value m = .throw m := by
  by_cases h1 : (img.empty || !isCorrectColorCount img) = true
  · refine bind_throw ?_
    rw [validateImage, h1]
    rfl
  · have h1 : (img.empty || !isCorrectColorCount img) = false := by simpa using h1
    rw [OpenCl.SetPixels.eq_def, bind_ok (show validateImage img m = .ok () m by rw [validateImage, h1]; rfl)]
    match found with
    | none => rfl
    | some k =>
      dsimp only
      by_cases h2 : (img.empty || X.isEmpty || X.length != Y.length) = true
      · rw [h2]
        exact bind_throw (throwIf_true m)
      · have h2 : (img.empty || X.isEmpty || X.length != Y.length) = false := by simpa using h2
        rw [h2, throwIf_false, pure_bind']
        by_cases h3 : ∀ p ∈ X.zip Y, p.1 < img.width ∧ p.2 < img.height
        · rw [bind_ok ((check_points m).1 h3)]
          cases k <;> exact bind_throw rfl
        · push Not at h3
          obtain ⟨p, hp, hn⟩ := h3
          exact bind_throw ((check_points m).2 ⟨p, hp, fun h => by have := hn h.1; omega⟩)

/-! ### Examples -/

/-- The first pixel of a gray-scale image with padding. -/
example : Runs (OpenCl.SetPixel 256 (some .point) (padded 1) 0 0 77) exMem fun m' => WritesRoi exMem m' ⟨padded 1, 0, 0⟩ 1 1 fun _ _ _ => 77 :=
  C168_setPixel_partial grayImage_padded 77 (by decide) (by decide) ⟨by decide, by decide⟩ (by decide)

/-- **C168.** Asked for the second pixel of the first row, the call sets the second pixel of the second row. -/
theorem C168_wrong : GrayImage exMem (padded 1) ∧ Device 256 ∧
    Runs (OpenCl.SetPixel 256 (some .point) (padded 1) 1 0 77) exMem fun m' =>
      (whole (padded 1)).get m' 1 0 0 = (whole (padded 1)).get exMem 1 0 0 ∧ (whole (padded 1)).get exMem 1 0 0 ≠ 77 ∧
      (whole (padded 1)).get m' 1 1 0 = 77 ∧ (whole (padded 1)).get exMem 1 1 0 ≠ 77 := by
  refine ⟨grayImage_padded, ⟨by decide, by decide⟩, ?_⟩
  refine (C168_setPixel_exact grayImage_padded.any 77 (by decide) (by decide) ⟨by decide, by decide⟩ (by decide)).mono fun m' h => ?_
  exact ⟨h.outside _ _ (by decide), by decide, h.inside _ _ (by decide), by decide⟩

/-- Memory with just the bytes of an image of two rows of four bytes. -/
def rowsMem : BMem := ⟨fun b => if b = 1 then 8 else 0, fun _ i => UInt8.ofNat i⟩

/-- **C168.** Asked for the last pixel, the call writes outside the image. -/
theorem C168_undefined : GrayImage rowsMem (padded 1) ∧ Device 256 ∧ 1 < (padded 1).width ∧ 1 < (padded 1).height ∧
    ∀ Q : BMem → Prop, ¬ Runs (OpenCl.SetPixel 256 (some .point) (padded 1) 1 1 77) rowsMem Q := by
  have g : GrayImage rowsMem (padded 1) := ⟨⟨by decide, by decide, by decide⟩, by decide, rfl⟩
  exact ⟨g, ⟨by decide, by decide⟩, by decide, by decide,
    C168_setPixel_outside g.any 77 (by decide) (by decide) ⟨by decide, by decide⟩ (by decide)⟩

/-- A list that the function on the host accepts. -/
example : OpenCl.SetPixels 256 (some .list) (padded 1) [0, 1] [1, 0] 7 8 77 exMem = .throw exMem := C168_list_rejected ..

end PV.Props
