import Verif.Resize
import Verif.PropsReduce
/-
  C31, C73: Resize.
-/
namespace PV.Props

/-- Exactly what `Resize` does, for every pair of rectangles: the products of the position and
    the input size are taken modulo 2^32.  All accesses are inside of the images. -/
theorem C31_resize_wrapped {m : BMem} {inp out : View} {wi hi wo ho : Nat} (p : Pair m inp wi hi out wo ho)
    (co : out.img.cc = inp.img.cc) :
    ∃ m', Resize inp wi hi out wo ho m = .ok () m' ∧
      WritesRoi m m' out wo ho fun x y c => inp.get m (x * wi % 2 ^ 32 / wo) (y * hi % 2 ^ 32 / ho) c := by
  rw [Resize_fold p.wfi p.wfo p.fiti p.fito co p.apart]
  refine roi_writes p.wfo p.fito (nodup_pixL List.nodup_range) (fun q => ?_) ?_
  · rw [mem_pixL, List.mem_range, co]
  · intro x y c hx hy hc m' ho'
    have s1 := sample_lt hx p.fiti.wpos
    have s2 := sample_lt hy p.fiti.hpos
    have hc' : c < inp.img.cc := by omega
    rw [bind_ok (readC_ok (Mem.valid_of_size ho'.size_eq (View.cell_valid p.wfi p.fiti s1 s2 hc'))),
      writeC_ok _ (Mem.valid_of_size ho'.size_eq (View.cell_valid p.wfo p.fito hx hy hc))]
    refine congrArg (fun z => Res.ok () (m'.set out.img.data (out.cell x y c) z)) ?_
    exact ho'.get_apart p.apart s1 s2 hc'

/-- Output pixel (x,y) is the input pixel (x*widthIn/widthOut, y*heightIn/heightOut), as long as
    the products stay below 2^32. -/
theorem C31_resize_partial {m : BMem} {inp out : View} {wi hi wo ho : Nat} (p : Pair m inp wi hi out wo ho)
    (co : out.img.cc = inp.img.cc) (hx : (wo - 1) * wi < 2 ^ 32) (hy : (ho - 1) * hi < 2 ^ 32) :
    ∃ m', Resize inp wi hi out wo ho m = .ok () m' ∧
      WritesRoi m m' out wo ho fun x y c => inp.get m (x * wi / wo) (y * hi / ho) c := by
  obtain ⟨m', h1, h2⟩ := C31_resize_wrapped p co
  refine ⟨m', h1, h2.size_eq, fun x y c hx' hy' hc => ?_, h2.outside⟩
  rw [h2.inside x y c hx' hy' hc]
  have a1 : x * wi ≤ (wo - 1) * wi := Nat.mul_le_mul_right _ (by omega)
  have a2 : y * hi ≤ (ho - 1) * hi := Nat.mul_le_mul_right _ (by omega)
  rw [Nat.mod_eq_of_lt (by omega), Nat.mod_eq_of_lt (by omega)]

/-- The sampled positions are inside of the input rectangle. -/
theorem C31_inside {wi wo x : Nat} (hx : x < wo) (hw : 0 < wi) : x * wi / wo < wi :=
  Nat.div_lt_of_lt_mul (Nat.mul_lt_mul_of_pos_right hx hw)

/-- Resizing to the same size copies the rectangle. -/
theorem C31_same_size {m : BMem} {inp out : View} {w h : Nat} (p : Pair m inp w h out w h)
    (co : out.img.cc = inp.img.cc) (hx : (w - 1) * w < 2 ^ 32) (hy : (h - 1) * h < 2 ^ 32) :
    ∃ m', Resize inp w h out w h m = .ok () m' ∧ WritesRoi m m' out w h fun x y c => inp.get m x y c := by
  obtain ⟨m', h1, h2⟩ := C31_resize_partial p co hx hy
  refine ⟨m', h1, h2.size_eq, fun x y c hx' hy' hc => ?_, h2.outside⟩
  rw [h2.inside x y c hx' hy' hc, Nat.mul_div_cancel _ p.fiti.wpos, Nat.mul_div_cancel _ p.fiti.hpos]

theorem C31_resize_rejects {m : BMem} {inp out : View} {wi hi wo ho : Nat} (ui : inp.U32) (uo : out.U32)
    (hwi : wi < 2 ^ 32) (hhi : hi < 2 ^ 32) (hwo : wo < 2 ^ 32) (hho : ho < 2 ^ 32)
    (hbad : ¬ inp.Fits wi hi ∨ ¬ out.Fits wo ho) : Resize inp wi hi out wo ho m = .throw m := by
  rw [Resize]
  refine rois_bad_then (cond := out.Fits wo ho) ⟨by simp [ui], hwi, hhi, by simpa using hbad⟩ fun hn => ?_
  exact rois_bad_then (cond := True) ⟨by simp [uo], hwo, hho, Or.inl ⟨out, by simp, hn⟩⟩ fun h => absurd trivial h

/-- A ramp of 65537 pixels and room for a second image of this size. -/
def rampMem : BMem where
  size b := if b = 0 then 0 else 65537
  byte b i := if b = 1 ∧ 65000 < i then 1 else 0

/-- One row of 65537 pixels. -/
def rowImg (b : Nat) : Image := ⟨b, 65537, 1, 1, 65537⟩

theorem ramp_pair : Pair rampMem ⟨rowImg 1, 0, 0⟩ 65537 1 ⟨rowImg 2, 0, 0⟩ 65537 1 :=
  ⟨⟨by decide, by decide, by decide⟩, ⟨by decide, by decide, by decide⟩,
    ⟨by decide, Or.inl rfl, by decide, by decide, by decide, by decide⟩,
    ⟨by decide, Or.inl rfl, by decide, by decide, by decide, by decide⟩, apart_of_ne _ _ _ _ (by decide)⟩

/-- The claim is false in general: the copy of a row of 65537 pixels, made by resizing to the
    same size, has the first pixel at its end. -/
theorem C31_resize_wrong :
    ∃ m', Resize ⟨rowImg 1, 0, 0⟩ 65537 1 ⟨rowImg 2, 0, 0⟩ 65537 1 rampMem = .ok () m' ∧
      (⟨rowImg 2, 0, 0⟩ : View).get m' 65536 0 0 = 0 ∧
      (⟨rowImg 1, 0, 0⟩ : View).get rampMem (65536 * 65537 / 65537) (0 * 1 / 1) 0 = 1 := by
  obtain ⟨m', h1, h2⟩ := C31_resize_wrapped ramp_pair rfl
  refine ⟨m', h1, ?_, by decide⟩
  rw [h2.inside 65536 0 0 (by decide) (by decide) (by decide)]
  decide

example : ∃ m', Resize ⟨tight 1, 0, 0⟩ 2 2 ⟨padded 2, 0, 0⟩ 2 2 exMem = .ok () m' ∧
    WritesRoi exMem m' ⟨padded 2, 0, 0⟩ 2 2 fun x y c => (⟨tight 1, 0, 0⟩ : View).get exMem x y c :=
  C31_same_size pair_ex rfl (by decide) (by decide)

/-- From 2x2 to 3x1. -/
theorem pair_resize : Pair exMem ⟨tight 1, 0, 0⟩ 2 2 ⟨⟨2, 3, 1, 1, 4⟩, 0, 0⟩ 3 1 :=
  ⟨wf_tight 1 (by decide), ⟨by decide, by decide, by decide⟩, fits_tight 1 (by decide),
    ⟨by decide, Or.inl rfl, by decide, by decide, by decide, by decide⟩, apart_of_ne _ _ _ _ (by decide)⟩

example : ∃ m', Resize ⟨tight 1, 0, 0⟩ 2 2 ⟨⟨2, 3, 1, 1, 4⟩, 0, 0⟩ 3 1 exMem = .ok () m' ∧
    WritesRoi exMem m' ⟨⟨2, 3, 1, 1, 4⟩, 0, 0⟩ 3 1
      fun x y c => (⟨tight 1, 0, 0⟩ : View).get exMem (x * 2 / 3) (y * 2 / 1) c :=
  C31_resize_partial pair_resize rfl (by decide) (by decide)

/-! ### C73 : different colour counts -/

/-- An RGB pixel and a block of one byte. -/
def rgbMem : BMem where
  size b := if b = 1 then 3 else if b = 2 then 1 else 0
  byte b i := UInt8.ofNat (b + i)

/-- Images with different colour counts are not refused: an RGB pixel is written over the end of
    a gray-scale image. -/
theorem C73_resize_colours_wrong :
    (⟨⟨1, 1, 1, 3, 3⟩, 0, 0⟩ : View).Fits 1 1 ∧ (⟨⟨2, 1, 1, 1, 1⟩, 0, 0⟩ : View).Fits 1 1 ∧
    (⟨1, 1, 1, 3, 3⟩ : Image).WF rgbMem ∧ (⟨2, 1, 1, 1, 1⟩ : Image).WF rgbMem ∧
    Resize ⟨⟨1, 1, 1, 3, 3⟩, 0, 0⟩ 1 1 ⟨⟨2, 1, 1, 1, 1⟩, 0, 0⟩ 1 1 rgbMem = .ub := by
  refine ⟨⟨by decide, Or.inr (Or.inl rfl), by decide, by decide, by decide, by decide⟩,
    ⟨by decide, Or.inl rfl, by decide, by decide, by decide, by decide⟩,
    ⟨by decide, by decide, by decide⟩, ⟨by decide, by decide, by decide⟩, ?_⟩
  have : isUb (Resize ⟨⟨1, 1, 1, 3, 3⟩, 0, 0⟩ 1 1 ⟨⟨2, 1, 1, 1, 1⟩, 0, 0⟩ 1 1 rgbMem) = true := by decide +kernel
  generalize Resize ⟨⟨1, 1, 1, 3, 3⟩, 0, 0⟩ 1 1 ⟨⟨2, 1, 1, 1, 1⟩, 0, 0⟩ 1 1 rgbMem = r at this
  cases r <;> first | rfl | exact absurd this (by simp [isUb])

/-- What holds: with equal colour counts the call stays inside of the images. -/
theorem C73_resize_colours_partial {m : BMem} {inp out : View} {wi hi wo ho : Nat} (p : Pair m inp wi hi out wo ho)
    (co : out.img.cc = inp.img.cc) : ∃ m', Resize inp wi hi out wo ho m = .ok () m' := by
  obtain ⟨m', h, _⟩ := C31_resize_wrapped p co
  exact ⟨m', h⟩

end PV.Props
