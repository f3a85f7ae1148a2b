import Verif.Mem
/-
  Model of src/parameter_validation.h.

  Simplification: the C++ templates take all images after the first one by value
  (`Args... args`), so every check makes temporary deep copies of images.  The copies are
  not modelled: they have the same width, height, colour count, row size and are empty
  exactly when the original is.
-/
namespace PV

variable {μ : Type}

/-- src/parameter_validation.h 46-50, `IsCorrectColorCount`
    (GRAY_SCALE = 1, RGB = 3, RGBA = 4 in src/image_buffer.h). -/
def isCorrectColorCount (img : Image) : Bool := img.cc == 1 || img.cc == 3 || img.cc == 4

/-- src/image_buffer.h 144-147, `empty` -/
def Image.empty (img : Image) : Bool := img.data == 0

/-- src/parameter_validation.h 121-127, `ValidateImageParameters( image, startX, startY,
    width, height )`; the sums are 32-bit sums. -/
def validateRoi (v : View) (w h : Nat) : M μ Unit :=
  throwIf (v.img.empty || !isCorrectColorCount v.img || w == 0 || h == 0
    || decide (u32 (v.x + w) > v.img.width) || decide (u32 (v.y + h) > v.img.height)
    || decide (u32 (v.x + w) < w) || decide (u32 (v.y + h) < h))

/-- src/parameter_validation.h 129-136, the variadic `ValidateImageParameters`:
    the images are checked one after the other against the same size. -/
def validateRois : List View → Nat → Nat → M μ Unit
  | [], _, _ => pure ()
  | v :: vs, w, h => do
    validateRoi v w h
    validateRois vs w h

/-- src/parameter_validation.h 87-92 -/
def validateImage (img : Image) : M μ Unit :=
  throwIf (img.empty || !isCorrectColorCount img)

/-- src/parameter_validation.h 94-100 -/
def validateImages2 (a b : Image) : M μ Unit :=
  throwIf (a.empty || b.empty || !isCorrectColorCount a || !isCorrectColorCount b
    || a.width != b.width || a.height != b.height)

/-- src/parameter_validation.h 102-107: neighbours in the argument list are compared. -/
def validateImages : List Image → M μ Unit
  | a :: b :: rest => do
    validateImages2 a b
    match rest with
    | [] => pure ()
    | _ :: _ => validateImages (b :: rest)
  | _ => pure ()

/-- src/parameter_validation.h 28-44, `CheckCommonColorCount` for two or three images:
    every other image is compared with the first. -/
def checkCommonColorCount (a : Image) (others : List Image) : M μ Unit :=
  throwIf (others.any fun b => a.cc != b.cc)

/-- src/parameter_validation.h 73-85, `VerifyGrayScaleImage` -/
def verifyGray (imgs : List Image) : M μ Unit := throwIf (imgs.any fun i => i.cc != 1)
/-- src/parameter_validation.h 52-57 and 66-71, `VerifyRGBImage` -/
def verifyRgb (imgs : List Image) : M μ Unit := throwIf (imgs.any fun i => i.cc != 3)
/-- src/parameter_validation.h 59-64, `VerifyRGBAImage` -/
def verifyRgba (imgs : List Image) : M μ Unit := throwIf (imgs.any fun i => i.cc != 4)

/-- src/parameter_validation.h 138-151, `IsFullImageRow` -/
def isFullImageRow (w : Nat) (imgs : List Image) : Bool := imgs.all fun i => i.rowSize == w

/-- src/parameter_validation.h 153-160, `OptimiseRoi`; returns the new (width, height). -/
def optimiseRoi (w h : Nat) (imgs : List Image) : Nat × Nat :=
  if isFullImageRow w imgs && decide (w < 4294967295 / h) then (u32 (w * h), 1) else (w, h)

/-! ### Lemmas used by the pixel functions -/

theorem validateRoi_ok {v : View} {w h : Nat} (m : μ) (fit : v.Fits w h)
    (hw : v.img.width < 4294967296) (hh : v.img.height < 4294967296) :
    validateRoi v w h m = .ok () m := by
  have h1 := fit.inX
  have h2 := fit.inY
  have h3 := fit.wpos
  have h4 := fit.hpos
  have e1 : u32 (v.x + w) = v.x + w := u32_of_lt (by omega)
  have e2 : u32 (v.y + h) = v.y + h := u32_of_lt (by omega)
  have e3 : isCorrectColorCount v.img = true := by
    rcases fit.colors with hc | hc | hc <;> simp [isCorrectColorCount, hc]
  have e4 : v.img.empty = false := by simp [Image.empty, fit.nonempty]
  rw [validateRoi, e1, e2, e3, e4]
  have : (false || !true || w == 0 || h == 0 || decide (v.x + w > v.img.width)
      || decide (v.y + h > v.img.height) || decide (v.x + w < w) || decide (v.y + h < h)) = false := by
    simp; omega
  rw [this]
  rfl

theorem validateRoi_throw {v : View} {w h : Nat} (m : μ) (fit : ¬ v.Fits w h)
    (hv : v.U32) (hw : w < 4294967296) (hh : h < 4294967296) :
    validateRoi v w h m = .throw m := by
  rw [validateRoi]
  have h1 := hv.hx
  have h2 := hv.hy
  have : (v.img.empty || !isCorrectColorCount v.img || w == 0 || h == 0
    || decide (u32 (v.x + w) > v.img.width) || decide (u32 (v.y + h) > v.img.height)
    || decide (u32 (v.x + w) < w) || decide (u32 (v.y + h) < h)) = true := by
    rw [← Bool.not_eq_false]
    intro hcon
    apply fit
    simp only [Bool.or_eq_false_iff, decide_eq_false_iff_not, Image.empty, beq_eq_false_iff_ne,
      Bool.not_eq_false', isCorrectColorCount, Bool.or_eq_true, beq_iff_eq, ne_eq] at hcon
    obtain ⟨⟨⟨⟨⟨⟨⟨a, b⟩, c⟩, d⟩, e⟩, f⟩, g⟩, i⟩ := hcon
    have e1 : u32 (v.x + w) = v.x + w := by unfold u32 at *; omega
    have e2 : u32 (v.y + h) = v.y + h := by unfold u32 at *; omega
    refine ⟨a, ?_, by omega, by omega, by omega, by omega⟩
    rcases b with (b | b) | b <;> simp [b]
  rw [this]
  rfl

theorem validateRois_ok {vs : List View} {w h : Nat} (m : μ)
    (hf : ∀ v ∈ vs, v.Fits w h ∧ v.img.width < 4294967296 ∧ v.img.height < 4294967296) :
    validateRois vs w h m = .ok () m := by
  induction vs with
  | nil => rfl
  | cons v vs ih =>
    have h1 := hf v (List.mem_cons_self ..)
    rw [validateRois, bind_ok (validateRoi_ok m h1.1 h1.2.1 h1.2.2)]
    exact ih fun u hu => hf u (List.mem_cons_of_mem _ hu)

theorem validateRois_throw {vs : List View} {w h : Nat} (m : μ)
    (hu : ∀ v ∈ vs, v.U32) (hw : w < 4294967296) (hh : h < 4294967296)
    (hf : ∃ v ∈ vs, ¬ v.Fits w h) : validateRois vs w h m = .throw m := by
  induction vs with
  | nil => simp at hf
  | cons v vs ih =>
    have hv := hu v (List.mem_cons_self ..)
    rw [validateRois]
    by_cases hfit : v.Fits w h
    · rw [bind_ok (validateRoi_ok m hfit hv.hw hv.hh)]
      refine ih (fun u hu' => hu u (List.mem_cons_of_mem _ hu')) ?_
      obtain ⟨u, hu1, hu2⟩ := hf
      rcases List.mem_cons.1 hu1 with rfl | h3
      · exact absurd hfit hu2
      · exact ⟨u, h3, hu2⟩
    · rw [bind_throw (validateRoi_throw m hfit hv hw hh)]

theorem throwIf_any_false {p : Image → Bool} {l : List Image} (m : μ) (h : ∀ i ∈ l, p i = false) :
    (throwIf (l.any p) : M μ Unit) m = .ok () m := by
  have : l.any p = false := by simpa using h
  rw [this]
  rfl

theorem throwIf_any_true {p : Image → Bool} {l : List Image} (m : μ) (h : ∃ i ∈ l, p i = true) :
    (throwIf (l.any p) : M μ Unit) m = .throw m := by
  have : l.any p = true := by simpa using h
  rw [this]
  rfl

/-- The decision taken by `OptimiseRoi`. -/
theorem optimiseRoi_cases (w h : Nat) (imgs : List Image) (hh : 0 < h) :
    (optimiseRoi w h imgs = (w, h)) ∨
    (optimiseRoi w h imgs = (h * w, 1) ∧ (∀ i ∈ imgs, i.rowSize = w) ∧ h * w < 4294967296) := by
  unfold optimiseRoi
  split
  · rename_i hc
    right
    simp only [Bool.and_eq_true, decide_eq_true_eq, isFullImageRow, List.all_eq_true, beq_iff_eq] at hc
    have h1 : w * h < 4294967295 := by
      have := hc.2
      rw [Nat.lt_div_iff_mul_lt hh] at this
      omega
    have e : u32 (w * h) = h * w := by rw [u32_of_lt (by omega), Nat.mul_comm]
    refine ⟨by rw [e], hc.1, ?_⟩
    rw [Nat.mul_comm]
    omega
  · exact Or.inl rfl

end PV
