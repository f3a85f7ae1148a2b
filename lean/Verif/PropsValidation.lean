import Verif.Validation
/-
  Properties C01, C02, C03.
-/
namespace PV.Props

variable {μ : Type}

/-- C01 (ROI validation).  The call returns normally exactly when the mathematical
    rectangle lies in the image; otherwise it throws.  It changes nothing in either case. -/
theorem C01_validate_iff (m : μ) (img : Image) (x y w h : Nat)
    (hx : x < 2 ^ 32) (hy : y < 2 ^ 32) (hw : w < 2 ^ 32) (hh : h < 2 ^ 32)
    (hiw : img.width < 2 ^ 32) (hih : img.height < 2 ^ 32) :
    (validateRoi ⟨img, x, y⟩ w h m = .ok () m ↔
      img.data ≠ 0 ∧ (img.cc = 1 ∨ img.cc = 3 ∨ img.cc = 4) ∧ 0 < w ∧ 0 < h ∧
      x + w ≤ img.width ∧ y + h ≤ img.height) ∧
    (validateRoi ⟨img, x, y⟩ w h m ≠ .ok () m → validateRoi ⟨img, x, y⟩ w h m = .throw m) := by
  by_cases hf : (⟨img, x, y⟩ : View).Fits w h
  · have := validateRoi_ok m hf hiw hih
    refine ⟨⟨fun _ => ⟨hf.nonempty, hf.colors, hf.wpos, hf.hpos, hf.inX, hf.inY⟩, fun _ => this⟩, ?_⟩
    intro hne
    exact absurd this hne
  · have := validateRoi_throw m hf ⟨hx, hy, hiw, hih⟩ hw hh
    refine ⟨⟨fun hok => ?_, fun ⟨a, b, c, d, e, f⟩ => absurd ⟨a, b, c, d, e, f⟩ hf⟩, fun _ => this⟩
    rw [this] at hok
    cases hok

/-- Concrete case of C01 : a 3x2 RGB image accepts its last pixel. -/
example : validateRoi ⟨⟨7, 3, 2, 3, 12⟩, 2, 1⟩ 1 1 () = .ok () () := rfl
/-- ... and refuses a start point for which the 32-bit sum wraps around to 1. -/
example : validateRoi ⟨⟨7, 3, 2, 3, 12⟩, 4294967295, 1⟩ 2 1 () = .throw () := rfl

/-- Specification used in C02: the rectangle at (x, y) of size w x h is inside the image. -/
def Inside (img : Image) (x y w h : Nat) : Prop :=
  img.data ≠ 0 ∧ (img.cc = 1 ∨ img.cc = 3 ∨ img.cc = 4) ∧ 0 < w ∧ 0 < h ∧
    x + w ≤ img.width ∧ y + h ≤ img.height

/-- C02 (validation of several images).  For any list of images with their own start
    points the call returns normally exactly when every image contains its own
    rectangle, and throws otherwise. -/
theorem C02_validate_all_iff (m : μ) (vs : List View) (w h : Nat)
    (hvs : ∀ v ∈ vs, v.x < 2 ^ 32 ∧ v.y < 2 ^ 32 ∧ v.img.width < 2 ^ 32 ∧ v.img.height < 2 ^ 32)
    (hw : w < 2 ^ 32) (hh : h < 2 ^ 32) :
    ((∀ v ∈ vs, Inside v.img v.x v.y w h) → validateRois vs w h m = .ok () m) ∧
    ((∃ v ∈ vs, ¬ Inside v.img v.x v.y w h) → validateRois vs w h m = .throw m) := by
  constructor
  · intro hall
    refine validateRois_ok m fun v hv => ?_
    obtain ⟨a, b, c, d, e, f⟩ := hall v hv
    exact ⟨⟨a, b, c, d, e, f⟩, (hvs v hv).2.2.1, (hvs v hv).2.2.2⟩
  · rintro ⟨v, hv, hn⟩
    refine validateRois_throw m (fun u hu => ⟨(hvs u hu).1, (hvs u hu).2.1, (hvs u hu).2.2.1, (hvs u hu).2.2.2⟩) hw hh ⟨v, hv, fun hf => hn ?_⟩
    exact ⟨hf.nonempty, hf.colors, hf.wpos, hf.hpos, hf.inX, hf.inY⟩

example : validateRois [⟨⟨7, 3, 2, 1, 4⟩, 0, 0⟩, ⟨⟨8, 5, 5, 1, 8⟩, 2, 3⟩] 3 2 () = .ok () () := rfl
example : validateRois [⟨⟨7, 3, 2, 1, 4⟩, 0, 0⟩, ⟨⟨8, 5, 5, 1, 8⟩, 3, 3⟩] 3 2 () = .throw () := rfl

/-- Specification for the whole-image forms: every image holds data with 1, 3 or 4 channels, and
    all of them have one common size. -/
def SameShape (w h : Nat) (imgs : List Image) : Prop :=
  ∀ i ∈ imgs, i.data ≠ 0 ∧ (i.cc = 1 ∨ i.cc = 3 ∨ i.cc = 4) ∧ i.width = w ∧ i.height = h

theorem images2_iff (m : μ) (a b : Image) :
    (SameShape a.width a.height [a, b] → validateImages2 a b m = .ok () m) ∧
    (¬ SameShape a.width a.height [a, b] → validateImages2 a b m = .throw m) := by
  constructor
  · intro h
    have ha := h a (by simp)
    have hb := h b (by simp)
    have hc : (a.empty || b.empty || !isCorrectColorCount a || !isCorrectColorCount b
        || a.width != b.width || a.height != b.height) = false := by
      simp only [Image.empty, isCorrectColorCount]
      rcases ha.2.1 with h1 | h1 | h1 <;> rcases hb.2.1 with h2 | h2 | h2 <;>
        simp [h1, h2, ha.1, hb.1, hb.2.2.1, hb.2.2.2]
    rw [validateImages2, hc]
    rfl
  · intro h
    cases hc : (a.empty || b.empty || !isCorrectColorCount a || !isCorrectColorCount b
        || a.width != b.width || a.height != b.height) with
    | true => rw [validateImages2, hc]; rfl
    | false =>
    refine absurd ?_ h
    simp only [Image.empty, isCorrectColorCount, Bool.not_eq_true, Bool.or_eq_false_iff,
      Bool.not_eq_false', bne_eq_false_iff_eq, beq_eq_false_iff_ne, Bool.or_eq_true, beq_iff_eq] at hc
    obtain ⟨⟨⟨⟨⟨h1, h2⟩, h3⟩, h4⟩, h5⟩, h6⟩ := hc
    intro i hi
    simp only [List.mem_cons, List.not_mem_nil, or_false] at hi
    rcases hi with rfl | rfl
    · exact ⟨h1, by omega, rfl, rfl⟩
    · exact ⟨h2, by omega, h5.symm, h6.symm⟩

/-- C02, forms without a rectangle: two or more images are accepted exactly when all of them hold
    data, have an allowed number of channels and the same size; otherwise the call throws. -/
theorem C02_validate_images_iff (m : μ) : ∀ (a b : Image) (rest : List Image),
    (SameShape a.width a.height (a :: b :: rest) → validateImages (a :: b :: rest) m = .ok () m) ∧
    (¬ SameShape a.width a.height (a :: b :: rest) → validateImages (a :: b :: rest) m = .throw m)
  | a, b, [] => by
    have := images2_iff m a b
    refine ⟨fun h => ?_, fun h => ?_⟩
    · rw [validateImages, bind_ok (this.1 h)]
      rfl
    · rw [validateImages, bind_throw (this.2 h)]
  | a, b, c :: rest => by
    have h2 := images2_iff m a b
    have ih := C02_validate_images_iff m b c rest
    have hun : validateImages (μ := μ) (a :: b :: c :: rest)
        = (do validateImages2 a b; validateImages (b :: c :: rest)) := rfl
    rw [hun]
    refine ⟨fun h => ?_, fun h => ?_⟩
    · have hb := h b (by simp)
      rw [bind_ok (h2.1 fun i hi => h i (by simp at hi ⊢; rcases hi with h | h <;> simp [h]))]
      refine ih.1 fun i hi => ?_
      obtain ⟨e1, e2, e3, e4⟩ := h i (by simp at hi ⊢; rcases hi with h | h | h <;> simp [h])
      exact ⟨e1, e2, by rw [e3, hb.2.2.1], by rw [e4, hb.2.2.2]⟩
    · by_cases hab : SameShape a.width a.height [a, b]
      · rw [bind_ok (h2.1 hab)]
        refine ih.2 fun hbc => h fun i hi => ?_
        have hb := hab b (by simp)
        rcases List.mem_cons.1 hi with rfl | hi
        · exact hab _ (by simp)
        · obtain ⟨e1, e2, e3, e4⟩ := hbc i hi
          exact ⟨e1, e2, by rw [e3, hb.2.2.1], by rw [e4, hb.2.2.2]⟩
      · rw [bind_throw (h2.2 hab)]

example : validateImages [⟨7, 3, 2, 1, 4⟩, ⟨8, 3, 2, 3, 12⟩, ⟨9, 3, 2, 1, 3⟩] () = .ok () () := rfl
example : validateImages [⟨7, 3, 2, 1, 4⟩, ⟨8, 3, 2, 3, 12⟩, ⟨9, 3, 3, 1, 3⟩] () = .throw () := rfl

/-- Specification used in C03: cells addressed by visiting `h` rows of `w` cells from
    `start` in an image with row length `row`, in the order of visiting. -/
def addressed (start row w h : Nat) : List Nat :=
  (List.range h).flatMap fun j => (List.range w).map fun i => start + j * row + i

/-- C03 (row merging).  Whatever `OptimiseRoi` decides, every image passed to it has the
    same cells visited in the same order before and after, and the new width is a 32-bit value. -/
theorem C03_optimise_same_cells (w h : Nat) (imgs : List Image) (hw : w < 2 ^ 32) (hh0 : 0 < h)
    (img : Image) (hi : img ∈ imgs) (start : Nat) :
    addressed start img.rowSize (optimiseRoi w h imgs).1 (optimiseRoi w h imgs).2
      = addressed start img.rowSize w h ∧ (optimiseRoi w h imgs).1 < 2 ^ 32 := by
  rcases optimiseRoi_cases w h imgs hh0 with he | ⟨he, hrow, hlt⟩
  · rw [he]
    exact ⟨rfl, hw⟩
  · rw [he]
    refine ⟨?_, hlt⟩
    have hr := hrow img hi
    have h1 : addressed start img.rowSize w h
        = (grid h w).map fun p => start + p.1 * img.rowSize + p.2 := by
      simp only [addressed, grid, List.map_flatMap, List.map_map]
      rfl
    rw [h1]
    have h2 : addressed start img.rowSize (h * w) 1 = (List.range (h * w)).map fun i => start + i := by
      simp [addressed]
    rw [h2, range_mul_eq_grid, List.map_map]
    refine List.map_congr_left fun p _ => ?_
    simp only [Function.comp_apply]
    rw [hr, Nat.add_assoc]

/-- C03, second half: rows are merged only when every image has rows of exactly `w`
    cells and the product fits 32 bits. -/
theorem C03_optimise_only_full_rows (w h : Nat) (imgs : List Image) (hh0 : 0 < h)
    (hchg : optimiseRoi w h imgs ≠ (w, h)) :
    optimiseRoi w h imgs = (w * h, 1) ∧ w * h < 2 ^ 32 ∧ ∀ i ∈ imgs, i.rowSize = w := by
  rcases optimiseRoi_cases w h imgs hh0 with he | ⟨he, hrow, hlt⟩
  · exact absurd he hchg
  · rw [Nat.mul_comm w h]
    exact ⟨he, hlt, hrow⟩

example : optimiseRoi 4 3 [⟨7, 4, 3, 1, 4⟩, ⟨8, 4, 5, 1, 4⟩] = (12, 1) := rfl
example : optimiseRoi 65536 65536 [⟨7, 65536, 65536, 1, 65536⟩] = (65536, 65536) := rfl

end PV.Props
