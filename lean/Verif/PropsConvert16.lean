import Verif.Convert16
import Verif.PropsChannel
/-
  C33: conversion to 16 bits and back.
-/
namespace PV.Props

/-- An image in one memory, one in the other, with rectangles that fit and equal colour counts. -/
structure Cross {α β : Type} (src : Mem α) (dst : Mem β) (inp out : View) (w h : Nat) : Prop where
  wfi : inp.img.WF src
  wfo : out.img.WF dst
  fiti : inp.Fits w h
  fito : out.Fits w h
  co : out.img.cc = inp.img.cc

theorem validate_cross {μ α : Type} {s : μ} {m : Mem α} {v : View} {w h : Nat} (wf : v.img.WF m) (fit : v.Fits w h) :
    validateRois [v] w h s = .ok () s :=
  validateRois_ok s fun u hu => by
    rw [List.mem_singleton.mp hu]
    obtain ⟨_, _, _, h4, h5, _⟩ := View.facts wf fit
    exact ⟨fit, h4, h5⟩

/-- Exactly what is written, for all rectangles and colour counts.  All accesses are inside of
    the images. -/
theorem C33_to16_exact {src : BMem} {m : Mem UInt16} {inp out : View} {w h : Nat} (p : Cross src m inp out w h) :
    ∃ m', ConvertTo16Bit src inp out w h m = .ok () m' ∧ WritesRoi m m' out w h
      fun x y c => to16 (src.byte inp.img.data ((inp.y + y) * inp.img.rowSize + (inp.x + (x * inp.img.cc + c)))) := by
  rw [ConvertTo16Bit, bind_ok (validate_cross p.wfi p.fiti), bind_ok (validate_cross p.wfo p.fito),
    bind_ok (common_ok (by simp [p.co]))]
  exact convertRows_run p.wfi p.wfo p.fiti p.fito p.co

theorem C33_to8_exact {src : Mem UInt16} {m : BMem} {inp out : View} {w h : Nat} (p : Cross src m inp out w h) :
    ∃ m', ConvertTo8Bit src inp out w h m = .ok () m' ∧ WritesRoi m m' out w h
      fun x y c => to8 (src.byte inp.img.data ((inp.y + y) * inp.img.rowSize + (inp.x + (x * inp.img.cc + c)))) := by
  rw [ConvertTo8Bit, bind_ok (validate_cross p.wfi p.fiti), bind_ok (validate_cross p.wfo p.fito),
    bind_ok (common_ok (by simp [p.co]))]
  exact convertRows_run p.wfi p.wfo p.fiti p.fito p.co

/-- Gray-scale images and rectangles at the left border: each value is the 8-bit value times 256. -/
theorem C33_to16_partial {src : BMem} {m : Mem UInt16} {inp out : View} {w h : Nat} (p : Cross src m inp out w h)
    (hv : inp.img.cc = 1 ∨ inp.x = 0) :
    ∃ m', ConvertTo16Bit src inp out w h m = .ok () m' ∧
      WritesRoi m m' out w h fun x y c => UInt16.ofNat ((inp.get src x y c).toNat * 256) := by
  obtain ⟨m', h1, h2⟩ := C33_to16_exact p
  refine ⟨m', h1, h2.size_eq, fun x y c hx hy hc => ?_, h2.outside⟩
  rw [h2.inside x y c hx hy hc]
  have := rawCell_eq hv x y c
  unfold rawCell at this
  rw [this, View.get]
  generalize src.byte inp.img.data (inp.cell x y c) = a
  apply UInt16.toNat_inj.1
  have ha := a.toNat_lt
  rw [to16, UInt16.toNat_shiftLeft, UInt16.toNat_ofNat', UInt8.toNat_toUInt16]
  simp only [Nat.shiftLeft_eq]
  rfl

/-- Gray-scale images and rectangles at the left border: each value is the 16-bit value divided
    by 256. -/
theorem C33_to8_partial {src : Mem UInt16} {m : BMem} {inp out : View} {w h : Nat} (p : Cross src m inp out w h)
    (hv : inp.img.cc = 1 ∨ inp.x = 0) :
    ∃ m', ConvertTo8Bit src inp out w h m = .ok () m' ∧
      WritesRoi m m' out w h fun x y c => UInt8.ofNat ((inp.get src x y c).toNat / 256) := by
  obtain ⟨m', h1, h2⟩ := C33_to8_exact p
  refine ⟨m', h1, h2.size_eq, fun x y c hx hy hc => ?_, h2.outside⟩
  rw [h2.inside x y c hx hy hc]
  have := rawCell_eq hv x y c
  unfold rawCell at this
  rw [this, View.get]
  generalize src.byte inp.img.data (inp.cell x y c) = a
  apply UInt8.toNat_inj.1
  have ha := a.toNat_lt
  rw [to8, UInt16.toNat_toUInt8, UInt16.toNat_shiftRight, UInt8.toNat_ofNat']
  simp only [Nat.shiftRight_eq_div_pow]
  rfl

/-- There and back: every component of the rectangle is restored, in any other image. -/
theorem C33_round_trip_partial {src : BMem} {m : Mem UInt16} {m8 : BMem} {inp mid back : View} {w h : Nat}
    (p : Cross src m inp mid w h) (q : Cross m m8 mid back w h)
    (hi : inp.img.cc = 1 ∨ inp.x = 0) (hm : mid.img.cc = 1 ∨ mid.x = 0) :
    ∃ m' m8', ConvertTo16Bit src inp mid w h m = .ok () m' ∧ ConvertTo8Bit m' mid back w h m8 = .ok () m8' ∧
      WritesRoi m8 m8' back w h fun x y c => inp.get src x y c := by
  obtain ⟨m', h1, h2⟩ := C33_to16_partial p hi
  have q' : Cross m' m8 mid back w h :=
    ⟨⟨q.wfi.row, by rw [h2.size_eq]; exact q.wfi.block, q.wfi.small⟩, q.wfo, q.fiti, q.fito, q.co⟩
  obtain ⟨m8', h3, h4⟩ := C33_to8_partial q' hm
  refine ⟨m', m8', h1, h3, h4.size_eq, fun x y c hx hy hc => ?_, h4.outside⟩
  rw [h4.inside x y c hx hy hc, h2.inside x y c hx hy (by rw [← q.co]; exact hc)]
  have := (inp.get src x y c).toNat_lt
  apply UInt8.toNat_inj.1
  rw [UInt8.toNat_ofNat', UInt16.toNat_ofNat', Nat.mod_eq_of_lt (a := _ * 256) (by omega), Nat.mul_div_cancel _ (by decide)]
  omega

theorem C33_rejects {src : BMem} {m : Mem UInt16} {inp out : View} {w h : Nat}
    (hb : Bad [inp, out] w h (out.img.cc = inp.img.cc)) : ConvertTo16Bit src inp out w h m = .throw m := by
  have hb1 : Bad [inp] w h (out.Fits w h ∧ out.img.cc = inp.img.cc) := by
    refine ⟨fun v hv => hb.u32 v (by simp_all), hb.hw, hb.hh, ?_⟩
    rcases hb.bad with ⟨v, hv, hn⟩ | hn
    · rcases List.mem_cons.mp hv with rfl | hv
      · exact Or.inl ⟨v, by simp, hn⟩
      · rw [List.mem_singleton.mp hv] at hn
        exact Or.inr fun hh => hn hh.1
    · exact Or.inr fun hh => hn hh.2
  rw [ConvertTo16Bit]
  refine rois_bad_then hb1 fun hn => ?_
  refine rois_bad_then (cond := out.img.cc = inp.img.cc) ⟨fun v hv => hb.u32 v (by simp_all), hb.hw, hb.hh, ?_⟩ fun hc => ?_
  · by_cases hf : out.Fits w h
    · exact Or.inr fun hh => hn ⟨hf, hh⟩
    · exact Or.inl ⟨out, by simp, hf⟩
  · rw [bind_throw (common_throw ⟨out.img, by simp, hc⟩)]

theorem C33_to8_rejects {src : Mem UInt16} {m : BMem} {inp out : View} {w h : Nat}
    (hb : Bad [inp, out] w h (out.img.cc = inp.img.cc)) : ConvertTo8Bit src inp out w h m = .throw m := by
  have hb1 : Bad [inp] w h (out.Fits w h ∧ out.img.cc = inp.img.cc) := by
    refine ⟨fun v hv => hb.u32 v (by simp_all), hb.hw, hb.hh, ?_⟩
    rcases hb.bad with ⟨v, hv, hn⟩ | hn
    · rcases List.mem_cons.mp hv with rfl | hv
      · exact Or.inl ⟨v, by simp, hn⟩
      · rw [List.mem_singleton.mp hv] at hn
        exact Or.inr fun hh => hn hh.1
    · exact Or.inr fun hh => hn hh.2
  rw [ConvertTo8Bit]
  refine rois_bad_then hb1 fun hn => ?_
  refine rois_bad_then (cond := out.img.cc = inp.img.cc) ⟨fun v hv => hb.u32 v (by simp_all), hb.hw, hb.hh, ?_⟩ fun hc => ?_
  · by_cases hf : out.Fits w h
    · exact Or.inr fun hh => hn ⟨hf, hh⟩
    · exact Or.inl ⟨out, by simp, hf⟩
  · rw [bind_throw (common_throw ⟨out.img, by simp, hc⟩)]

/-! ### Examples and the counterexample -/

/-- A memory of 16-bit cells, all 0. -/
def mem16 : Mem UInt16 where
  size b := if b = 0 then 0 else 16
  byte _ _ := 0

theorem cross_gray : Cross exMem mem16 ⟨padded 1, 0, 0⟩ ⟨padded 1, 0, 0⟩ 2 2 :=
  ⟨wf_padded 1 (by decide), ⟨by decide, by decide, by decide⟩, fits_padded 1 (by decide), fits_padded 1 (by decide), rfl⟩

theorem cross_back : Cross mem16 exMem ⟨padded 1, 0, 0⟩ ⟨tight 2, 0, 0⟩ 2 2 :=
  ⟨⟨by decide, by decide, by decide⟩, wf_tight 2 (by decide), fits_padded 1 (by decide), fits_tight 2 (by decide), rfl⟩

example : ∃ m' m8', ConvertTo16Bit exMem ⟨padded 1, 0, 0⟩ ⟨padded 1, 0, 0⟩ 2 2 mem16 = .ok () m' ∧
    ConvertTo8Bit m' ⟨padded 1, 0, 0⟩ ⟨tight 2, 0, 0⟩ 2 2 exMem = .ok () m8' ∧
    WritesRoi exMem m8' ⟨tight 2, 0, 0⟩ 2 2 fun x y c => (⟨padded 1, 0, 0⟩ : View).get exMem x y c :=
  C33_round_trip_partial cross_gray cross_back (Or.inl rfl) (Or.inl rfl)

/-- An RGB image of two pixels. -/
def rgb2 (b : Nat) : Image := ⟨b, 2, 1, 3, 6⟩

theorem cross_rgb : Cross exMem mem16 ⟨rgb2 1, 1, 0⟩ ⟨rgb2 1, 0, 0⟩ 1 1 :=
  ⟨⟨by decide, by decide, by decide⟩, ⟨by decide, by decide, by decide⟩,
    ⟨by decide, Or.inr (Or.inl rfl), by decide, by decide, by decide, by decide⟩,
    ⟨by decide, Or.inr (Or.inl rfl), by decide, by decide, by decide, by decide⟩, rfl⟩

/-- The claim is false for colour images: the rectangle with the second pixel only gets the last
    two components of the first pixel. -/
theorem C33_round_trip_wrong :
    ∃ m', ConvertTo16Bit exMem ⟨rgb2 1, 1, 0⟩ ⟨rgb2 1, 0, 0⟩ 1 1 mem16 = .ok () m' ∧
      (⟨rgb2 1, 0, 0⟩ : View).get m' 0 0 0 = 11 * 256 ∧ (⟨rgb2 1, 1, 0⟩ : View).get exMem 0 0 0 = 19 := by
  obtain ⟨m', h1, h2⟩ := C33_to16_exact cross_rgb
  refine ⟨m', h1, ?_, by decide⟩
  rw [h2.inside 0 0 0 (by decide) (by decide) (by decide)]
  decide

end PV.Props
