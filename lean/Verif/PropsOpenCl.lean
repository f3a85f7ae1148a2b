import Verif.OpenClLemmas
import Verif.PropsCuda
import Verif.PropsCudaReduce
/-
  C112: functions on an OpenCL device that work on every rectangle.
  C113: functions on an OpenCL device that work on some rectangles only.

  `total` is the number of work items the device allows in a group; `OpenCl.Device total` asks that it is positive and below 2^62.
-/
namespace PV.Props
open Cuda (ARuns_congr validate_one)

variable {total : Nat} {m : BMem} {w h : Nat}

theorem exDevice : OpenCl.Device 2 := ⟨by decide, by decide⟩

/-! ### C112 -/

/-- **C112.** AbsoluteDifference. -/
theorem C112_absoluteDifference {in1 in2 out : View} (r : Ready2 m in1 in2 out w h) (d : OpenCl.Device total) :
    Runs (OpenCl.AbsoluteDifference total in1 in2 out w h) m fun m' =>
      WritesRoi m m' out w h fun x y c => specAbsDiff (in1.get m x y c) (in2.get m x y c) := by
  simp only [← absDiffK_spec]
  exact OpenCl.binary_runs r d

/-- **C112.** Maximum. -/
theorem C112_maximum {in1 in2 out : View} (r : Ready2 m in1 in2 out w h) (d : OpenCl.Device total) :
    Runs (OpenCl.Maximum total in1 in2 out w h) m fun m' =>
      WritesRoi m m' out w h fun x y c => specMax (in1.get m x y c) (in2.get m x y c) := by
  simp only [← maxK_spec]
  exact OpenCl.binary_runs r d

/-- **C112.** Minimum. -/
theorem C112_minimum {in1 in2 out : View} (r : Ready2 m in1 in2 out w h) (d : OpenCl.Device total) :
    Runs (OpenCl.Minimum total in1 in2 out w h) m fun m' =>
      WritesRoi m m' out w h fun x y c => specMin (in1.get m x y c) (in2.get m x y c) := by
  simp only [← minK_spec]
  exact OpenCl.binary_runs r d

/-- **C112.** Subtract. -/
theorem C112_subtract {in1 in2 out : View} (r : Ready2 m in1 in2 out w h) (d : OpenCl.Device total) :
    Runs (OpenCl.Subtract total in1 in2 out w h) m fun m' =>
      WritesRoi m m' out w h fun x y c => specSub (in1.get m x y c) (in2.get m x y c) := by
  simp only [← subK_spec]
  exact OpenCl.binary_runs r d

/-- **C112.** BitwiseAnd. -/
theorem C112_bitwiseAnd {in1 in2 out : View} (r : Ready2 m in1 in2 out w h) (d : OpenCl.Device total) :
    ∃ F, Runs (OpenCl.BitwiseAnd total in1 in2 out w h) m (fun m' => WritesRoi m m' out w h F) ∧
      ∀ x y c k, bit (F x y c) k = (bit (in1.get m x y c) k && bit (in2.get m x y c) k) :=
  ⟨_, OpenCl.binary_runs r d, fun x y c k => by simp only [bit, UInt8.toNat_and, Nat.testBit_and]⟩

/-- **C112.** BitwiseOr. -/
theorem C112_bitwiseOr {in1 in2 out : View} (r : Ready2 m in1 in2 out w h) (d : OpenCl.Device total) :
    ∃ F, Runs (OpenCl.BitwiseOr total in1 in2 out w h) m (fun m' => WritesRoi m m' out w h F) ∧
      ∀ x y c k, bit (F x y c) k = (bit (in1.get m x y c) k || bit (in2.get m x y c) k) :=
  ⟨_, OpenCl.binary_runs r d, fun x y c k => by simp only [bit, UInt8.toNat_or, Nat.testBit_or]⟩

/-- **C112.** BitwiseXor. -/
theorem C112_bitwiseXor {in1 in2 out : View} (r : Ready2 m in1 in2 out w h) (d : OpenCl.Device total) :
    ∃ F, Runs (OpenCl.BitwiseXor total in1 in2 out w h) m (fun m' => WritesRoi m m' out w h F) ∧
      ∀ x y c k, bit (F x y c) k = (bit (in1.get m x y c) k != bit (in2.get m x y c) k) :=
  ⟨_, OpenCl.binary_runs r d, fun x y c k => by simp only [bit, UInt8.toNat_xor, Nat.testBit_xor]⟩

/-- **C112.** Invert. -/
theorem C112_invert {inp out : View} (r : Ready1 m inp out w h) (d : OpenCl.Device total) :
    Runs (OpenCl.Invert total inp out w h) m fun m' =>
      WritesRoi m m' out w h fun x y c => UInt8.ofNat (255 - (inp.get m x y c).toNat) := by
  simp only [← invert_spec]
  exact OpenCl.invert_runs r d

/-- **C112.** IsEqual says whether all bytes are equal. -/
theorem C112_isEqual {in1 in2 : View} (o1 : One m in1 w h) (o2 : One m in2 w h) (cc : in2.img.cc = in1.img.cc) (d : OpenCl.Device total) :
    ARuns (OpenCl.IsEqual total in1 in2 w h) m fun r =>
      (r = true ↔ ∀ x y c, x < w → y < h → c < in1.img.cc → in1.get m x y c = in2.get m x y c) := by
  obtain ⟨h1, _, _, _, _, _, _, _, h9, _⟩ := View.facts o1.wf o1.fit
  refine ARuns_congr (c' := OpenCl.launchA total (w * in1.img.cc) h (guardedA (w * in1.img.cc) h (kernelCountDiff
    (OpenCl.addr in1.img.data (OpenCl.offYX in1 in1.img.cc) in1.img.rowSize) (OpenCl.addr in2.img.data (OpenCl.offYX in2 in1.img.cc) in2.img.rowSize)))
    [0] fun vec => vec == [0])
    ?_ (OpenCl.launchA_runs d (Nat.mul_pos o1.fit.wpos h1) o1.fit.hpos h9 (OpenCl.fits_small o1.wf o1.fit).2 fun L hL hk hv hr => ?_)
  · rw [OpenCl.IsEqual, bind_ok (validate_pre_ok (vs := [in1, in2]) (by simp; exact ⟨⟨o1.wf, o1.fit⟩, o2.wf, o2.fit⟩)),
      bind_ok (common_ok (by simp [cc])), u32_of_lt h9]
  · refine (countDiff_always o1 o2 cc hL (OpenCl.addr_of o1.wf o1.fit rfl h1 (OpenCl.offYX_eq o1.wf o1.fit))
      (OpenCl.addr_of o2.wf o2.fit cc h1 (by rw [← cc, OpenCl.offYX_eq o2.wf o2.fit])) hk hv).mono ?_
    rintro r ⟨e, rfl, he⟩
    rw [hr, ← he]
    simp

/-- **C112.** ProjectionProfile over the columns. -/
theorem C112_projection_horizontal {v : View} (o : One m v w h) (d : OpenCl.Device total) :
    ARuns (OpenCl.ProjectionProfile total v w h true) m fun prof => prof.length = w * v.img.cc ∧
      ∀ k, k < w * v.img.cc → prof[k]? = some (UInt32.ofNat (columnSum m v h k)) := by
  obtain ⟨h1, _, _, _, _, _, _, _, h9, _⟩ := View.facts o.wf o.fit
  refine ARuns_congr (c' := OpenCl.launchA total (w * v.img.cc) h (guardedA (w * v.img.cc) h (kernelProjection true
    (OpenCl.addr v.img.data (OpenCl.offYX v v.img.cc) v.img.rowSize))) (List.replicate (w * v.img.cc) 0) id)
    ?_ (OpenCl.launchA_runs d (Nat.mul_pos o.fit.wpos h1) o.fit.hpos h9 (OpenCl.fits_small o.wf o.fit).2 fun L hL hk hv hr => ?_)
  · rw [OpenCl.ProjectionProfile, bind_ok (validate_one o), u32_of_lt h9, if_pos rfl]
  · refine (projection_horizontal o hL (OpenCl.addr_of o.wf o.fit rfl h1 (OpenCl.offYX_eq o.wf o.fit)) hk hv).mono ?_
    rintro r ⟨prof, rfl, e1, e2⟩
    rw [hr]
    exact ⟨e1, e2⟩

/-- **C112.** ProjectionProfile over the rows. -/
theorem C112_projection_vertical {v : View} (o : One m v w h) (d : OpenCl.Device total) :
    ARuns (OpenCl.ProjectionProfile total v w h false) m fun prof => prof.length = h ∧
      ∀ y, y < h → prof[y]? = some (UInt32.ofNat (rowSum m v (w * v.img.cc) y)) := by
  obtain ⟨h1, _, _, _, _, _, _, _, h9, _⟩ := View.facts o.wf o.fit
  refine ARuns_congr (c' := OpenCl.launchA total (w * v.img.cc) h (guardedA (w * v.img.cc) h (kernelProjection false
    (OpenCl.addr v.img.data (OpenCl.offYX v v.img.cc) v.img.rowSize))) (List.replicate h 0) id)
    ?_ (OpenCl.launchA_runs d (Nat.mul_pos o.fit.wpos h1) o.fit.hpos h9 (OpenCl.fits_small o.wf o.fit).2 fun L hL hk hv hr => ?_)
  · rw [OpenCl.ProjectionProfile, bind_ok (validate_one o), u32_of_lt h9, if_neg (by decide)]
  · refine (projection_vertical o hL (OpenCl.addr_of o.wf o.fit rfl h1 (OpenCl.offYX_eq o.wf o.fit)) hk hv).mono ?_
    rintro r ⟨prof, rfl, e1, e2⟩
    rw [hr]
    exact ⟨e1, e2⟩

/-- **C112.** Calls that are refused. -/
theorem C112_rejects {in1 in2 out : View} :
    (Bad [in1, in2, out] w h (SameColors2 in1 in2 out) →
      OpenCl.AbsoluteDifference total in1 in2 out w h m = .throw m ∧ OpenCl.BitwiseAnd total in1 in2 out w h m = .throw m ∧
      OpenCl.BitwiseOr total in1 in2 out w h m = .throw m ∧ OpenCl.BitwiseXor total in1 in2 out w h m = .throw m ∧
      OpenCl.Maximum total in1 in2 out w h m = .throw m ∧ OpenCl.Minimum total in1 in2 out w h m = .throw m ∧
      OpenCl.Subtract total in1 in2 out w h m = .throw m) ∧
    (Bad [in1, out] w h (out.img.cc = in1.img.cc) → OpenCl.Invert total in1 out w h m = .throw m) ∧
    (Bad [in1, in2] w h (in2.img.cc = in1.img.cc) → OpenCl.IsEqual total in1 in2 w h m = .throw m) ∧
    (∀ hor, Bad [in1] w h True → OpenCl.ProjectionProfile total in1 w h hor m = .throw m) := by
  refine ⟨fun hb => ?_, OpenCl.invert_bad, fun hb => rois_bad_then hb fun hc => bind_throw (common_throw ⟨in2.img, by simp, hc⟩),
    fun hor hb => rois_bad_then hb fun hc => absurd trivial hc⟩
  exact ⟨OpenCl.binary_bad hb, OpenCl.binary_bad hb, OpenCl.binary_bad hb, OpenCl.binary_bad hb, OpenCl.binary_bad hb,
    OpenCl.binary_bad hb, OpenCl.binary_bad hb⟩

/-- **C112.** The memory is at the end the one that the function on the host makes of the same contents, and
    that a CUDA device makes. -/
theorem C112_as_host {in1 in2 out : View} (r : Ready2 m in1 in2 out w h) (d : OpenCl.Device total) :
    (∃ m', AbsoluteDifference in1 in2 out w h m = .ok () m' ∧ Runs (OpenCl.AbsoluteDifference total in1 in2 out w h) m (· = m')) ∧
    (∃ m', Maximum in1 in2 out w h m = .ok () m' ∧ Runs (OpenCl.Maximum total in1 in2 out w h) m (· = m')) ∧
    (∃ m', Minimum in1 in2 out w h m = .ok () m' ∧ Runs (OpenCl.Minimum total in1 in2 out w h) m (· = m')) := by
  refine ⟨?_, ?_, ?_⟩
  · obtain ⟨m', h1, h2⟩ := C09_absoluteDifference r
    exact ⟨m', h1, (C112_absoluteDifference r d).mono fun m'' h => h.unique h2⟩
  · obtain ⟨m', h1, h2⟩ := C11_maximum r
    exact ⟨m', h1, (C112_maximum r d).mono fun m'' h => h.unique h2⟩
  · obtain ⟨m', h1, h2⟩ := C11_minimum r
    exact ⟨m', h1, (C112_minimum r d).mono fun m'' h => h.unique h2⟩

example : afterSeq (OpenCl.AbsoluteDifference 2 ⟨tight 1, 0, 0⟩ ⟨padded 2, 0, 0⟩ ⟨tight 3, 0, 0⟩ 2 2) exMem 3 2
    = some (36 - 14) := by decide +kernel
example : afterSeq (OpenCl.Subtract 2 ⟨padded 3, 1, 0⟩ ⟨padded 2, 0, 1⟩ ⟨padded 1, 1, 1⟩ 1 1) exMem 1 5 = some 0 := by decide +kernel
example : afterSeq (OpenCl.Invert 2 ⟨tight 1, 0, 0⟩ ⟨padded 2, 0, 0⟩ 2 2) exMem 2 5 = some (255 - 19) := by decide +kernel
example : ARuns (OpenCl.IsEqual 2 ⟨padded 1, 0, 0⟩ ⟨tight 1, 0, 0⟩ 2 2) exMem fun r => r = false := by
  obtain ⟨L, hc, hA⟩ := C112_isEqual (one_padded 1 (by decide)) (one_tight 1 (by decide)) rfl exDevice
  refine ⟨L, hc, hA.mono fun r hr => ?_⟩
  cases r with
  | false => rfl
  | true => exact absurd (hr.1 rfl 1 1 0 (by decide) (by decide) (by decide)) (by decide)

/-! ### C113

  `OpenCl.swap v` is the rectangle of the same size with the coordinates of its corner exchanged.  The theorems `_exact` say
  what the calls do if that rectangle is in the image too; the theorems `_partial` say that this is right if the two coordinates are equal. -/

theorem thrK_spec (t a : UInt8) : Cuda.thrK t a = if t.toNat ≤ a.toNat then 255 else 0 := by
  unfold Cuda.thrK
  by_cases hc : a < t
  · rw [if_pos hc, if_neg (by have := UInt8.lt_iff_toNat_lt.1 hc; omega)]
  · rw [if_neg hc, if_pos (Nat.le_of_not_lt fun h => hc (UInt8.lt_iff_toNat_lt.2 h))]

theorem thr2K_spec (lo hi a : UInt8) : Cuda.thr2K lo hi a = if lo.toNat ≤ a.toNat ∧ a.toNat ≤ hi.toNat then 255 else 0 := by
  unfold Cuda.thr2K
  have e1 := UInt8.lt_iff_toNat_lt (a := a) (b := lo)
  have e2 := UInt8.lt_iff_toNat_lt (a := hi) (b := a)
  by_cases hc : a < lo ∨ a > hi
  · rw [if_pos hc, if_neg]
    intro hn
    rcases hc with hc | hc
    · have := e1.1 hc; omega
    · have := e2.1 hc; omega
  · rw [if_neg hc, if_pos]
    refine ⟨Nat.le_of_not_lt fun h => hc (Or.inl (e1.2 h)), Nat.le_of_not_lt fun h => hc (Or.inr (e2.2 h))⟩

theorem C113_threshold_exact {inp out : View} (t : UInt8) (r : Ready1 m inp out w h) (r' : Ready1 m (OpenCl.swap inp) out w h)
    (g : inp.img.cc = 1) (d : OpenCl.Device total) :
    Runs (OpenCl.Threshold total inp out w h t) m fun m' =>
      WritesRoi m m' out w h fun x y c => if t.toNat ≤ ((OpenCl.swap inp).get m x y c).toNat then 255 else 0 := by
  simp only [← thrK_spec]
  exact OpenCl.unaryGray_runs r r' g d

/-- **C113.** Threshold. -/
theorem C113_threshold_partial {inp out : View} (t : UInt8) (r : Ready1 m inp out w h) (g : inp.img.cc = 1) (d : OpenCl.Device total)
    (hd : inp.x = inp.y) :
    Runs (OpenCl.Threshold total inp out w h t) m fun m' =>
      WritesRoi m m' out w h fun x y c => if t.toNat ≤ (inp.get m x y c).toNat then 255 else 0 := by
  have e := OpenCl.swap_eq hd
  have := C113_threshold_exact t r (by rw [e]; exact r) g d
  rw [e] at this
  exact this

theorem C113_threshold2_exact {inp out : View} (lo hi : UInt8) (r : Ready1 m inp out w h) (r' : Ready1 m (OpenCl.swap inp) out w h)
    (g : inp.img.cc = 1) (d : OpenCl.Device total) :
    Runs (OpenCl.Threshold2 total inp out w h lo hi) m fun m' => WritesRoi m m' out w h fun x y c =>
      if lo.toNat ≤ ((OpenCl.swap inp).get m x y c).toNat ∧ ((OpenCl.swap inp).get m x y c).toNat ≤ hi.toNat then 255 else 0 := by
  simp only [← thr2K_spec]
  exact OpenCl.unaryGray_runs r r' g d

/-- **C113.** Threshold with two values. -/
theorem C113_threshold2_partial {inp out : View} (lo hi : UInt8) (r : Ready1 m inp out w h) (g : inp.img.cc = 1) (d : OpenCl.Device total)
    (hd : inp.x = inp.y) :
    Runs (OpenCl.Threshold2 total inp out w h lo hi) m fun m' => WritesRoi m m' out w h fun x y c =>
      if lo.toNat ≤ (inp.get m x y c).toNat ∧ (inp.get m x y c).toNat ≤ hi.toNat then 255 else 0 := by
  have e := OpenCl.swap_eq hd
  have := C113_threshold2_exact lo hi r (by rw [e]; exact r) g d
  rw [e] at this
  exact this

theorem C113_lookupTable_exact {inp out : View} (table : List UInt8) (hlen : table.length = 256) (r : Ready1 m inp out w h)
    (r' : Ready1 m (OpenCl.swap inp) out w h) (d : OpenCl.Device total) :
    Runs (OpenCl.LookupTable total inp out w h table) m fun m' => WritesRoi m m' out w h fun x y c =>
      table[((OpenCl.swap inp).get m x y c).toNat]'(by rw [hlen]; exact UInt8.toNat_lt _) :=
  OpenCl.lookup_runs hlen r r' d

/-- **C113.** LookupTable. -/
theorem C113_lookupTable_partial {inp out : View} (table : List UInt8) (hlen : table.length = 256) (r : Ready1 m inp out w h)
    (d : OpenCl.Device total) (hd : inp.x = inp.y) :
    Runs (OpenCl.LookupTable total inp out w h table) m fun m' => WritesRoi m m' out w h fun x y c =>
      table[(inp.get m x y c).toNat]'(by rw [hlen]; exact UInt8.toNat_lt _) := by
  have e := OpenCl.swap_eq hd
  have := C113_lookupTable_exact table hlen r (by rw [e]; exact r) d
  simp only [e] at this
  exact this

/-- **C113.** GammaCorrection of a gray-scale image makes the memory that the function on the host makes. -/
theorem C113_gammaCorrection_partial {rnd : ℚ → ℚ} (rr : Rounding rnd) {pow : ℚ → ℚ → ℚ} {a gamma : ℚ} (hp : PowOk pow gamma) (ha : 0 ≤ a)
    (hg : 0 ≤ gamma) {inp out : View} (r : Ready1 m inp out w h) (g : inp.img.cc = 1) (d : OpenCl.Device total) (hd : inp.x = inp.y) :
    ∃ m', GammaCorrection rnd pow inp out w h a gamma m = .ok () m' ∧
      Runs (OpenCl.GammaCorrection rnd pow total inp out w h a gamma) m (· = m') := by
  obtain ⟨t, h1, h2, h3⟩ := gammaTable_run rr hp ha
  have g' : out.img.cc = 1 := by rw [r.co, g]
  obtain ⟨m', h4, h5⟩ := C15_lookupTable t h2 r
  have hneg : (decide (a < 0) || decide (gamma < 0)) = false := by simp [ha, hg]
  refine ⟨m', ?_, ?_⟩
  · rw [GammaCorrection, bind_ok (Cuda.validate_ready r), GetGammaCorrectionLookupTable, hneg, throwIf_false, pure_bind', h1]
    exact h4
  · refine Cuda.Runs_congr ?_ ((C113_lookupTable_partial t h2 r d hd).mono fun m'' h => h.unique h5)
    rw [OpenCl.GammaCorrection, bind_ok (Cuda.validate_ready r), bind_ok (gray_ok (by simp [g, g'])), GetGammaCorrectionLookupTable, hneg,
      throwIf_false, pure_bind', h1]
    rfl

theorem C113_fill_exact {v : View} (o : One m v w h) (o' : One m (OpenCl.swap v) w h) (g : v.img.cc = 1) (value : UInt8) (d : OpenCl.Device total) :
    Runs (OpenCl.Fill total v w h value) m fun m' => WritesRoi m m' (OpenCl.swap v) w h fun _ _ _ => value :=
  OpenCl.fill_runs o o' g d

/-- **C113.** Fill. -/
theorem C113_fill_partial {v : View} (o : One m v w h) (g : v.img.cc = 1) (value : UInt8) (d : OpenCl.Device total) (hd : v.x = v.y) :
    Runs (OpenCl.Fill total v w h value) m fun m' => WritesRoi m m' v w h fun _ _ _ => value := by
  have e := OpenCl.swap_eq hd
  have := C113_fill_exact o (by rw [e]; exact o) g value d
  rw [e] at this
  exact this

theorem C113_histogram_exact {v : View} (o : One m v w h) (o' : One m (OpenCl.swap v) w h) (g : v.img.cc = 1) (d : OpenCl.Device total) :
    ARuns (OpenCl.Histogram total v w h) m fun hist => hist.length = 256 ∧
      (∀ a : UInt8, hist[a.toNat]?.map UInt32.toNat = some (occurrences m (OpenCl.swap v) w h a)) ∧ (hist.map UInt32.toNat).sum = w * h := by
  obtain ⟨s1, s2⟩ := OpenCl.fits_small o.wf o.fit
  refine ARuns_congr (c' := OpenCl.launchA total w h (guardedA w h (kernelHistogram (OpenCl.addr v.img.data (OpenCl.offXY v 1) v.img.rowSize)))
    (List.replicate 256 0) id) ?_ (OpenCl.launchA_runs d o.fit.wpos o.fit.hpos s1 s2 fun L hL hk hv hr => ?_)
  · rw [OpenCl.Histogram, bind_ok (validate_one o), bind_ok (gray_ok (by simp [g]))]
  · refine (histogram_always o' g hL (OpenCl.pixel_addr (v := OpenCl.swap v) o'.wf o'.fit rfl g (OpenCl.offXY_gray o.wf o'.fit g)) hk hv).mono ?_
    rintro r ⟨hist, rfl, h1, h2⟩
    obtain ⟨hist', _, e1, e2, e3⟩ := C24_histogram_partial o' g []
    have : hist = hist' := by
      apply List.ext_getElem?
      intro k
      by_cases hk : k < 256
      · obtain ⟨c', hc'⟩ : ∃ c', hist'[k]? = some c' := ⟨_, List.getElem?_eq_getElem (by omega)⟩
        have := e2 (UInt8.ofNat k)
        rw [ofNat_toNat' hk, hc', Option.map_some] at this
        rw [h2 k hk, hc', ← Option.some.inj this, UInt32.ofNat_toNat]
      · rw [List.getElem?_eq_none (by omega), List.getElem?_eq_none (by omega)]
    rw [hr]
    show hist.length = 256 ∧ _
    rw [this]
    exact ⟨e1, e2, e3⟩

/-- **C113.** Histogram. -/
theorem C113_histogram_partial {v : View} (o : One m v w h) (g : v.img.cc = 1) (d : OpenCl.Device total) (hd : v.x = v.y) :
    ARuns (OpenCl.Histogram total v w h) m fun hist => hist.length = 256 ∧
      (∀ a : UInt8, hist[a.toNat]?.map UInt32.toNat = some (occurrences m v w h a)) ∧ (hist.map UInt32.toNat).sum = w * h := by
  have e := OpenCl.swap_eq hd
  have := C113_histogram_exact o (by rw [e]; exact o) g d
  rw [e] at this
  exact this

theorem C113_copy_exact {inp out : View} (r : Ready1 m inp out w h) (r' : Ready1 m (OpenCl.swap inp) (OpenCl.second out) w h)
    (d : OpenCl.Device total) :
    Runs (OpenCl.Copy total inp out w h) m fun m' => WritesRoi m m' (OpenCl.second out) w h fun x y c => (OpenCl.swap inp).get m x y c :=
  OpenCl.copy_runs r r' d

/-- **C113.** Copy. -/
theorem C113_copy_partial {inp out : View} (r : Ready1 m inp out w h) (d : OpenCl.Device total) (hd : inp.x = inp.y) (hx : out.x = 0)
    (hy : out.y = 1) :
    Runs (OpenCl.Copy total inp out w h) m fun m' => WritesRoi m m' out w h fun x y c => inp.get m x y c := by
  have e := OpenCl.swap_eq hd
  have e' : OpenCl.second out = out := by
    obtain ⟨img, x, y⟩ := out
    have hx : x = 0 := hx
    have hy : y = 1 := hy
    subst hx hy
    rfl
  have := C113_copy_exact r (by rw [e, e']; exact r) d
  rw [e, e'] at this
  exact this

/-- **C113.** ExtractChannel. -/
theorem C113_extractChannel_partial {inp out : View} {ch : Nat} (p : Pair m inp w h out w h) (co : out.img.cc = 1) (hch : ch < inp.img.cc)
    (d : OpenCl.Device total) (hd : inp.x = inp.y) (hone : h = 1 ∨ inp.img.cc = 1) :
    Runs (OpenCl.ExtractChannel total inp out w h ch) m fun m' => WritesRoi m m' out w h fun x y _ => inp.get m x y ch :=
  OpenCl.extract_runs p co hch d hd hone

/-- **C113.** Flip. -/
theorem C113_flip_partial {inp out : View} (hor ver : Bool) (p : Pair m inp w h out w h) (ci : inp.img.cc = 1) (co : out.img.cc = 1)
    (d : OpenCl.Device total) (hf : (hor || ver) = true) (hw : w = inp.img.width) (hh : h = inp.img.height) :
    Runs (OpenCl.Flip total inp out w h hor ver) m fun m' =>
      WritesRoi m m' out w h fun x y c => inp.get m (mirror hor w x) (mirror ver h y) c :=
  OpenCl.flip_runs hor ver p ci co d hf hw hh

/-- **C113.** ConvertToGrayScale of an RGB image, and the mean of all channels in general. -/
theorem C113_convertToGrayScale_partial {inp out : View} (p : Pair m inp w h out w h) (ci : inp.img.cc ≠ 1) (co : out.img.cc = 1)
    (d : OpenCl.Device total) (hd : inp.x = inp.y) :
    OpenCl.Launches (OpenCl.ConvertToGrayScale total inp out w h) m fun m' => WritesRoi m m' out w h fun x y _ =>
      UInt8.ofNat (((List.range inp.img.cc).map fun c => (inp.get m x y c).toNat).sum / inp.img.cc) := by
  have e := OpenCl.swap_eq hd
  have := OpenCl.gray_runs p (by rw [e]; exact p) ci co d
  rw [e] at this
  exact this

/-- **C113.** ConvertToRgb of a gray-scale image. -/
theorem C113_convertToRgb_partial {inp out : View} (p : Pair m inp w h out w h) (ci : inp.img.cc = 1) (co : out.img.cc = 3)
    (d : OpenCl.Device total) (hd : inp.x = inp.y) :
    OpenCl.Launches (OpenCl.ConvertToRgb total inp out w h) m fun m' => WritesRoi m m' out w h fun x y _ => inp.get m x y 0 := by
  have e := OpenCl.swap_eq hd
  have := OpenCl.rgb_runs p (by rw [e]; exact p) ci co d
  rw [e] at this
  exact this

/-- **C113.** Calls that are refused. -/
theorem C113_rejects {inp out : View} :
    (Bad [inp, out] w h (out.img.cc = inp.img.cc) → OpenCl.Copy total inp out w h m = .throw m) ∧
    (∀ t lo hi, Bad [inp, out] w h (Gray1 inp out) →
      OpenCl.Threshold total inp out w h t m = .throw m ∧ OpenCl.Threshold2 total inp out w h lo hi m = .throw m) ∧
    (∀ table, Bad [inp, out] w h (out.img.cc = inp.img.cc ∧ table.length = 256) → OpenCl.LookupTable total inp out w h table m = .throw m) ∧
    (∀ value, Bad [out] w h (out.img.cc = 1) → OpenCl.Fill total out w h value m = .throw m) ∧
    (Bad [inp] w h (inp.img.cc = 1) → OpenCl.Histogram total inp w h m = .throw m) ∧
    (∀ ch, Bad [inp, out] w h (out.img.cc = 1 ∧ ch < inp.img.cc) → OpenCl.ExtractChannel total inp out w h ch m = .throw m) ∧
    (∀ hor ver, Bad [inp, out] w h (Gray1 inp out) → OpenCl.Flip total inp out w h hor ver m = .throw m) ∧
    (Bad [inp, out] w h (out.img.cc = 1) → OpenCl.ConvertToGrayScale total inp out w h m = .throw m) ∧
    (Bad [inp, out] w h (out.img.cc = 3) → OpenCl.ConvertToRgb total inp out w h m = .throw m) := by
  refine ⟨fun hb => rois_bad_then hb fun hc => bind_throw (common_throw ⟨out.img, by simp, hc⟩),
    fun t lo hi hb => ⟨rois_bad_then hb fun hc => bind_throw (Cuda.gray_pair_throw hc), rois_bad_then hb fun hc => bind_throw (Cuda.gray_pair_throw hc)⟩,
    fun table hb => rois_bad_then hb fun hc => ?_,
    fun value hb => rois_bad_then hb fun hc => bind_throw (gray_throw ⟨out.img, by simp, hc⟩),
    fun hb => rois_bad_then hb fun hc => bind_throw (gray_throw ⟨inp.img, by simp, hc⟩),
    fun ch hb => rois_bad_then hb fun hc => ?_,
    fun hor ver hb => rois_bad_then hb fun hc => bind_throw (Cuda.gray_pair_throw hc),
    fun hb => rois_bad_then hb fun hc => bind_throw (gray_throw ⟨out.img, by simp, hc⟩),
    fun hb => rois_bad_then hb fun hc => bind_throw (rgb_throw ⟨out.img, by simp, hc⟩)⟩
  · by_cases hl : table.length = 256
    · have : (table.length != 256) = false := by simp [hl]
      rw [this, throwIf_false, pure_bind', bind_throw (common_throw ⟨out.img, by simp, fun h => hc ⟨h, hl⟩⟩)]
    · have : (table.length != 256) = true := by simp [hl]
      rw [this]
      exact bind_throw (throwIf_true m)
  · by_cases h1 : out.img.cc = 1
    · have hd : decide (ch ≥ inp.img.cc) = true := by simp; exact Nat.le_of_not_lt fun h => hc ⟨h1, h⟩
      rw [bind_ok (gray_ok (by simp [h1])), hd]
      exact bind_throw (throwIf_true m)
    · exact bind_throw (gray_throw ⟨out.img, by simp, h1⟩)

/-- A 4 by 4 image. -/
abbrev square (b : Nat) : Image := ⟨b, 4, 4, 1, 4⟩

theorem wf_square {b : Nat} (hb : b ≠ 0) : (square b).WF exMem :=
  ⟨by simp [square], by simp [square, exMem, hb], by simp [square]⟩

theorem fits_square {b x y w h : Nat} (hb : b ≠ 0) (hw : 0 < w) (hh : 0 < h) (h1 : x + w ≤ 4) (h2 : y + h ≤ 4) :
    (⟨square b, x, y⟩ : View).Fits w h := ⟨hb, Or.inl rfl, hw, hh, h1, h2⟩

theorem ready_square {b b' x y x' y' w h : Nat} (hb : b ≠ 0) (hb' : b' ≠ 0) (hne : b ≠ b') (hw : 0 < w) (hh : 0 < h) (h1 : x + w ≤ 4)
    (h2 : y + h ≤ 4) (h3 : x' + w ≤ 4) (h4 : y' + h ≤ 4) : Ready1 exMem ⟨square b, x, y⟩ ⟨square b', x', y'⟩ w h :=
  ⟨wf_square hb, wf_square hb', fits_square hb hw hh h1 h2, fits_square hb' hw hh h3 h4, rfl, noClash_of_ne _ _ hne⟩

theorem one_square {b x y w h : Nat} (hb : b ≠ 0) (hw : 0 < w) (hh : 0 < h) (h1 : x + w ≤ 4) (h2 : y + h ≤ 4) : One exMem ⟨square b, x, y⟩ w h :=
  ⟨wf_square hb, fits_square hb hw hh h1 h2⟩

/-- **C113** fails for Threshold: of the pixel (1, 0), which is below the threshold, 255 is made. -/
theorem C113_threshold_wrong :
    Ready1 exMem ⟨square 1, 1, 0⟩ ⟨square 2, 0, 0⟩ 1 1 ∧ (⟨square 1, 1, 0⟩ : View).get exMem 0 0 0 = 11 ∧
    ∀ Q, Runs (OpenCl.Threshold 2 ⟨square 1, 1, 0⟩ ⟨square 2, 0, 0⟩ 1 1 20) exMem Q → ∃ m', Q m' ∧ (⟨square 2, 0, 0⟩ : View).get m' 0 0 0 = 255 :=
  ⟨ready_square (by decide) (by decide) (by decide) (by decide) (by decide) (by decide) (by decide) (by decide) (by decide), by decide,
    fun _ hr => runs_afterSeq hr (by decide +kernel)⟩

/-- The right half of an image of 8 by 2 pixels is read outside of the image. -/
theorem C113_threshold_outside :
    Ready1 exMem ⟨⟨1, 8, 2, 1, 8⟩, 4, 0⟩ ⟨square 2, 0, 0⟩ 4 2 ∧
    ∀ Q, ¬ Runs (OpenCl.Threshold 2 ⟨⟨1, 8, 2, 1, 8⟩, 4, 0⟩ ⟨square 2, 0, 0⟩ 4 2 20) exMem Q := by
  refine ⟨⟨⟨by decide, by decide, by decide⟩, ⟨by decide, by decide, by decide⟩, ⟨by decide, by decide, by decide, by decide, by decide, by decide⟩,
    ⟨by decide, by decide, by decide, by decide, by decide, by decide⟩, rfl, noClash_of_ne _ _ (by decide)⟩, fun Q hr => ?_⟩
  have h1 := runs_ubSeq hr
  have h2 : ubSeq (OpenCl.Threshold 2 ⟨⟨1, 8, 2, 1, 8⟩, 4, 0⟩ ⟨square 2, 0, 0⟩ 4 2 20) exMem = true := by decide +kernel
  rw [h2] at h1
  cases h1

/-- **C113** fails for LookupTable. -/
theorem C113_lookupTable_wrong :
    Ready1 exMem ⟨square 1, 1, 0⟩ ⟨square 2, 0, 0⟩ 1 1 ∧ (⟨square 1, 1, 0⟩ : View).get exMem 0 0 0 = 11 ∧
    ∀ Q, Runs (OpenCl.LookupTable 2 ⟨square 1, 1, 0⟩ ⟨square 2, 0, 0⟩ 1 1 ((List.range 256).map UInt8.ofNat)) exMem Q →
      ∃ m', Q m' ∧ (⟨square 2, 0, 0⟩ : View).get m' 0 0 0 = 26 :=
  ⟨ready_square (by decide) (by decide) (by decide) (by decide) (by decide) (by decide) (by decide) (by decide) (by decide), by decide,
    fun _ hr => runs_afterSeq hr (by decide +kernel)⟩

/-- **C113** fails for Fill: the pixel (1, 0) keeps its value, and (0, 1) is changed. -/
theorem C113_fill_wrong :
    One exMem ⟨square 1, 1, 0⟩ 1 1 ∧
    (∀ Q, Runs (OpenCl.Fill 2 ⟨square 1, 1, 0⟩ 1 1 77) exMem Q → ∃ m', Q m' ∧ (⟨square 1, 1, 0⟩ : View).get m' 0 0 0 = 11) ∧
    (∀ Q, Runs (OpenCl.Fill 2 ⟨square 1, 1, 0⟩ 1 1 77) exMem Q → ∃ m', Q m' ∧ (⟨square 1, 0, 1⟩ : View).get m' 0 0 0 = 77) :=
  ⟨one_square (by decide) (by decide) (by decide) (by decide) (by decide), fun _ hr => runs_afterSeq hr (by decide +kernel),
    fun _ hr => runs_afterSeq hr (by decide +kernel)⟩

/-- **C113** fails for Histogram: the value of the pixel (1, 0) is not counted. -/
theorem C113_histogram_wrong :
    One exMem ⟨square 1, 1, 0⟩ 1 1 ∧ occurrences exMem ⟨square 1, 1, 0⟩ 1 1 11 = 1 ∧
    ARuns (OpenCl.Histogram 2 ⟨square 1, 1, 0⟩ 1 1) exMem fun hist => hist[11]?.map UInt32.toNat = some 0 := by
  refine ⟨one_square (by decide) (by decide) (by decide) (by decide) (by decide), by decide, ?_⟩
  obtain ⟨L, h1, h2⟩ := C113_histogram_exact (total := 2) (v := ⟨square 1, 1, 0⟩) (w := 1) (h := 1)
    (one_square (by decide) (by decide) (by decide) (by decide) (by decide))
    (one_square (by decide) (by decide) (by decide) (by decide) (by decide)) rfl exDevice
  exact ⟨L, h1, h2.mono fun hist h => (h.2.1 11).trans (by decide)⟩

/-- **C113** fails for Copy: a copy of the upper left pixel goes to the row below the given one, and a copy of a
    whole image goes out of the image. -/
theorem C113_copy_wrong :
    (Ready1 exMem ⟨square 1, 0, 0⟩ ⟨square 2, 0, 0⟩ 1 1 ∧ (⟨square 1, 0, 0⟩ : View).get exMem 0 0 0 = 10 ∧
      ∀ Q, Runs (OpenCl.Copy 2 ⟨square 1, 0, 0⟩ ⟨square 2, 0, 0⟩ 1 1) exMem Q → ∃ m', Q m' ∧ (⟨square 2, 0, 0⟩ : View).get m' 0 0 0 = 20) ∧
    (Ready1 exMem ⟨square 1, 0, 0⟩ ⟨square 2, 0, 0⟩ 4 4 ∧ ∀ Q, ¬ Runs (OpenCl.Copy 2 ⟨square 1, 0, 0⟩ ⟨square 2, 0, 0⟩ 4 4) exMem Q) := by
  refine ⟨⟨ready_square (by decide) (by decide) (by decide) (by decide) (by decide) (by decide) (by decide) (by decide) (by decide), by decide,
    fun _ hr => runs_afterSeq hr (by decide +kernel)⟩,
    ready_square (by decide) (by decide) (by decide) (by decide) (by decide) (by decide) (by decide) (by decide) (by decide), fun Q hr => ?_⟩
  have h1 := runs_ubSeq hr
  have h2 : ubSeq (OpenCl.Copy 2 ⟨square 1, 0, 0⟩ ⟨square 2, 0, 0⟩ 4 4) exMem = true := by decide +kernel
  rw [h2] at h1
  cases h1

/-- **C113** fails for ExtractChannel: in the second row the column is multiplied once more by the number of colours and the
    image is left. -/
theorem C113_extractChannel_wrong :
    Pair exMem ⟨⟨1, 2, 2, 3, 6⟩, 0, 0⟩ 2 2 ⟨square 2, 0, 0⟩ 2 2 ∧
    ∀ Q, ¬ Runs (OpenCl.ExtractChannel 2 ⟨⟨1, 2, 2, 3, 6⟩, 0, 0⟩ ⟨square 2, 0, 0⟩ 2 2 1) exMem Q := by
  refine ⟨⟨⟨by decide, by decide, by decide⟩, ⟨by decide, by decide, by decide⟩, ⟨by decide, by decide, by decide, by decide, by decide, by decide⟩,
    ⟨by decide, by decide, by decide, by decide, by decide, by decide⟩, apart_of_ne _ _ _ _ (by decide)⟩, fun Q hr => ?_⟩
  have h1 := runs_ubSeq hr
  have h2 : ubSeq (OpenCl.ExtractChannel 2 ⟨⟨1, 2, 2, 3, 6⟩, 0, 0⟩ ⟨square 2, 0, 0⟩ 2 2 1) exMem = true := by decide +kernel
  rw [h2] at h1
  cases h1

/-- **C113** fails for Flip of a part of an image: 2 by 2 pixels are asked for, but a pixel outside of them is changed. -/
theorem C113_flip_wrong :
    Ready1 exMem ⟨square 1, 0, 0⟩ ⟨square 2, 0, 0⟩ 2 2 ∧ exMem.byte 2 15 = 245 ∧
    ∀ Q, Runs (OpenCl.Flip 2 ⟨square 1, 0, 0⟩ ⟨square 2, 0, 0⟩ 2 2 true false) exMem Q → ∃ m', Q m' ∧ m'.byte 2 15 = 154 :=
  ⟨ready_square (by decide) (by decide) (by decide) (by decide) (by decide) (by decide) (by decide) (by decide) (by decide), by decide,
    fun _ hr => runs_afterSeq hr (by decide +kernel)⟩

/-- **C113** fails for ConvertToGrayScale of gray-scale images and ConvertToRgb of RGB images, all of them if the two images differ in size: though
    the rectangles are in order, the call is refused. -/
theorem C113_convert_wrong {inp out : View} (p : Pair m inp w h out w h) (hne : inp.img.width ≠ out.img.width ∨ inp.img.height ≠ out.img.height) :
    (inp.img.cc = 1 → out.img.cc = 1 → OpenCl.ConvertToGrayScale total inp out w h m = .throw m) ∧
    (inp.img.cc = 3 → out.img.cc = 3 → OpenCl.ConvertToRgb total inp out w h m = .throw m) := by
  have hd : decide (inp.img.width ≠ out.img.width ∨ inp.img.height ≠ out.img.height) = true := by simpa using hne
  refine ⟨fun ci co => ?_, fun ci co => ?_⟩
  · have hb : (inp.img.cc == 1) = true := by simp [ci]
    rw [OpenCl.ConvertToGrayScale, bind_ok (Cuda.validate_pair p), bind_ok (gray_ok (by simp [co])), hb, hd]
    exact bind_throw (throwIf_true m)
  · have hb : (inp.img.cc == 3) = true := by simp [ci]
    rw [OpenCl.ConvertToRgb, bind_ok (Cuda.validate_pair p), bind_ok (rgb_ok (by simp [co])), hb, hd]
    exact bind_throw (throwIf_true m)

/-- **C113** fails for Normalize: it is refused, whatever the arguments. -/
theorem C113_normalize_wrong {inp out : View} (r : Ready1 m inp out w h) : OpenCl.Normalize inp out w h m = .throw m := by
  rw [OpenCl.Normalize, bind_ok (Cuda.validate_ready r), bind_ok (common_ok (by simp [r.co]))]
  exact bind_throw (throwIf_true m)

example : afterSeq (OpenCl.Threshold 2 ⟨square 1, 1, 1⟩ ⟨square 2, 2, 0⟩ 2 2 60) exMem 2 6 = some 255 := by decide +kernel
example : Runs (OpenCl.Threshold 2 ⟨square 1, 1, 1⟩ ⟨square 2, 2, 0⟩ 2 2 60) exMem fun m' =>
      WritesRoi exMem m' ⟨square 2, 2, 0⟩ 2 2 fun x y c => if 60 ≤ ((⟨square 1, 1, 1⟩ : View).get exMem x y c).toNat then 255 else 0 :=
  C113_threshold_partial 60 (ready_square (by decide) (by decide) (by decide) (by decide) (by decide) (by decide) (by decide) (by decide) (by decide))
    rfl exDevice rfl
example : Runs (OpenCl.Fill 2 ⟨square 1, 2, 2⟩ 2 2 77) exMem fun m' => WritesRoi exMem m' ⟨square 1, 2, 2⟩ 2 2 fun _ _ _ => 77 :=
  C113_fill_partial (one_square (by decide) (by decide) (by decide) (by decide) (by decide)) rfl 77 exDevice rfl
example : Runs (OpenCl.Copy 2 ⟨square 1, 1, 1⟩ ⟨square 2, 0, 1⟩ 3 3) exMem fun m' =>
      WritesRoi exMem m' ⟨square 2, 0, 1⟩ 3 3 fun x y c => (⟨square 1, 1, 1⟩ : View).get exMem x y c :=
  C113_copy_partial (ready_square (by decide) (by decide) (by decide) (by decide) (by decide) (by decide) (by decide) (by decide) (by decide))
    exDevice rfl rfl rfl
example : afterSeq (OpenCl.Flip 2 ⟨square 1, 0, 0⟩ ⟨square 2, 0, 0⟩ 4 4 true true) exMem 2 15 = some 10 := by decide +kernel

end PV.Props
