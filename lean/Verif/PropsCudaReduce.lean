import Verif.CudaReduce
import Verif.PropsCuda
/-
  Property C111: Histogram, IsEqual and ProjectionProfile on a CUDA device.
-/
namespace PV.Props
open PV.Cuda (launchA_runs ARuns_congr validate_one)

/-- Every order of the accesses gives the exact numbers of occurrences. -/
theorem C111_histogram {d : CudaDevice} {m : BMem} {v : View} {w h : Nat} (o : One m v w h) (g : v.img.cc = 1) (s : d.Serves w h) :
    ARuns (Cuda.Histogram d v w h) m fun hist => hist.length = 256 ∧
      (∀ a : UInt8, hist[a.toNat]?.map UInt32.toNat = some (occurrences m v w h a)) ∧ (hist.map UInt32.toNat).sum = w * h := by
  refine ARuns_congr (c' := Cuda.launchA d w h (guardedA w h (kernelHistogram (Cuda.idxAddr (Cuda.base v 1) v.img.rowSize)))
    (List.replicate 256 0) id) ?_ (launchA_runs s o.fit.wpos o.fit.hpos fun L hL hk hv hr => ?_)
  · rw [Cuda.Histogram, bind_ok (validate_one o), bind_ok (gray_ok (by simp [g]))]
  · refine (histogram_always o g hL (Cuda.pixel_addr o.wf o.fit rfl g (Or.inr rfl)) hk hv).mono ?_
    rintro r ⟨hist, rfl, h1, h2⟩
    obtain ⟨hist', _, e1, e2, e3⟩ := C24_histogram_partial o g []
    have : hist = hist' := by
      apply List.ext_getElem?
      intro k
      by_cases hk : k < 256
      · obtain ⟨c', hc'⟩ : ∃ c', hist'[k]? = some c' := ⟨_, List.getElem?_eq_getElem (by omega)⟩
        have := e2 (UInt8.ofNat k)
        rw [ofNat_toNat' hk, hc', Option.map_some] at this
        rw [h2 k hk, hc', ← Option.some.inj this, UInt32.ofNat_toNat]
      · rw [List.getElem?_eq_none (by omega), List.getElem?_eq_none (by omega)]
    rw [hr]
    show hist.length = 256 ∧ _
    rw [this]
    exact ⟨e1, e2, e3⟩

/-- `IsEqual` says whether all bytes are equal. -/
theorem C111_isEqual {d : CudaDevice} {m : BMem} {in1 in2 : View} {w h : Nat} (o1 : One m in1 w h) (o2 : One m in2 w h)
    (cc : in2.img.cc = in1.img.cc) (s : d.Serves (w * in1.img.cc) h) :
    ARuns (Cuda.IsEqual d in1 in2 w h) m fun r =>
      (r = true ↔ ∀ x y c, x < w → y < h → c < in1.img.cc → in1.get m x y c = in2.get m x y c) := by
  obtain ⟨h1, _, _, _, _, _, _, _, h9, _⟩ := View.facts o1.wf o1.fit
  refine ARuns_congr (c' := Cuda.launchA d (w * in1.img.cc) h (guardedA (w * in1.img.cc) h (kernelAllEqual
    (Cuda.idxAddr (Cuda.base in1 in1.img.cc) in1.img.rowSize) (Cuda.idxAddr (Cuda.base in2 in1.img.cc) in2.img.rowSize))) [1] fun vec => vec != [0])
    ?_ (launchA_runs s (Nat.mul_pos o1.fit.wpos h1) o1.fit.hpos fun L hL hk hv hr => ?_)
  · rw [Cuda.IsEqual, bind_ok (validate_pre_ok (vs := [in1, in2]) (by simp; exact ⟨⟨o1.wf, o1.fit⟩, o2.wf, o2.fit⟩)),
      bind_ok (common_ok (by simp [cc])), u32_of_lt h9]
  · refine (allEqual_always o1 o2 cc hL (Cuda.addr_of o1.wf o1.fit rfl h1 (Or.inr rfl)) (Cuda.addr_of o2.wf o2.fit cc h1 (Or.inr rfl)) hk hv).mono ?_
    rintro r ⟨e, rfl, he⟩
    rw [hr, ← he]
    simp

theorem C111_projection_horizontal {d : CudaDevice} {m : BMem} {v : View} {w h : Nat} (o : One m v w h) (s : d.Serves (w * v.img.cc) h) :
    ARuns (Cuda.ProjectionProfile d v w h true) m fun prof => prof.length = w * v.img.cc ∧
      ∀ k, k < w * v.img.cc → prof[k]? = some (UInt32.ofNat (columnSum m v h k)) := by
  obtain ⟨h1, _, _, _, _, _, _, _, h9, _⟩ := View.facts o.wf o.fit
  refine ARuns_congr (c' := Cuda.launchA d (w * v.img.cc) h (guardedA (w * v.img.cc) h (kernelProjection true
    (Cuda.ptrAddr (Cuda.base v v.img.cc) v.img.rowSize))) (List.replicate (w * v.img.cc) 0) id)
    ?_ (launchA_runs s (Nat.mul_pos o.fit.wpos h1) o.fit.hpos fun L hL hk hv hr => ?_)
  · rw [Cuda.ProjectionProfile, bind_ok (validate_one o), u32_of_lt h9, if_pos rfl]
  · refine (projection_horizontal o hL (Cuda.addr_of o.wf o.fit rfl h1 (Or.inl rfl)) hk hv).mono ?_
    rintro r ⟨prof, rfl, e1, e2⟩
    rw [hr]
    exact ⟨e1, e2⟩

theorem C111_projection_vertical {d : CudaDevice} {m : BMem} {v : View} {w h : Nat} (o : One m v w h) (s : d.Serves (w * v.img.cc) h) :
    ARuns (Cuda.ProjectionProfile d v w h false) m fun prof => prof.length = h ∧
      ∀ y, y < h → prof[y]? = some (UInt32.ofNat (rowSum m v (w * v.img.cc) y)) := by
  obtain ⟨h1, _, _, _, _, _, _, _, h9, _⟩ := View.facts o.wf o.fit
  refine ARuns_congr (c' := Cuda.launchA d (w * v.img.cc) h (guardedA (w * v.img.cc) h (kernelProjection false
    (Cuda.ptrAddr (Cuda.base v v.img.cc) v.img.rowSize))) (List.replicate h 0) id)
    ?_ (launchA_runs s (Nat.mul_pos o.fit.wpos h1) o.fit.hpos fun L hL hk hv hr => ?_)
  · rw [Cuda.ProjectionProfile, bind_ok (validate_one o), u32_of_lt h9, if_neg (by decide)]
  · refine (projection_vertical o hL (Cuda.addr_of o.wf o.fit rfl h1 (Or.inl rfl)) hk hv).mono ?_
    rintro r ⟨prof, rfl, e1, e2⟩
    rw [hr]
    exact ⟨e1, e2⟩

/-- The device gives what the host gives. -/
theorem C111_same_as_host {d : CudaDevice} {m : BMem} {v in2 : View} {w h : Nat} (o : One m v w h) (o2 : One m in2 w h) (s : d.Serves (w * v.img.cc) h)
    (vec : List UInt32) :
    (v.img.cc = 1 → ARuns (Cuda.Histogram d v w h) m fun hist => PV.Histogram v w h (m, vec) = .ok () (m, hist)) ∧
    (in2.img.cc = v.img.cc → ARuns (Cuda.IsEqual d v in2 w h) m fun r => PV.IsEqual v in2 w h m = .ok r m) ∧
    (∀ hor, ARuns (Cuda.ProjectionProfile d v w h hor) m fun prof => PV.ProjectionProfile v w h hor (m, vec) = .ok () (m, prof)) := by
  refine ⟨fun g => ?_, fun cc => ?_, fun hor => ?_⟩
  · have s' : d.Serves w h := by rw [g, Nat.mul_one] at s; exact s
    obtain ⟨L, hc, hA⟩ := C111_histogram o g s'
    refine ⟨L, hc, hA.mono ?_⟩
    rintro hist ⟨h1, h2, _⟩
    obtain ⟨hist', e0, e1, e2, e3⟩ := C24_histogram_partial o g vec
    have : hist = hist' := by
      apply List.ext_getElem?
      intro k
      by_cases hk : k < 256
      · have a := h2 (UInt8.ofNat k)
        have b := e2 (UInt8.ofNat k)
        rw [ofNat_toNat' hk] at a b
        rw [List.getElem?_eq_getElem (by omega)] at a b ⊢
        rw [List.getElem?_eq_getElem (by omega)]
        simp only [Option.map_some, Option.some.injEq] at a b
        rw [UInt32.toNat_inj.1 (a.trans b.symm)]
      · rw [List.getElem?_eq_none (by omega), List.getElem?_eq_none (by omega)]
    rw [this, e0]
  · obtain ⟨L, hc, hA⟩ := C111_isEqual o o2 cc s
    refine ⟨L, hc, hA.mono fun r hr => ?_⟩
    obtain ⟨r', e, hr'⟩ := C28_isEqual o o2 cc
    rw [e, Bool.eq_iff_iff.2 (hr'.trans hr.symm)]
  · cases hor with
    | true =>
      obtain ⟨L, hc, hA⟩ := C111_projection_horizontal o s
      refine ⟨L, hc, hA.mono ?_⟩
      rintro prof ⟨h1, h2⟩
      obtain ⟨prof', e0, e1, e2⟩ := C26_projection_horizontal o vec
      have : prof = prof' := by
        apply List.ext_getElem?
        intro k
        by_cases hk : k < w * v.img.cc
        · rw [h2 k hk, e2 k hk]
        · rw [List.getElem?_eq_none (by omega), List.getElem?_eq_none (by omega)]
      rw [this, e0]
    | false =>
      obtain ⟨L, hc, hA⟩ := C111_projection_vertical o s
      refine ⟨L, hc, hA.mono ?_⟩
      rintro prof ⟨h1, h2⟩
      obtain ⟨prof', e0, e1, e2⟩ := C26_projection_vertical o vec
      have : prof = prof' := by
        apply List.ext_getElem?
        intro k
        by_cases hk : k < h
        · rw [h2 k hk, e2 k hk]
        · rw [List.getElem?_eq_none (by omega), List.getElem?_eq_none (by omega)]
      rw [this, e0]

theorem C111_rejects {d : CudaDevice} {m : BMem} {v in2 : View} {w h : Nat} {hor : Bool} :
    (Bad [v] w h (v.img.cc = 1) → Cuda.Histogram d v w h m = .throw m) ∧
    (Bad [v, in2] w h (in2.img.cc = v.img.cc) → Cuda.IsEqual d v in2 w h m = .throw m) ∧
    (Bad [v] w h True → Cuda.ProjectionProfile d v w h hor m = .throw m) :=
  ⟨fun hb => rois_bad_then hb fun hc => bind_throw (gray_throw ⟨v.img, by simp, hc⟩),
    fun hb => rois_bad_then hb fun hc => bind_throw (common_throw ⟨in2.img, by simp, hc⟩),
    fun hb => rois_bad_then hb fun hc => absurd trivial hc⟩

/-- A 2 by 2 image with padded rows on a device with blocks of 32 by 32 threads. -/
example : ARuns (Cuda.Histogram card ⟨padded 1, 0, 0⟩ 2 2) exMem fun hist => hist.length = 256 ∧
    (∀ a : UInt8, hist[a.toNat]?.map UInt32.toNat = some (occurrences exMem ⟨padded 1, 0, 0⟩ 2 2 a)) ∧ (hist.map UInt32.toNat).sum = 2 * 2 :=
  C111_histogram (one_padded 1 (by decide)) rfl (card_serves (by decide) (by decide))
example : occurrences exMem ⟨padded 1, 0, 0⟩ 2 2 26 = 1 := by decide
example : ARuns (Cuda.IsEqual card ⟨padded 1, 0, 0⟩ ⟨tight 1, 0, 0⟩ 2 2) exMem fun r => r = false := by
  obtain ⟨L, hc, hA⟩ := C111_isEqual (d := card) (one_padded 1 (by decide)) (one_tight 1 (by decide)) rfl (card_serves (by decide) (by decide))
  refine ⟨L, hc, hA.mono fun r hr => ?_⟩
  cases r with
  | false => rfl
  | true => exact absurd (hr.1 rfl 1 1 0 (by decide) (by decide) (by decide)) (by decide)
example : ARuns (Cuda.ProjectionProfile card ⟨padded 1, 0, 0⟩ 2 2 true) exMem fun prof => prof = [36, 46] := by
  obtain ⟨L, hc, hA⟩ := C111_projection_horizontal (d := card) (one_padded 1 (by decide)) (card_serves (by decide) (by decide))
  refine ⟨L, hc, hA.mono ?_⟩
  rintro prof ⟨h1, h2⟩
  apply List.ext_getElem?
  intro k
  match k with
  | 0 => rw [h2 0 (by decide)]; decide
  | 1 => rw [h2 1 (by decide)]; decide
  | k + 2 =>
    have : prof.length = 2 := h1
    rw [List.getElem?_eq_none (by omega)]
    rfl

end PV.Props
