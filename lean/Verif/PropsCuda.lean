import Verif.CudaLemmas
import Verif.GpuSeq
import Verif.PropsGpuGrid
/-
  C108: functions of two images on a CUDA device.  C109: functions of one image.  C110: colours and Flip.

  `Runs call m Q`: the call returns a launch; whatever the order in which the threads make their accesses, no access is
  outside an image, all threads come to their end, and then the memory satisfies `Q`.
  `d.Serves w h`: the limits of the device are large enough for a launch of w by h threads.
-/
namespace PV.Props

/-! ### Examples of devices -/

theorem card_serves {w h : Nat} (hw : w ≤ 2 ^ 30) (hh : h ≤ 65535) : card.Serves w h := by
  refine ⟨by decide, by decide, by decide, by decide, fun t h0 h1 => ?_, fun t h0 h1 => ?_, ?_, ?_⟩
  · have h1 : t ≤ 1024 := h1
    have key : ∀ t, t < 1025 → 0 < t → 2 ^ 30 ≤ t * 2147483647 % 4294967296 := by decide +kernel
    exact Nat.le_trans hw (key t (by omega) h0)
  · have h1 : t ≤ 1024 := h1
    show h ≤ t * 65535 % 4294967296
    rw [Nat.mod_eq_of_lt (by omega)]
    omega
  · show w + 1024 ≤ _
    omega
  · show h + 1024 ≤ _
    omega

/-- A device with two threads in a block. -/
def small : CudaDevice := ⟨2, ⟨2, 1, 1⟩, ⟨100, 100, 100⟩⟩

theorem small_serves {w h : Nat} (hw : w ≤ 100) (hh : h ≤ 100) : small.Serves w h := by
  refine ⟨by decide, by decide, by decide, by decide, fun t h0 h1 => ?_, fun t h0 h1 => ?_, ?_, ?_⟩
  · have h1 : t ≤ 2 := h1
    show w ≤ t * 100 % 4294967296
    rw [Nat.mod_eq_of_lt (by omega)]
    omega
  · have h1 : t ≤ 2 := h1
    show h ≤ t * 100 % 4294967296
    rw [Nat.mod_eq_of_lt (by omega)]
    omega
  · show w + 2 ≤ _
    omega
  · show h + 2 ≤ _
    omega

/-- A byte after a call, when the threads run one after the other. -/
def afterSeq (call : M BMem Launch) (m : BMem) (b i : Nat) : Option UInt8 :=
  match call m with
  | .ok L _ => after (L.seq m) b i
  | _ => none

/-- The call leads to undefined behaviour, when the threads run one after the other. -/
def ubSeq (call : M BMem Launch) (m : BMem) : Bool :=
  match call m with
  | .ok L _ => match L.seq m with
    | .ub => true
    | _ => false
  | _ => false

theorem runs_afterSeq {call : M BMem Launch} {m : BMem} {Q : BMem → Prop} {b i : Nat} {v : UInt8} (h : Runs call m Q)
    (ha : afterSeq call m b i = some v) : ∃ m', Q m' ∧ m'.byte b i = v := by
  obtain ⟨L, h1, h2⟩ := h
  rw [afterSeq, h1] at ha
  simp only at ha
  cases hs : L.seq m with
  | ok u m' =>
    rw [hs] at ha
    exact ⟨m', h2.seq hs, Option.some.inj ha⟩
  | throw m' => rw [hs] at ha; cases ha
  | ub => rw [hs] at ha; cases ha

theorem runs_ubSeq {call : M BMem Launch} {m : BMem} {Q : BMem → Prop} (h : Runs call m Q) : ubSeq call m = false := by
  obtain ⟨L, h1, h2⟩ := h
  rw [ubSeq, h1]
  simp only
  cases hs : L.seq m with
  | ok u m' => rfl
  | throw m' => rfl
  | ub => exact absurd hs h2.seq_ub

/-! ### C108 -/

theorem absDiffK_spec (a b : UInt8) : Cuda.absDiffK a b = specAbsDiff a b := by
  apply UInt8.toNat_inj.1
  have ha := a.toNat_lt
  have hb := b.toNat_lt
  rw [specAbsDiff, ofNat_toNat' (by omega), Cuda.absDiffK]
  split
  · rename_i h
    have h' : b.toNat < a.toNat := UInt8.lt_iff_toNat_lt.1 h
    rw [UInt8.toNat_sub_of_le _ _ (UInt8.le_iff_toNat_le.2 (by omega))]
    omega
  · rename_i h
    have h' : ¬ b.toNat < a.toNat := fun hh => h (UInt8.lt_iff_toNat_lt.2 hh)
    rw [UInt8.toNat_sub_of_le _ _ (UInt8.le_iff_toNat_le.2 (by omega))]
    omega

theorem maxK_spec (a b : UInt8) : Cuda.maxK a b = specMax a b := by
  apply UInt8.toNat_inj.1
  have ha := a.toNat_lt
  have hb := b.toNat_lt
  have hm : Nat.max a.toNat b.toNat < 256 := Nat.max_lt.mpr ⟨ha, hb⟩
  rw [specMax, ofNat_toNat' hm, Cuda.maxK]
  split
  · rename_i h
    have h' : b.toNat < a.toNat := UInt8.lt_iff_toNat_lt.1 h
    exact (Nat.max_eq_left (by omega)).symm
  · rename_i h
    have h' : ¬ b.toNat < a.toNat := fun hh => h (UInt8.lt_iff_toNat_lt.2 hh)
    exact (Nat.max_eq_right (by omega)).symm

theorem minK_spec (a b : UInt8) : Cuda.minK a b = specMin a b := by
  rw [← minE_spec]
  rfl

theorem subK_spec (a b : UInt8) : Cuda.subK a b = specSub a b := by
  apply UInt8.toNat_inj.1
  have ha := a.toNat_lt
  rw [specSub, ofNat_toNat' (by omega), Cuda.subK]
  split
  · rename_i h
    have h' : b.toNat < a.toNat := UInt8.lt_iff_toNat_lt.1 h
    rw [UInt8.toNat_sub_of_le _ _ (UInt8.le_iff_toNat_le.2 (by omega))]
  · rename_i h
    have h' : ¬ b.toNat < a.toNat := fun hh => h (UInt8.lt_iff_toNat_lt.2 hh)
    show 0 = _
    omega

variable {d : CudaDevice} {m : BMem} {w h : Nat}

/-- **C108.** AbsoluteDifference. -/
theorem C108_absoluteDifference {in1 in2 out : View} (r : Ready2 m in1 in2 out w h) (s : d.Serves (w * out.img.cc) h) :
    Runs (Cuda.AbsoluteDifference d in1 in2 out w h) m fun m' =>
      WritesRoi m m' out w h fun x y c => specAbsDiff (in1.get m x y c) (in2.get m x y c) := by
  simp only [← absDiffK_spec]
  exact Cuda.binary_runs (Or.inl rfl) r s

/-- **C108.** Maximum. -/
theorem C108_maximum {in1 in2 out : View} (r : Ready2 m in1 in2 out w h) (s : d.Serves (w * out.img.cc) h) :
    Runs (Cuda.Maximum d in1 in2 out w h) m fun m' =>
      WritesRoi m m' out w h fun x y c => specMax (in1.get m x y c) (in2.get m x y c) := by
  simp only [← maxK_spec]
  exact Cuda.binary_runs (Or.inl rfl) r s

/-- **C108.** Minimum. -/
theorem C108_minimum {in1 in2 out : View} (r : Ready2 m in1 in2 out w h) (s : d.Serves (w * out.img.cc) h) :
    Runs (Cuda.Minimum d in1 in2 out w h) m fun m' =>
      WritesRoi m m' out w h fun x y c => specMin (in1.get m x y c) (in2.get m x y c) := by
  simp only [← minK_spec]
  exact Cuda.binary_runs (Or.inl rfl) r s

/-- **C108.** Subtract. -/
theorem C108_subtract {in1 in2 out : View} (r : Ready2 m in1 in2 out w h) (s : d.Serves (w * out.img.cc) h) :
    Runs (Cuda.Subtract d in1 in2 out w h) m fun m' =>
      WritesRoi m m' out w h fun x y c => specSub (in1.get m x y c) (in2.get m x y c) := by
  simp only [← subK_spec]
  exact Cuda.binary_runs (Or.inl rfl) r s

/-- **C108.** BitwiseAnd. -/
theorem C108_bitwiseAnd {in1 in2 out : View} (r : Ready2 m in1 in2 out w h) (s : d.Serves (w * out.img.cc) h) :
    ∃ F, Runs (Cuda.BitwiseAnd d in1 in2 out w h) m (fun m' => WritesRoi m m' out w h F) ∧
      ∀ x y c k, bit (F x y c) k = (bit (in1.get m x y c) k && bit (in2.get m x y c) k) :=
  ⟨_, Cuda.binary_runs (Or.inr rfl) r s, fun x y c k => by simp only [bit, UInt8.toNat_and, Nat.testBit_and]⟩

/-- **C108.** BitwiseOr. -/
theorem C108_bitwiseOr {in1 in2 out : View} (r : Ready2 m in1 in2 out w h) (s : d.Serves (w * out.img.cc) h) :
    ∃ F, Runs (Cuda.BitwiseOr d in1 in2 out w h) m (fun m' => WritesRoi m m' out w h F) ∧
      ∀ x y c k, bit (F x y c) k = (bit (in1.get m x y c) k || bit (in2.get m x y c) k) :=
  ⟨_, Cuda.binary_runs (Or.inr rfl) r s, fun x y c k => by simp only [bit, UInt8.toNat_or, Nat.testBit_or]⟩

/-- **C108.** BitwiseXor. -/
theorem C108_bitwiseXor {in1 in2 out : View} (r : Ready2 m in1 in2 out w h) (s : d.Serves (w * out.img.cc) h) :
    ∃ F, Runs (Cuda.BitwiseXor d in1 in2 out w h) m (fun m' => WritesRoi m m' out w h F) ∧
      ∀ x y c k, bit (F x y c) k = (bit (in1.get m x y c) k != bit (in2.get m x y c) k) :=
  ⟨_, Cuda.binary_runs (Or.inr rfl) r s, fun x y c k => by simp only [bit, UInt8.toNat_xor, Nat.testBit_xor]⟩

/-- **C108.** Calls that are refused. -/
theorem C108_rejects {in1 in2 out : View} (hb : Bad [in1, in2, out] w h (SameColors2 in1 in2 out)) :
    Cuda.AbsoluteDifference d in1 in2 out w h m = .throw m ∧ Cuda.BitwiseAnd d in1 in2 out w h m = .throw m ∧
    Cuda.BitwiseOr d in1 in2 out w h m = .throw m ∧ Cuda.BitwiseXor d in1 in2 out w h m = .throw m ∧
    Cuda.Maximum d in1 in2 out w h m = .throw m ∧ Cuda.Minimum d in1 in2 out w h m = .throw m ∧
    Cuda.Subtract d in1 in2 out w h m = .throw m :=
  ⟨Cuda.binary_bad hb, Cuda.binary_bad hb, Cuda.binary_bad hb, Cuda.binary_bad hb, Cuda.binary_bad hb, Cuda.binary_bad hb,
    Cuda.binary_bad hb⟩

/-- **C108.** The memory is at the end the one that the function on the host makes of the same contents
    (Subtract is missing: on the host it is wrong for some padded images, C12). -/
theorem C108_as_host {in1 in2 out : View} (r : Ready2 m in1 in2 out w h) (s : d.Serves (w * out.img.cc) h) :
    (∃ m', AbsoluteDifference in1 in2 out w h m = .ok () m' ∧ Runs (Cuda.AbsoluteDifference d in1 in2 out w h) m (· = m')) ∧
    (∃ m', Maximum in1 in2 out w h m = .ok () m' ∧ Runs (Cuda.Maximum d in1 in2 out w h) m (· = m')) ∧
    (∃ m', Minimum in1 in2 out w h m = .ok () m' ∧ Runs (Cuda.Minimum d in1 in2 out w h) m (· = m')) := by
  refine ⟨?_, ?_, ?_⟩
  · obtain ⟨m', h1, h2⟩ := C09_absoluteDifference r
    exact ⟨m', h1, (C108_absoluteDifference r s).mono fun m'' h => h.unique h2⟩
  · obtain ⟨m', h1, h2⟩ := C11_maximum r
    exact ⟨m', h1, (C108_maximum r s).mono fun m'' h => h.unique h2⟩
  · obtain ⟨m', h1, h2⟩ := C11_minimum r
    exact ⟨m', h1, (C108_minimum r s).mono fun m'' h => h.unique h2⟩

example : card.Serves (2 * (⟨tight 3, 0, 0⟩ : View).img.cc) 2 := card_serves (by decide) (by decide)
example : afterSeq (Cuda.AbsoluteDifference small ⟨tight 1, 0, 0⟩ ⟨padded 2, 0, 0⟩ ⟨tight 3, 0, 0⟩ 2 2) exMem 3 2
    = some (36 - 14) := by decide +kernel
example : afterSeq (Cuda.BitwiseXor small ⟨tight 1, 0, 0⟩ ⟨padded 2, 0, 0⟩ ⟨tight 3, 0, 0⟩ 2 2) exMem 3 2
    = some (36 ^^^ 14) := by decide +kernel

/-! ### C109 -/

/-- **C109.** Copy. -/
theorem C109_copy {inp out : View} (r : Ready1 m inp out w h) (s : d.Serves (w * out.img.cc) h) :
    Runs (Cuda.Copy d inp out w h) m fun m' => WritesRoi m m' out w h fun x y c => inp.get m x y c :=
  (Cuda.unary_runs (f := id) r s).mono fun _ h => h

/-- **C109.** Invert. -/
theorem C109_invert {inp out : View} (r : Ready1 m inp out w h) (s : d.Serves (w * out.img.cc) h) :
    Runs (Cuda.Invert d inp out w h) m fun m' =>
      WritesRoi m m' out w h fun x y c => UInt8.ofNat (255 - (inp.get m x y c).toNat) := by
  simp only [← invert_spec]
  exact Cuda.unary_runs r s

/-- **C109.** Threshold with one value. -/
theorem C109_threshold {inp out : View} (t : UInt8) (r : Ready1 m inp out w h) (g : inp.img.cc = 1) (s : d.Serves w h) :
    Runs (Cuda.Threshold d inp out w h t) m fun m' =>
      WritesRoi m m' out w h fun x y c => if t.toNat ≤ (inp.get m x y c).toNat then 255 else 0 := by
  have e : ∀ a : UInt8, Cuda.thrK t a = if t.toNat ≤ a.toNat then 255 else 0 := by
    intro a
    unfold Cuda.thrK
    by_cases hc : a < t
    · rw [if_pos hc, if_neg (by have := UInt8.lt_iff_toNat_lt.1 hc; omega)]
    · rw [if_neg hc, if_pos (Nat.le_of_not_lt fun h => hc (UInt8.lt_iff_toNat_lt.2 h))]
  simp only [← e]
  exact Cuda.unaryGray_runs r g s

/-- **C109.** Threshold with two values (whichever is the larger). -/
theorem C109_threshold2 {inp out : View} (lo hi : UInt8) (r : Ready1 m inp out w h) (g : inp.img.cc = 1) (s : d.Serves w h) :
    Runs (Cuda.Threshold2 d inp out w h lo hi) m fun m' => WritesRoi m m' out w h fun x y c =>
      if lo.toNat ≤ (inp.get m x y c).toNat ∧ (inp.get m x y c).toNat ≤ hi.toNat then 255 else 0 := by
  have e : ∀ a : UInt8, Cuda.thr2K lo hi a = if lo.toNat ≤ a.toNat ∧ a.toNat ≤ hi.toNat then 255 else 0 := by
    intro a
    unfold Cuda.thr2K
    have e1 := UInt8.lt_iff_toNat_lt (a := a) (b := lo)
    have e2 := UInt8.lt_iff_toNat_lt (a := hi) (b := a)
    by_cases hc : a < lo ∨ a > hi
    · rw [if_pos hc, if_neg]
      intro hn
      rcases hc with hc | hc
      · have := e1.1 hc; omega
      · have := e2.1 hc; omega
    · rw [if_neg hc, if_pos]
      refine ⟨Nat.le_of_not_lt fun h => hc (Or.inl (e1.2 h)), Nat.le_of_not_lt fun h => hc (Or.inr (e2.2 h))⟩
  simp only [← e]
  exact Cuda.unaryGray_runs r g s

/-- **C109.** LookupTable. -/
theorem C109_lookupTable {inp out : View} (table : List UInt8) (hlen : table.length = 256) (r : Ready1 m inp out w h)
    (s : d.Serves (w * out.img.cc) h) :
    Runs (Cuda.LookupTable d inp out w h table) m fun m' => WritesRoi m m' out w h fun x y c =>
      table[(inp.get m x y c).toNat]'(by rw [hlen]; exact UInt8.toNat_lt _) :=
  Cuda.lookup_runs hlen r s

/-- **C109.** Fill. -/
theorem C109_fill {v : View} (wf : v.img.WF m) (fit : v.Fits w h) (g : v.img.cc = 1) (value : UInt8) (s : d.Serves w h) :
    Runs (Cuda.Fill d v w h value) m fun m' => WritesRoi m m' v w h fun _ _ _ => value :=
  Cuda.fill_runs wf fit g s

/-- **C109.** GammaCorrection of a gray-scale image makes the memory that the function on the host makes. -/
theorem C109_gammaCorrection {rnd : ℚ → ℚ} (rr : Rounding rnd) {pow : ℚ → ℚ → ℚ} {a gamma : ℚ} (hp : PowOk pow gamma) (ha : 0 ≤ a)
    (hg : 0 ≤ gamma) {inp out : View} (r : Ready1 m inp out w h) (g : inp.img.cc = 1) (s : d.Serves w h) :
    ∃ m', GammaCorrection rnd pow inp out w h a gamma m = .ok () m' ∧
      Runs (Cuda.GammaCorrection rnd pow d inp out w h a gamma) m (· = m') := by
  obtain ⟨t, h1, h2, h3⟩ := gammaTable_run rr hp ha
  have g' : out.img.cc = 1 := by rw [r.co, g]
  have s' : d.Serves (w * out.img.cc) h := by rw [g', Nat.mul_one]; exact s
  obtain ⟨m', h4, h5⟩ := C15_lookupTable t h2 r
  have hneg : (decide (a < 0) || decide (gamma < 0)) = false := by simp [ha, hg]
  refine ⟨m', ?_, ?_⟩
  · rw [GammaCorrection, bind_ok (Cuda.validate_ready r), GetGammaCorrectionLookupTable, hneg, throwIf_false, pure_bind', h1]
    exact h4
  · refine Cuda.Runs_congr ?_ ((Cuda.lookup_runs h2 r s').mono fun m'' h => h.unique h5)
    rw [Cuda.GammaCorrection, bind_ok (Cuda.validate_ready r), bind_ok (gray_ok (by simp [g, g'])), GetGammaCorrectionLookupTable, hneg,
      throwIf_false, pure_bind', h1]
    rfl

/-- **C109.** The memory is at the end the one that the function on the host makes of the same contents. -/
theorem C109_as_host {inp out : View} (r : Ready1 m inp out w h) (s : d.Serves (w * out.img.cc) h) :
    (∃ m', Invert inp out w h m = .ok () m' ∧ Runs (Cuda.Invert d inp out w h) m (· = m')) ∧
    (∀ t : List UInt8, t.length = 256 → ∃ m', LookupTable inp out w h t m = .ok () m' ∧ Runs (Cuda.LookupTable d inp out w h t) m (· = m')) ∧
    (inp.img.cc = 1 → ∀ t, ∃ m', Threshold inp out w h t m = .ok () m' ∧ Runs (Cuda.Threshold d inp out w h t) m (· = m')) := by
  refine ⟨?_, fun t ht => ?_, fun g t => ?_⟩
  · obtain ⟨m', h1, h2⟩ := C13_invert r
    exact ⟨m', h1, (C109_invert r s).mono fun m'' h => h.unique h2⟩
  · obtain ⟨m', h1, h2⟩ := C15_lookupTable t ht r
    exact ⟨m', h1, (C109_lookupTable t ht r s).mono fun m'' h => h.unique h2⟩
  · obtain ⟨m', h1, h2⟩ := C14_threshold t r g
    rw [r.co, g, Nat.mul_one] at s
    exact ⟨m', h1, (C109_threshold t r g s).mono fun m'' h => h.unique h2⟩

/-- **C109.** Calls that are refused. -/
theorem C109_rejects {inp out : View} :
    (Bad [inp, out] w h (out.img.cc = inp.img.cc) →
      Cuda.Copy d inp out w h m = .throw m ∧ Cuda.Invert d inp out w h m = .throw m) ∧
    (∀ t lo hi, Bad [inp, out] w h (Gray1 inp out) →
      Cuda.Threshold d inp out w h t m = .throw m ∧ Cuda.Threshold2 d inp out w h lo hi m = .throw m) ∧
    (∀ table, Bad [inp, out] w h (out.img.cc = inp.img.cc ∧ table.length = 256) → Cuda.LookupTable d inp out w h table m = .throw m) ∧
    (∀ value, Bad [out] w h (out.img.cc = 1) → Cuda.Fill d out w h value m = .throw m) ∧
    (∀ rnd pow a gamma, Bad [inp, out] w h (Gray1 inp out ∧ 0 ≤ a ∧ 0 ≤ gamma) →
      Cuda.GammaCorrection rnd pow d inp out w h a gamma m = .throw m) := by
  refine ⟨fun hb => ⟨Cuda.unary_bad hb, Cuda.unary_bad hb⟩, fun t lo hi hb => ⟨Cuda.unaryGray_bad hb, Cuda.unaryGray_bad hb⟩,
    fun table hb => Cuda.lookup_bad hb, fun value hb => Cuda.fill_bad hb, fun rnd pow a gamma hb => ?_⟩
  refine rois_bad_then hb fun hc => ?_
  by_cases hg : Gray1 inp out
  · rw [bind_ok (gray_ok (by simp [hg.1, hg.2]))]
    have hneg : (decide (a < 0) || decide (gamma < 0)) = true := by
      simp only [Bool.or_eq_true, decide_eq_true_eq]
      by_contra hn
      push Not at hn
      exact hc ⟨hg, hn.1, hn.2⟩
    refine bind_throw ?_
    rw [GetGammaCorrectionLookupTable, hneg]
    exact bind_throw (throwIf_true m)
  · exact bind_throw (Cuda.gray_pair_throw hg)

example : Ready1 exMem ⟨tight 1, 0, 0⟩ ⟨padded 2, 0, 0⟩ 2 2 :=
  ⟨wf_tight 1 (by decide), wf_padded 2 (by decide), fits_tight 1 (by decide), fits_padded 2 (by decide), rfl,
    noClash_of_ne _ _ (by decide)⟩
example : afterSeq (Cuda.Invert small ⟨tight 1, 0, 0⟩ ⟨padded 2, 0, 0⟩ 2 2) exMem 2 5 = some (255 - 19) := by decide +kernel
example : afterSeq (Cuda.Fill small ⟨padded 2, 1, 0⟩ 1 2 77) exMem 2 5 = some 77 := by decide +kernel

/-! ### C110 -/

/-- **C110.** ExtractChannel. -/
theorem C110_extractChannel {inp out : View} {ch : Nat} (p : Pair m inp w h out w h) (co : out.img.cc = 1) (hch : ch < inp.img.cc)
    (s : d.Serves w h) :
    Runs (Cuda.ExtractChannel d inp out w h ch) m fun m' => WritesRoi m m' out w h fun x y _ => inp.get m x y ch :=
  Cuda.extract_runs p co hch s

/-- **C110.** Flip. -/
theorem C110_flip {inp out : View} (hor ver : Bool) (p : Pair m inp w h out w h) (ci : inp.img.cc = 1) (co : out.img.cc = 1)
    (s : d.Serves w h) :
    Runs (Cuda.Flip d inp out w h hor ver) m fun m' =>
      WritesRoi m m' out w h fun x y c => inp.get m (mirror hor w x) (mirror ver h y) c :=
  Cuda.flip_runs hor ver p ci co s

/-- **C110.** ConvertToGrayScale of an RGB image. -/
theorem C110_convertToGrayScale_rgb {inp out : View} (p : Pair m inp w h out w h) (ci : inp.img.cc = 3) (co : out.img.cc = 1)
    (s : d.Serves w h) :
    Runs (Cuda.ConvertToGrayScale d inp out w h) m fun m' =>
      WritesRoi m m' out w h fun x y _ => specMean (inp.get m x y 0) (inp.get m x y 1) (inp.get m x y 2) := by
  refine (Cuda.gray_runs p (by omega) co s).mono fun m' h => ?_
  rw [ci] at h
  have e : ∀ x y, UInt8.ofNat (((List.range 3).map fun c => (inp.get m x y c).toNat).sum / 3)
      = specMean (inp.get m x y 0) (inp.get m x y 1) (inp.get m x y 2) := by
    intro x y
    rw [specMean]
    congr 2
    show (inp.get m x y 0).toNat + ((inp.get m x y 1).toNat + ((inp.get m x y 2).toNat + 0)) = _
    omega
  simp only [e] at h
  exact h

/-- **C110.** ConvertToGrayScale of an RGBA image: the mean of all four channels. -/
theorem C110_convertToGrayScale_rgba {inp out : View} (p : Pair m inp w h out w h) (ci : inp.img.cc = 4) (co : out.img.cc = 1)
    (s : d.Serves w h) :
    Runs (Cuda.ConvertToGrayScale d inp out w h) m fun m' => WritesRoi m m' out w h fun x y _ =>
      UInt8.ofNat (((inp.get m x y 0).toNat + (inp.get m x y 1).toNat + (inp.get m x y 2).toNat + (inp.get m x y 3).toNat) / 4) := by
  refine (Cuda.gray_runs p (by omega) co s).mono fun m' h => ?_
  rw [ci] at h
  have e : ∀ x y, ((List.range 4).map fun c => (inp.get m x y c).toNat).sum
      = (inp.get m x y 0).toNat + (inp.get m x y 1).toNat + (inp.get m x y 2).toNat + (inp.get m x y 3).toNat := by
    intro x y
    show (inp.get m x y 0).toNat + ((inp.get m x y 1).toNat + ((inp.get m x y 2).toNat + ((inp.get m x y 3).toNat + 0))) = _
    omega
  simp only [e] at h
  exact h

/-- **C110.** ConvertToGrayScale of a gray-scale image is a copy. -/
theorem C110_convertToGrayScale_gray {inp out : View} (r : Ready1 m inp out w h) (ci : inp.img.cc = 1) (s : d.Serves w h) :
    Runs (Cuda.ConvertToGrayScale d inp out w h) m fun m' => WritesRoi m m' out w h fun x y c => inp.get m x y c :=
  Cuda.gray_copy r ci s

/-- **C110.** ConvertToRgb of gray-scale and RGB images. Partial: RGBA images are accepted as well, but their
    data are read as if they were gray-scale images (`C110_convertToRgb_rgba_wrong`). -/
theorem C110_convertToRgb_partial {inp out : View} (p : Pair m inp w h out w h) (ci : inp.img.cc = 1 ∨ inp.img.cc = 3)
    (co : out.img.cc = 3) (s : d.Serves (w * 3) h) :
    Runs (Cuda.ConvertToRgb d inp out w h) m fun m' =>
      WritesRoi m m' out w h fun x y c => inp.get m x y (if inp.img.cc = 1 then 0 else c) := by
  rcases ci with ci | ci
  · have s' : d.Serves w h := ⟨s.tpos, s.tmax, s.bx, s.by', fun t a b => by have := s.gx t a b; omega, s.gy,
      by have := s.wsmall; omega, s.hsmall⟩
    simp only [ci, if_true]
    exact Cuda.rgb_runs p ci co s'
  · have r : Ready1 m inp out w h := ⟨p.wfi, p.wfo, p.fiti, p.fito, by rw [ci, co], noClash_of_apart p.apart⟩
    simp only [ci]
    exact Cuda.rgb_copy r ci s

/-- **C110.** Calls that are refused. -/
theorem C110_rejects {inp out : View} :
    (∀ ch, Bad [inp, out] w h (out.img.cc = 1 ∧ ch < inp.img.cc) → Cuda.ExtractChannel d inp out w h ch m = .throw m) ∧
    (∀ hor ver, Bad [inp, out] w h (Gray1 inp out) → Cuda.Flip d inp out w h hor ver m = .throw m) ∧
    (Bad [inp, out] w h (out.img.cc = 1) → Cuda.ConvertToGrayScale d inp out w h m = .throw m) ∧
    (Bad [inp, out] w h (out.img.cc = 3) → Cuda.ConvertToRgb d inp out w h m = .throw m) :=
  ⟨fun _ hb => Cuda.extract_bad hb, fun _ _ hb => Cuda.flip_bad _ _ hb, Cuda.gray_bad, Cuda.rgb_bad⟩

/-- **C110** fails for RGBA input of ConvertToRgb: red of the second pixel becomes 11 (the green of the first pixel)
    instead of 26. -/
theorem C110_convertToRgb_rgba_wrong :
    (Pair exMem ⟨⟨1, 2, 1, 4, 8⟩, 0, 0⟩ 2 1 ⟨⟨2, 2, 1, 3, 6⟩, 0, 0⟩ 2 1 ∧ small.Serves (2 * 3) 1) ∧
    (⟨⟨1, 2, 1, 4, 8⟩, 0, 0⟩ : View).get exMem 1 0 0 = 26 ∧
    ∀ Q, Runs (Cuda.ConvertToRgb small ⟨⟨1, 2, 1, 4, 8⟩, 0, 0⟩ ⟨⟨2, 2, 1, 3, 6⟩, 0, 0⟩ 2 1) exMem Q →
      ∃ m', Q m' ∧ (⟨⟨2, 2, 1, 3, 6⟩, 0, 0⟩ : View).get m' 1 0 0 = 11 := by
  refine ⟨⟨⟨⟨by decide, by decide, by decide⟩, ⟨by decide, by decide, by decide⟩, ⟨by decide, by decide, by decide, by decide, by decide, by decide⟩,
    ⟨by decide, by decide, by decide, by decide, by decide, by decide⟩, apart_of_ne _ _ _ _ (by decide)⟩, small_serves (by decide) (by decide)⟩, by decide, fun Q hr => ?_⟩
  exact runs_afterSeq hr (by decide +kernel)

example : afterSeq (Cuda.Flip small ⟨tight 1, 0, 0⟩ ⟨padded 2, 0, 0⟩ 2 2 false true) exMem 2 4 = some 10 := by decide +kernel
example : afterSeq (Cuda.ConvertToGrayScale small ⟨rgbEx 1, 0, 0⟩ ⟨grayEx 2, 0, 0⟩ 1 2) exMem 2 0
    = some (specMean 10 11 14) := by decide +kernel
example : afterSeq (Cuda.ConvertToRgb small ⟨grayEx 1, 0, 0⟩ ⟨rgbEx 2, 0, 0⟩ 1 2) exMem 2 2 = some 10 := by decide +kernel

end PV.Props
