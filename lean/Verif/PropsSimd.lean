import Verif.SimdAdd
import Verif.PropsReduce
/-
  Property C51: the vector forms of the functions give the results of the scalar forms.

  `k` is the kind of vector instructions (AVX-512, AVX, SSE, NEON or none).
-/
namespace PV.Props

open PV.Simd (Kind)

/-! ### Bytewise functions with two inputs -/

theorem simd_binaryPath {m : BMem} {in1 in2 out : View} {w h : Nat} (r : Ready2 m in1 in2 out w h)
    {vop : Kind → Simd.Vec → Simd.Vec → Simd.Vec} {sop : UInt8 → UInt8 → UInt8} (k : Kind) (hk : k ≠ .cpu)
    (hl : ∀ k n, Simd.Lanes2 n (vop k) sop) :
    Simd.binaryPath k vop sop in1 in2 out w h m
      = binaryRows sop in1 in2 out in1.img.cc
          (optimiseRoi (u32 (w * in1.img.cc)) h [in1.img, in2.img, out.img]).1
          (optimiseRoi (u32 (w * in1.img.cc)) h [in1.img, in2.img, out.img]).2 m := by
  rw [Simd.binaryPath, bind_ok (validate_pre_ok (vs := [in1, in2, out])
    (by simp; exact ⟨⟨r.wf1, r.fit1⟩, ⟨r.wf2, r.fit2⟩, r.wfo, r.fito⟩))]
  obtain ⟨_, _, _, _, _, _, _, _, hwcc, _⟩ := View.facts r.wf1 r.fit1
  rw [u32_of_lt hwcc]
  exact Simd.binaryKernel_eq (by cases k <;> first | exact absurd rfl hk | decide) (hl k _) r.wf1 r.wf2 r.wfo
    r.fit1 r.fit2 r.fito r.c2 r.co r.n1 r.n2 (by simp) (by simp) (by simp)

/-- A call that is right in the scalar form is right in the vector form. -/
theorem simd_binaryFn {m : BMem} {in1 in2 out : View} {w h : Nat} (r : Ready2 m in1 in2 out w h)
    {vop : Kind → Simd.Vec → Simd.Vec → Simd.Vec} {sop : UInt8 → UInt8 → UInt8}
    {scalar : View → View → View → Nat → Nat → M BMem Unit} (k : Kind)
    (hl : ∀ k n, Simd.Lanes2 n (vop k) sop)
    (hs : scalar in1 in2 out w h m = binaryRows sop in1 in2 out in1.img.cc
          (optimiseRoi (u32 (w * in1.img.cc)) h [in1.img, in2.img, out.img]).1
          (optimiseRoi (u32 (w * in1.img.cc)) h [in1.img, in2.img, out.img]).2 m) :
    Simd.binaryFn vop sop scalar k in1 in2 out w h m = scalar in1 in2 out w h m := by
  have hc : checkCommonColorCount in1.img [in2.img, out.img] m = .ok () m :=
    common_ok (by simp [r.c2, r.co])
  have base : ∀ k, Simd.binaryBase k vop sop scalar in1 in2 out w h m = scalar in1 in2 out w h m := by
    intro k
    rw [Simd.binaryBase, bind_ok hc]
    by_cases h1 : k = .cpu ∨ u32 (w * in1.img.cc) < Simd.size k
    · rw [if_pos h1]
    · rw [if_neg h1, simd_binaryPath r k (fun h => h1 (Or.inl h)) hl, hs]
  rw [Simd.binaryFn]
  by_cases h1 : k = .avx
  · rw [if_pos h1, bind_ok hc]
    by_cases h2 : u32 (w * in1.img.cc) < Simd.size .avx
    · rw [if_pos h2, base]
    · rw [if_neg h2, simd_binaryPath r .avx (by decide) hl, hs]
  · rw [if_neg h1, base]

/-- A call that has to be refused is refused by the vector form. -/
theorem simd_binaryFn_bad {m : BMem} {in1 in2 out : View} {w h : Nat}
    (hb : Bad [in1, in2, out] w h (SameColors2 in1 in2 out))
    {vop : Kind → Simd.Vec → Simd.Vec → Simd.Vec} {sop : UInt8 → UInt8 → UInt8}
    {scalar : View → View → View → Nat → Nat → M BMem Unit} (k : Kind)
    (hs : scalar in1 in2 out w h m = .throw m) :
    Simd.binaryFn vop sop scalar k in1 in2 out w h m = .throw m := by
  by_cases hc : SameColors2 in1 in2 out
  · have hok : checkCommonColorCount in1.img [in2.img, out.img] m = .ok () m :=
      common_ok (by simp [hc.1, hc.2])
    have ht : validateRois [in1, in2, out] w h m = .throw m := by
      rcases rois_dichotomy (m := m) hb with h1 | h1
      · exact h1
      · exact absurd hc h1.2
    have path : ∀ k, Simd.binaryPath k vop sop in1 in2 out w h m = .throw m := by
      intro k
      rw [Simd.binaryPath, bind_throw ht]
    have base : ∀ k, Simd.binaryBase k vop sop scalar in1 in2 out w h m = .throw m := by
      intro k
      rw [Simd.binaryBase, bind_ok hok]
      split
      · exact hs
      · exact path k
    rw [Simd.binaryFn]
    split
    · rw [bind_ok hok]
      split
      · exact base _
      · exact path _
    · exact base _
  · have hth := common2_throw (m := m) hc
    have base : ∀ k, Simd.binaryBase k vop sop scalar in1 in2 out w h m = .throw m := by
      intro k
      rw [Simd.binaryBase, bind_throw hth]
    rw [Simd.binaryFn]
    split
    · rw [bind_throw hth]
    · exact base _

theorem C51_absoluteDifference (k : Kind) {m : BMem} {in1 in2 out : View} {w h : Nat}
    (r : Ready2 m in1 in2 out w h) :
    ∃ m', Simd.AbsoluteDifference k in1 in2 out w h m = .ok () m' ∧
      AbsoluteDifference in1 in2 out w h m = .ok () m' ∧
      WritesRoi m m' out w h fun x y c => specAbsDiff (in1.get m x y c) (in2.get m x y c) := by
  obtain ⟨m', h1, h2⟩ := C09_absoluteDifference r
  exact ⟨m', (simd_binaryFn r k Simd.lanes_absDiff (by rw [AbsoluteDifference, prologue2_ok r])).trans h1, h1, h2⟩

theorem C51_bitwiseAnd (k : Kind) {m : BMem} {in1 in2 out : View} {w h : Nat}
    (r : Ready2 m in1 in2 out w h) :
    ∃ m' F, Simd.BitwiseAnd k in1 in2 out w h m = .ok () m' ∧ BitwiseAnd in1 in2 out w h m = .ok () m' ∧
      WritesRoi m m' out w h F ∧
      ∀ x y c i, bit (F x y c) i = (bit (in1.get m x y c) i && bit (in2.get m x y c) i) := by
  obtain ⟨m', F, h1, h2⟩ := C10_bitwiseAnd r
  exact ⟨m', F, (simd_binaryFn r k Simd.lanes_and (by rw [BitwiseAnd, prologue2_ok r])).trans h1, h1, h2⟩

theorem C51_bitwiseOr (k : Kind) {m : BMem} {in1 in2 out : View} {w h : Nat}
    (r : Ready2 m in1 in2 out w h) :
    ∃ m' F, Simd.BitwiseOr k in1 in2 out w h m = .ok () m' ∧ BitwiseOr in1 in2 out w h m = .ok () m' ∧
      WritesRoi m m' out w h F ∧
      ∀ x y c i, bit (F x y c) i = (bit (in1.get m x y c) i || bit (in2.get m x y c) i) := by
  obtain ⟨m', F, h1, h2⟩ := C10_bitwiseOr r
  exact ⟨m', F, (simd_binaryFn r k Simd.lanes_or (by rw [BitwiseOr, prologue2_ok r])).trans h1, h1, h2⟩

theorem C51_bitwiseXor (k : Kind) {m : BMem} {in1 in2 out : View} {w h : Nat}
    (r : Ready2 m in1 in2 out w h) :
    ∃ m' F, Simd.BitwiseXor k in1 in2 out w h m = .ok () m' ∧ BitwiseXor in1 in2 out w h m = .ok () m' ∧
      WritesRoi m m' out w h F ∧
      ∀ x y c i, bit (F x y c) i = (bit (in1.get m x y c) i != bit (in2.get m x y c) i) := by
  obtain ⟨m', F, h1, h2⟩ := C10_bitwiseXor r
  exact ⟨m', F, (simd_binaryFn r k Simd.lanes_xor (by rw [BitwiseXor, prologue2_ok r])).trans h1, h1, h2⟩

theorem C51_maximum (k : Kind) {m : BMem} {in1 in2 out : View} {w h : Nat}
    (r : Ready2 m in1 in2 out w h) :
    ∃ m', Simd.Maximum k in1 in2 out w h m = .ok () m' ∧ Maximum in1 in2 out w h m = .ok () m' ∧
      WritesRoi m m' out w h fun x y c => specMax (in1.get m x y c) (in2.get m x y c) := by
  obtain ⟨m', h1, h2⟩ := C11_maximum r
  exact ⟨m', (simd_binaryFn r k Simd.lanes_max (by rw [Maximum, prologue2_ok r])).trans h1, h1, h2⟩

theorem C51_minimum (k : Kind) {m : BMem} {in1 in2 out : View} {w h : Nat}
    (r : Ready2 m in1 in2 out w h) :
    ∃ m', Simd.Minimum k in1 in2 out w h m = .ok () m' ∧ Minimum in1 in2 out w h m = .ok () m' ∧
      WritesRoi m m' out w h fun x y c => specMin (in1.get m x y c) (in2.get m x y c) := by
  obtain ⟨m', h1, h2⟩ := C11_minimum r
  exact ⟨m', (simd_binaryFn r k Simd.lanes_min (by rw [Minimum, prologue2_ok r])).trans h1, h1, h2⟩

/-- The scalar `Subtract` reads a padded second input wrongly (C12); under the guard of C12
    both forms agree. -/
theorem C51_subtract_partial (k : Kind) {m : BMem} {in1 in2 out : View} {w h : Nat}
    (r : Ready2 m in1 in2 out w h) (hg : SubtractGuard in1 in2 out w h) :
    ∃ m', Simd.Subtract k in1 in2 out w h m = .ok () m' ∧ Subtract in1 in2 out w h m = .ok () m' ∧
      WritesRoi m m' out w h fun x y c => specSub (in1.get m x y c) (in2.get m x y c) := by
  obtain ⟨m', h1, h2⟩ := C12_subtract_partial r hg
  obtain ⟨m'', h3, h4⟩ := binaryRows_opt (f := subE) r.wf1 r.wf2 r.wfo r.fit1 r.fit2 r.fito r.c2 r.co r.n1 r.n2
    (imgs := [in1.img, in2.img, out.img]) (by simp) (Or.inl (by simp)) (by simp)
  simp only [subE_spec] at h4
  obtain rfl := h2.unique h4
  exact ⟨m', (simd_binaryFn r k Simd.lanes_sub (h1.trans h3.symm)).trans h1, h1, h2⟩

/-- When a row is at least one register long, the vector form is right without any guard. -/
theorem C51_subtract_vector (k : Kind) {m : BMem} {in1 in2 out : View} {w h : Nat}
    (r : Ready2 m in1 in2 out w h) (hk : k ≠ .cpu)
    (hw : Simd.size k ≤ w * in1.img.cc ∨ (k = .avx ∧ 16 ≤ w * in1.img.cc)) :
    ∃ m', Simd.Subtract k in1 in2 out w h m = .ok () m' ∧
      WritesRoi m m' out w h fun x y c => specSub (in1.get m x y c) (in2.get m x y c) := by
  obtain ⟨m', h3, h4⟩ := binaryRows_opt (f := subE) r.wf1 r.wf2 r.wfo r.fit1 r.fit2 r.fito r.c2 r.co r.n1 r.n2
    (imgs := [in1.img, in2.img, out.img]) (by simp) (Or.inl (by simp)) (by simp)
  simp only [subE_spec] at h4
  refine ⟨m', ?_, h4⟩
  have hc : checkCommonColorCount in1.img [in2.img, out.img] m = .ok () m :=
    common_ok (by simp [r.c2, r.co])
  obtain ⟨_, _, _, _, _, _, _, _, hwcc, _⟩ := View.facts r.wf1 r.fit1
  have base : ∀ k, k ≠ .cpu → Simd.size k ≤ w * in1.img.cc →
      Simd.binaryBase k Simd.subV subE PV.Subtract in1 in2 out w h m = .ok () m' := by
    intro k hk hw
    rw [Simd.binaryBase, bind_ok hc, if_neg (by
      rw [u32_of_lt hwcc]
      rintro (h | h)
      · exact hk h
      · omega), simd_binaryPath r k hk Simd.lanes_sub, h3]
  rw [Simd.Subtract, Simd.binaryFn]
  by_cases h1 : k = .avx
  · rw [if_pos h1, bind_ok hc]
    by_cases h2 : u32 (w * in1.img.cc) < Simd.size .avx
    · rw [if_pos h2]
      rw [u32_of_lt hwcc] at h2
      refine base .sse (by decide) ?_
      rcases hw with hw | hw
      · rw [h1] at hw
        omega
      · exact hw.2
    · rw [if_neg h2, simd_binaryPath r .avx (by decide) Simd.lanes_sub, h3]
  · rw [if_neg h1]
    exact base k hk (hw.resolve_right fun h => h1 h.1)

theorem C51_binary_rejects (k : Kind) {m : BMem} {in1 in2 out : View} {w h : Nat}
    (hb : Bad [in1, in2, out] w h (SameColors2 in1 in2 out)) :
    Simd.AbsoluteDifference k in1 in2 out w h m = .throw m ∧
    Simd.BitwiseAnd k in1 in2 out w h m = .throw m ∧
    Simd.BitwiseOr k in1 in2 out w h m = .throw m ∧
    Simd.BitwiseXor k in1 in2 out w h m = .throw m ∧
    Simd.Maximum k in1 in2 out w h m = .throw m ∧
    Simd.Minimum k in1 in2 out w h m = .throw m ∧
    Simd.Subtract k in1 in2 out w h m = .throw m :=
  ⟨simd_binaryFn_bad hb k (C09_absoluteDifference_rejects hb),
   simd_binaryFn_bad hb k (C10_bitwise_rejects hb).1,
   simd_binaryFn_bad hb k (C10_bitwise_rejects hb).2.1,
   simd_binaryFn_bad hb k (C10_bitwise_rejects hb).2.2,
   simd_binaryFn_bad hb k (C11_rejects hb).1,
   simd_binaryFn_bad hb k (C11_rejects hb).2,
   simd_binaryFn_bad hb k (C12_subtract_rejects hb)⟩

/-! ### Bytewise functions with one input -/

theorem C51_invert (k : Kind) {m : BMem} {inp out : View} {w h : Nat} (r : Ready1 m inp out w h) :
    ∃ m', Simd.Invert k inp out w h m = .ok () m' ∧ Invert inp out w h m = .ok () m' ∧
      WritesRoi m m' out w h fun x y c => UInt8.ofNat (255 - (inp.get m x y c).toNat) := by
  obtain ⟨m', h1, h2⟩ := C13_invert r
  refine ⟨m', ?_, h1, h2⟩
  have hs := h1
  rw [Invert, prologue1_ok r] at hs
  have hc : checkCommonColorCount inp.img [out.img] m = .ok () m := common_ok (by simp [r.co])
  have path : ∀ k, k ≠ .cpu → Simd.invertPath k inp out w h m = .ok () m' := by
    intro k hk
    rw [← hs, Simd.invertPath, bind_ok (validate_pre_ok (vs := [inp, out])
      (by simp; exact ⟨⟨r.wfi, r.fiti⟩, r.wfo, r.fito⟩))]
    obtain ⟨_, _, _, _, _, _, _, _, hwcc, _⟩ := View.facts r.wfi r.fiti
    rw [u32_of_lt hwcc]
    exact Simd.unaryKernel_eq (by cases k <;> first | exact absurd rfl hk | decide) (Simd.lanes_not k _)
      (fun _ => rfl) r.wfi r.wfo r.fiti r.fito r.co r.n1 (by simp) (by simp)
  have base : ∀ k, Simd.invertBase k inp out w h m = .ok () m' := by
    intro k
    rw [Simd.invertBase, bind_ok hc]
    by_cases h1 : k = .cpu ∨ u32 (w * inp.img.cc) < Simd.size k
    · rw [if_pos h1, ‹Invert inp out w h m = _›]
    · rw [if_neg h1, path k fun h => h1 (Or.inl h)]
  rw [Simd.Invert]
  by_cases h1 : k = .avx
  · rw [if_pos h1, bind_ok hc]
    by_cases h2 : u32 (w * inp.img.cc) < Simd.size .avx
    · rw [if_pos h2, base]
    · rw [if_neg h2, path .avx (by decide)]
  · rw [if_neg h1, base]

theorem C51_invert_rejects (k : Kind) {m : BMem} {inp out : View} {w h : Nat}
    (hb : Bad [inp, out] w h (out.img.cc = inp.img.cc)) : Simd.Invert k inp out w h m = .throw m := by
  have hs : Invert inp out w h m = .throw m := C13_invert_rejects hb
  by_cases hc : out.img.cc = inp.img.cc
  · have hok : checkCommonColorCount inp.img [out.img] m = .ok () m := common_ok (by simp [hc])
    have ht : validateRois [inp, out] w h m = .throw m := by
      rcases rois_dichotomy (m := m) hb with h1 | h1
      · exact h1
      · exact absurd hc h1.2
    have path : ∀ k, Simd.invertPath k inp out w h m = .throw m := by
      intro k
      rw [Simd.invertPath, bind_throw ht]
    have base : ∀ k, Simd.invertBase k inp out w h m = .throw m := by
      intro k
      rw [Simd.invertBase, bind_ok hok]
      split
      · exact hs
      · exact path k
    rw [Simd.Invert]
    split
    · rw [bind_ok hok]
      split
      · exact base _
      · exact path _
    · exact base _
  · have hth : checkCommonColorCount inp.img [out.img] m = .throw m := common_throw ⟨out.img, by simp, hc⟩
    rw [Simd.Invert]
    split
    · rw [bind_throw hth]
    · rw [Simd.invertBase, bind_throw hth]

theorem C51_threshold (k : Kind) {m : BMem} {inp out : View} {w h : Nat} (t : UInt8)
    (r : Ready1 m inp out w h) (g : inp.img.cc = 1) :
    ∃ m', Simd.Threshold k inp out w h t m = .ok () m' ∧ Threshold inp out w h t m = .ok () m' ∧
      WritesRoi m m' out w h fun x y c => if t.toNat ≤ (inp.get m x y c).toNat then 255 else 0 := by
  obtain ⟨m', h1, h2⟩ := C14_threshold t r g
  refine ⟨m', ?_, h1, h2⟩
  have hs := h1
  rw [Threshold, grayPrologue_ok r g] at hs
  have path : ∀ k, k ≠ .cpu → Simd.thresholdPath k inp out w h t m = .ok () m' := by
    intro k hk
    rw [← hs, Simd.thresholdPath, grayPrologue_ok r g]
    by_cases ht : t > 0 ∨ k = .neon
    · have e := Simd.unaryKernel_eq (m := m) (n := Simd.size k)
        (by cases k <;> first | exact absurd rfl hk | decide) (Simd.lanes_thr k _ ht)
        (fun _ => rfl) r.wfi r.wfo r.fiti r.fito r.co r.n1 (imgs := [inp.img, out.img]) (by simp) (by simp)
      rw [g, Nat.mul_one] at e
      simp only [ht, ↓reduceIte]
      exact e
    · have h0 : t = 0 := by
        have h1 : ¬ (0 : UInt8).toNat < t.toNat := fun h => ht (Or.inl (UInt8.lt_iff_toNat_lt.2 h))
        apply UInt8.toNat_inj.1
        have : (0 : UInt8).toNat = 0 := rfl
        omega
      simp only [ht, ↓reduceIte]
      rw [h0]
      exact Simd.fillKernel_eq r.wfi r.wfo r.fiti r.fito g (by rw [r.co, g]) r.n1 (by simp) (by simp)
  have base : ∀ k, Simd.thresholdBase k inp out w h t m = .ok () m' := by
    intro k
    rw [Simd.thresholdBase]
    by_cases h3 : k = .cpu ∨ k = .avx512 ∨ w < Simd.size k
    · rw [if_pos h3, h1]
    · rw [if_neg h3, path k fun h => h3 (Or.inl h)]
  rw [Simd.Threshold]
  split <;> exact base _

theorem C51_threshold2_partial (k : Kind) {m : BMem} {inp out : View} {w h : Nat} (lo hi : UInt8) (hlh : lo ≤ hi)
    (r : Ready1 m inp out w h) (g : inp.img.cc = 1) :
    ∃ m', Simd.Threshold2 k inp out w h lo hi m = .ok () m' ∧ Threshold2 inp out w h lo hi m = .ok () m' ∧
      WritesRoi m m' out w h fun x y c =>
        if lo.toNat ≤ (inp.get m x y c).toNat ∧ (inp.get m x y c).toNat ≤ hi.toNat then 255 else 0 := by
  obtain ⟨m', h1, h2⟩ := C14_threshold2 lo hi hlh r g
  refine ⟨m', ?_, h1, h2⟩
  have hs := h1
  have hnot : decide (lo > hi) = false := by
    have : lo.toNat ≤ hi.toNat := UInt8.le_iff_toNat_le.1 hlh
    simp only [gt_iff_lt, UInt8.lt_iff_toNat_lt, decide_eq_false_iff_not]
    omega
  rw [Threshold2, grayPrologue_ok r g] at hs
  simp only [hnot, throwIf_false, pure_bind'] at hs
  have path : ∀ k, k ≠ .cpu → Simd.threshold2Path k inp out w h lo hi m = .ok () m' := by
    intro k hk
    rw [← hs, Simd.threshold2Path, grayPrologue_ok r g]
    have e := Simd.unaryKernel_eq (m := m) (n := Simd.size k)
      (by cases k <;> first | exact absurd rfl hk | decide) (Simd.lanes_thr2 k _ lo hi)
      (Simd.thr2T_eq k lo hi) r.wfi r.wfo r.fiti r.fito r.co r.n1 (imgs := [inp.img, out.img]) (by simp) (by simp)
    rw [g, Nat.mul_one] at e
    exact e
  have base : ∀ k, Simd.threshold2Base k inp out w h lo hi m = .ok () m' := by
    intro k
    rw [Simd.threshold2Base]
    by_cases h3 : k = .cpu ∨ k = .avx512 ∨ w < Simd.size k
    · rw [if_pos h3, h1]
    · rw [if_neg h3, path k fun h => h3 (Or.inl h)]
  rw [Simd.Threshold2]
  split <;> exact base _

theorem C51_threshold_rejects (k : Kind) {m : BMem} {inp out : View} {w h : Nat} (t lo hi : UInt8)
    (hb : Bad [inp, out] w h (Gray1 inp out)) :
    Simd.Threshold k inp out w h t m = .throw m ∧ Simd.Threshold2 k inp out w h lo hi m = .throw m := by
  obtain ⟨h1, h2⟩ := C14_threshold_rejects (m := m) t lo hi hb
  have b1 : ∀ k, Simd.thresholdBase k inp out w h t m = .throw m := by
    intro k
    rw [Simd.thresholdBase]
    split
    · exact h1
    · rw [Simd.thresholdPath, grayPrologue_bad hb]
  have b2 : ∀ k, Simd.threshold2Base k inp out w h lo hi m = .throw m := by
    intro k
    rw [Simd.threshold2Base]
    split
    · exact h2
    · rw [Simd.threshold2Path, grayPrologue_bad hb]
  constructor
  · rw [Simd.Threshold]
    split <;> exact b1 _
  · rw [Simd.Threshold2]
    split <;> exact b2 _

/-! Concrete rows of 17 pixels: one SSE or NEON register and one single byte. -/

/-- Blocks of 64 bytes. -/
def simdMem : BMem where
  size b := if b = 0 then 0 else 64
  byte b i := UInt8.ofNat (b * 37 + i * 11)

/-- 17x2 pixels, rows of 20 bytes. -/
def wide (b : Nat) : View := ⟨⟨b, 17, 2, 1, 20⟩, 0, 0⟩

theorem wf_wide (b : Nat) (hb : b ≠ 0) : (wide b).img.WF simdMem :=
  ⟨by simp [wide], by simp [wide, simdMem, hb], by simp [wide]⟩
theorem fits_wide (b : Nat) (hb : b ≠ 0) : (wide b).Fits 17 2 :=
  ⟨hb, Or.inl rfl, by decide, by decide, by simp [wide], by simp [wide]⟩

theorem ready2_wide : Ready2 simdMem (wide 1) (wide 2) (wide 3) 17 2 :=
  ⟨wf_wide 1 (by decide), wf_wide 2 (by decide), wf_wide 3 (by decide), fits_wide 1 (by decide),
    fits_wide 2 (by decide), fits_wide 3 (by decide), rfl, rfl,
    noClash_of_ne _ _ (by decide), noClash_of_ne _ _ (by decide)⟩
theorem ready1_wide : Ready1 simdMem (wide 1) (wide 2) 17 2 :=
  ⟨wf_wide 1 (by decide), wf_wide 2 (by decide), fits_wide 1 (by decide),
    fits_wide 2 (by decide), rfl, noClash_of_ne _ _ (by decide)⟩

example : SubtractGuard (wide 1) (wide 2) (wide 3) 17 2 := Or.inl rfl
example : after (Simd.AbsoluteDifference .sse (wide 1) (wide 2) (wide 3) 17 2 simdMem) 3 23 = some 37 := by
  decide +kernel
example : after (Simd.AbsoluteDifference .neon (wide 1) (wide 2) (wide 3) 17 2 simdMem) 3 36 = some 37 := by
  decide +kernel
example : after (Simd.Invert .sse (wide 1) (wide 2) 17 2 simdMem) 2 15 = some (255 - 202) := by
  decide +kernel

/-- The scalar function refuses a lower limit above the upper one (C14); the vector
    function with a row of at least one register does not. -/
theorem C51_threshold2_wrong :
    Ready1 simdMem (wide 1) (wide 2) 17 2 ∧
    after (Threshold2 (wide 1) (wide 2) 17 2 9 3 simdMem) 2 0 = none ∧
    after (Simd.Threshold2 .sse (wide 1) (wide 2) 17 2 9 3 simdMem) 2 0 = some 0 :=
  ⟨ready1_wide, by decide +kernel, by decide +kernel⟩

/-- Outside of a block the model's register accesses are undefined: results without undefined behaviour above mean that no register
    reaches past the end of an image. -/
theorem C51_load_outside {n b p : Nat} {m : BMem} (h : ∃ i, i < n ∧ ¬ m.Valid b (p + i)) : Simd.loadV n b p m = .ub := by
  obtain ⟨i, hi, hv⟩ := h
  rw [Simd.loadV, if_neg]
  rintro ⟨h1, h2⟩
  exact hv ⟨h1, by omega⟩

theorem C51_store_outside {n b p : Nat} {m : BMem} {v : Nat → UInt8} (h : ∃ i, i < n ∧ ¬ m.Valid b (p + i)) : Simd.storeV n b p v m = .ub := by
  obtain ⟨i, hi, hv⟩ := h
  rw [Simd.storeV, if_neg]
  rintro ⟨h1, h2⟩
  exact hv ⟨h1, by omega⟩

example : ∃ i, i < 16 ∧ ¬ simdMem.Valid 1 (60 + i) := ⟨15, by decide, by decide +kernel⟩

end PV.Props
