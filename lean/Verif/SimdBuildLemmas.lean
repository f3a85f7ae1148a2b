import Verif.SimdBuild
/- The functions of a build which has the kind asked for are those of Simd.lean. -/
namespace PV.Simd

theorem and_two_pow (n i : Nat) : n &&& 2 ^ i = (n.testBit i).toNat * 2 ^ i := by
  apply Nat.eq_of_testBit_eq
  intro j
  rw [Nat.testBit_and, Nat.testBit_two_pow]
  by_cases h : i = j
  · subst h
    cases h : n.testBit i
    · simp
    · simp
  · cases h2 : n.testBit i
    · simp [h]
    · simp [h]
theorem bit_test (v : UInt32) (i : Nat) (hi : i < 32) : (v &&& ((1 : UInt32) <<< (UInt32.ofNat i)) != 0) = v.toNat.testBit i := by
  have h1 : ((1 : UInt32) <<< (UInt32.ofNat i)).toNat = 2 ^ i := by
    rw [UInt32.toNat_shiftLeft, UInt32.toNat_ofNat']
    have : i % 2^32 % 32 = i := by omega
    rw [this, Nat.shiftLeft_eq, UInt32.toNat_one, Nat.one_mul, Nat.mod_eq_of_lt]
    exact Nat.pow_lt_pow_right (by decide) hi
  have h2 : (v &&& ((1 : UInt32) <<< (UInt32.ofNat i))).toNat = (v.toNat.testBit i).toNat * 2 ^ i := by
    rw [UInt32.toNat_and, h1, and_two_pow]
  cases h : v.toNat.testBit i
  · rw [h] at h2
    have : v &&& ((1 : UInt32) <<< (UInt32.ofNat i)) = 0 := UInt32.toNat_inj.1 (by rw [h2]; simp)
    rw [this]; rfl
  · rw [h] at h2
    have : v &&& ((1 : UInt32) <<< (UInt32.ofNat i)) ≠ 0 := by
      intro h3
      rw [h3] at h2
      have := Nat.two_pow_pos i
      simp at h2
      omega
    simpa using this
theorem and_or_ne (a b c : UInt32) : (a &&& (b ||| c) != 0) = ((a &&& b != 0) || (a &&& c != 0)) := by
  have h : a &&& (b ||| c) = (a &&& b) ||| (a &&& c) := by
    apply UInt32.toNat_inj.1
    simp [Nat.and_or_distrib_left]
  rw [h]
  have h2 : ∀ x y : UInt32, x ||| y = 0 ↔ x = 0 ∧ y = 0 := by
    intro x y
    rw [← UInt32.toNat_inj, ← UInt32.toNat_inj, ← UInt32.toNat_inj, UInt32.toNat_or]
    simp [Nat.or_eq_zero_iff]
  rw [Bool.eq_iff_iff]
  simp [h2]
  by_cases hx : a &&& b = 0 <;> simp [hx]

/-- Everything the functions need for this kind is compiled (but perhaps not SSSE3). -/
structure Build.Covers (b : Build) (k : Kind) : Prop where
  own : k ≠ .cpu → b.has k = true
  sse : k = .avx → b.sse = true

variable {b : Build} {k : Kind}

theorem binaryOf_eq (hb : b.Covers k) (vop : Kind → Vec → Vec → Vec) (sop : UInt8 → UInt8 → UInt8)
    (scalar : View → View → View → Nat → Nat → M BMem Unit) (in1 in2 out : View) (w h : Nat) :
    binaryOf b vop sop scalar k in1 in2 out w h = binaryFn vop sop scalar k in1 in2 out w h := by
  obtain ⟨h1, h2⟩ := hb
  cases k <;>
    simp_all [binaryOf, binaryStep, binaryFn, binaryBase, binaryPath, code, narrow, Build.has]

theorem invertOf_eq (hb : b.Covers k) (inp out : View) (w h : Nat) :
    invertOf b k inp out w h = Invert k inp out w h := by
  obtain ⟨h1, h2⟩ := hb
  cases k <;>
    simp_all [invertOf, invertStep, Invert, invertBase, invertPath, code, narrow, Build.has]

theorem thresholdOf_eq (hb : b.Covers k) (inp out : View) (w h : Nat) (t : UInt8) :
    thresholdOf b k inp out w h t = Threshold k inp out w h t := by
  obtain ⟨h1, h2⟩ := hb
  cases k <;>
    simp_all [thresholdOf, thresholdStep, Threshold, thresholdBase, thresholdPath, code, narrow, Build.has]

theorem threshold2Of_eq (hb : b.Covers k) (inp out : View) (w h : Nat) (lo hi : UInt8) :
    threshold2Of b k inp out w h lo hi = Threshold2 k inp out w h lo hi := by
  obtain ⟨h1, h2⟩ := hb
  cases k <;>
    simp_all [threshold2Of, threshold2Step, Threshold2, threshold2Base, threshold2Path, code, narrow, Build.has]

theorem sumOf_eq (hb : b.Covers k) (image : View) (w h : Nat) : sumOf b k image w h = Sum k image w h := by
  obtain ⟨h1, h2⟩ := hb
  cases k <;>
    simp_all [sumOf, sumBuildStep, Sum, sumBase, sumPath, code, narrow, Build.has]

theorem accumulateOf_eq (hb : b.Covers k) (image : View) (w h : Nat) : accumulateOf b k image w h = Accumulate k image w h := by
  obtain ⟨h1, h2⟩ := hb
  cases k <;> simp_all [accumulateOf, Accumulate, code, Build.has]

theorem profileOf_eq (hb : b.Covers k) (image : View) (w h : Nat) (hor : Bool) :
    profileOf b k image w h hor = ProjectionProfile k image w h hor := by
  obtain ⟨h1, h2⟩ := hb
  cases k <;>
    simp_all [profileOf, profileStep, ProjectionProfile, profileBase, profilePath, code, narrow, Build.has]

theorem to16Of_eq (hb : b.Covers k) (src : BMem) (inp out : View) (w h : Nat) :
    to16Of b k src inp out w h = ConvertTo16Bit k src inp out w h := by
  obtain ⟨h1, h2⟩ := hb
  cases k <;> simp_all [to16Of, ConvertTo16Bit, convPathOf, convPath, code, Build.has]

theorem to8Of_eq (hb : b.Covers k) (src : Mem UInt16) (inp out : View) (w h : Nat) :
    to8Of b k src inp out w h = ConvertTo8Bit k src inp out w h := by
  obtain ⟨h1, h2⟩ := hb
  cases k <;> simp_all [to8Of, ConvertTo8Bit, convPathOf, convPath, code, Build.has]

theorem rgbOf_eq (hb : b.Covers k) (h3 : k = .sse ∨ k = .avx → b.ssse3 = true) (inp out : View) (w h : Nat) :
    rgbOf b k inp out w h = ConvertToRgb k inp out w h := by
  obtain ⟨h1, h2⟩ := hb
  cases k <;>
    simp_all [rgbOf, rgbStep, ConvertToRgb, rgbBase, rgbPath, code, narrow, Build.has, Build.hasMove]

theorem flipOf_eq (hb : b.Covers k) (h3 : k = .sse ∨ k = .avx → b.ssse3 = true) (inp out : View) (w h : Nat) (hor ver : Bool) :
    flipOf b k inp out w h hor ver = Flip k inp out w h hor ver := by
  obtain ⟨h1, h2⟩ := hb
  cases k <;>
    simp_all [flipOf, flipStep, Flip, flipBase, flipPath, code, narrow, Build.has, Build.hasMove]

theorem bgrOf_eq (hb : b.Covers k) (h3 : k = .sse ∨ k = .avx → b.ssse3 = true) (inp out : View) (w h : Nat) :
    bgrOf b k inp out w h = RgbToBgr k inp out w h := by
  obtain ⟨h1, h2⟩ := hb
  cases k <;>
    simp_all [bgrOf, bgrStep, RgbToBgr, bgrBase, bgrPath, code, narrow, Build.has, Build.hasMove]

/-- A valid build compiles what the kind in use needs. -/
theorem covers (s : Setup) (hv : s.build.valid = true) : s.build.Covers s.kind := by
  obtain ⟨⟨b1, b2, b3, b4, b5⟩, c, calls⟩ := s
  simp only [Setup.kind, actualSimdType, Build.valid] at hv ⊢
  split
  · constructor <;> simp_all [Build.has]
  · split
    · constructor <;> simp_all [Build.has]
    · split
      · constructor <;> simp_all [Build.has]
      · split <;> constructor <;> simp_all [Build.has]

end PV.Simd
