import Verif.PixelCopy
/-
  Properties C09 - C17 and C36: bytewise functions.

  Every claim has the form: if all rectangles fit, the call returns normally and
  `WritesRoi` holds (value of every output byte, everything else untouched; since the
  outcome is `ok`, no access was outside an image); if a rectangle does not fit or the
  colour counts differ, the call throws and the memory is the old one.
-/
namespace PV.Props

/-! ### Independent specifications of the byte operations -/

/-- |a - b| over the integers. -/
def specAbsDiff (a b : UInt8) : UInt8 := UInt8.ofNat ((a.toNat : Int) - b.toNat).natAbs
/-- The larger value. -/
def specMax (a b : UInt8) : UInt8 := UInt8.ofNat (Nat.max a.toNat b.toNat)
/-- The smaller value. -/
def specMin (a b : UInt8) : UInt8 := UInt8.ofNat (Nat.min a.toNat b.toNat)
/-- Saturating difference (subtraction on naturals stops at 0). -/
def specSub (a b : UInt8) : UInt8 := UInt8.ofNat (a.toNat - b.toNat)
/-- Bit `k` of a byte. -/
def bit (a : UInt8) (k : Nat) : Bool := a.toNat.testBit k

theorem ofNat_toNat' {n : Nat} (h : n < 256) : (UInt8.ofNat n).toNat = n := by
  rw [UInt8.toNat_ofNat']
  exact Nat.mod_eq_of_lt h

theorem absDiffE_spec (a b : UInt8) : absDiffE a b = specAbsDiff a b := by
  apply UInt8.toNat_inj.1
  have ha := a.toNat_lt
  have hb := b.toNat_lt
  rw [specAbsDiff, ofNat_toNat' (by omega), absDiffE]
  split
  · rename_i h
    have h' : a.toNat < b.toNat := UInt8.lt_iff_toNat_lt.1 h
    rw [UInt8.toNat_sub_of_le _ _ (UInt8.le_iff_toNat_le.2 (by omega))]
    omega
  · rename_i h
    have h' : ¬ a.toNat < b.toNat := fun hh => h (UInt8.lt_iff_toNat_lt.2 hh)
    rw [UInt8.toNat_sub_of_le _ _ (UInt8.le_iff_toNat_le.2 (by omega))]
    omega

theorem maxE_spec (a b : UInt8) : maxE a b = specMax a b := by
  apply UInt8.toNat_inj.1
  have ha := a.toNat_lt
  have hb := b.toNat_lt
  have hmax : Nat.max a.toNat b.toNat < 256 := Nat.max_lt.2 ⟨ha, hb⟩
  rw [specMax, ofNat_toNat' hmax, maxE]
  split
  · rename_i h
    have h' : b.toNat < a.toNat := UInt8.lt_iff_toNat_lt.1 h
    exact (Nat.max_eq_left (by omega)).symm
  · rename_i h
    have h' : ¬ b.toNat < a.toNat := fun hh => h (UInt8.lt_iff_toNat_lt.2 hh)
    exact (Nat.max_eq_right (by omega)).symm

theorem minE_spec (a b : UInt8) : minE a b = specMin a b := by
  apply UInt8.toNat_inj.1
  have ha := a.toNat_lt
  have hmin : Nat.min a.toNat b.toNat < 256 := Nat.lt_of_le_of_lt (Nat.min_le_left _ _) ha
  rw [specMin, ofNat_toNat' hmin, minE]
  split
  · rename_i h
    have h' : a.toNat < b.toNat := UInt8.lt_iff_toNat_lt.1 h
    exact (Nat.min_eq_left (by omega)).symm
  · rename_i h
    have h' : ¬ a.toNat < b.toNat := fun hh => h (UInt8.lt_iff_toNat_lt.2 hh)
    exact (Nat.min_eq_right (by omega)).symm

theorem subE_spec (a b : UInt8) : subE a b = specSub a b := by
  apply UInt8.toNat_inj.1
  have ha := a.toNat_lt
  rw [specSub, ofNat_toNat' (by omega), subE]
  split
  · rename_i h
    have h' : a.toNat < b.toNat := UInt8.lt_iff_toNat_lt.1 h
    have : (0 : UInt8).toNat = 0 := rfl
    rw [this]
    omega
  · rename_i h
    have h' : ¬ a.toNat < b.toNat := fun hh => h (UInt8.lt_iff_toNat_lt.2 hh)
    rw [UInt8.toNat_sub_of_le _ _ (UInt8.le_iff_toNat_le.2 (by omega))]

/-! ### Calls that must work and calls that must be refused -/

/-- A two-input call that has to succeed: the image objects own their pixels, every
    rectangle lies inside its image, the colour counts agree, and input and output
    rectangles do not disturb each other. -/
structure Ready2 (m : BMem) (in1 in2 out : View) (w h : Nat) : Prop where
  wf1 : in1.img.WF m
  wf2 : in2.img.WF m
  wfo : out.img.WF m
  fit1 : in1.Fits w h
  fit2 : in2.Fits w h
  fito : out.Fits w h
  c2 : in2.img.cc = in1.img.cc
  co : out.img.cc = in1.img.cc
  n1 : NoClash in1 out w h
  n2 : NoClash in2 out w h

/-- A one-input call that has to succeed. -/
structure Ready1 (m : BMem) (inp out : View) (w h : Nat) : Prop where
  wfi : inp.img.WF m
  wfo : out.img.WF m
  fiti : inp.Fits w h
  fito : out.Fits w h
  co : out.img.cc = inp.img.cc
  n1 : NoClash inp out w h

/-- A call that has to be refused: 32-bit arguments such that some rectangle does not
    fit its image, or the colour counts differ. -/
structure Bad (vs : List View) (w h : Nat) (colors : Prop) : Prop where
  u32 : ∀ v ∈ vs, v.U32
  hw : w < 2 ^ 32
  hh : h < 2 ^ 32
  bad : (∃ v ∈ vs, ¬ v.Fits w h) ∨ ¬ colors

theorem rois_dichotomy {μ : Type} {m : μ} {vs : List View} {w h : Nat} {colors : Prop}
    (hb : Bad vs w h colors) :
    validateRois vs w h m = .throw m ∨ (validateRois vs w h m = .ok () m ∧ ¬ colors) := by
  by_cases hf : ∃ v ∈ vs, ¬ v.Fits w h
  · exact Or.inl (validateRois_throw m hb.u32 hb.hw hb.hh hf)
  · refine Or.inr ⟨validateRois_ok m fun v hv => ⟨?_, (hb.u32 v hv).hw, (hb.u32 v hv).hh⟩, ?_⟩
    · exact Classical.byContradiction fun hn => hf ⟨v, hv, hn⟩
    · exact hb.bad.resolve_left hf

/-- Equal colour counts. -/
def SameColors2 (in1 in2 out : View) : Prop := in2.img.cc = in1.img.cc ∧ out.img.cc = in1.img.cc

theorem common2_throw {m : BMem} {in1 in2 out : View} (h : ¬ SameColors2 in1 in2 out) :
    checkCommonColorCount in1.img [in2.img, out.img] m = .throw m := by
  refine common_throw ?_
  by_cases h2 : in2.img.cc = in1.img.cc
  · exact ⟨out.img, by simp, fun ho => h ⟨h2, ho⟩⟩
  · exact ⟨in2.img, by simp, h2⟩

theorem prologue2_ok {m : BMem} {in1 in2 out : View} {w h : Nat} (r : Ready2 m in1 in2 out w h)
    (k : M BMem Unit) :
    (do validateRois [in1, in2, out] w h
        checkCommonColorCount in1.img [in2.img, out.img]
        k : M BMem Unit) m = k m := by
  rw [bind_ok (validate_pre_ok (vs := [in1, in2, out])
    (by simp; exact ⟨⟨r.wf1, r.fit1⟩, ⟨r.wf2, r.fit2⟩, r.wfo, r.fito⟩)),
    bind_ok (common_ok (by simp [r.c2, r.co]))]

theorem prologue2_bad {m : BMem} {in1 in2 out : View} {w h : Nat}
    (hb : Bad [in1, in2, out] w h (SameColors2 in1 in2 out)) (k : M BMem Unit) :
    (do validateRois [in1, in2, out] w h
        checkCommonColorCount in1.img [in2.img, out.img]
        k : M BMem Unit) m = .throw m := by
  rcases rois_dichotomy (m := m) hb with ht | ⟨ho, hc⟩
  · rw [bind_throw ht]
  · rw [bind_ok ho, bind_throw (common2_throw hc)]

theorem prologue1_ok {m : BMem} {inp out : View} {w h : Nat} (r : Ready1 m inp out w h)
    (k : M BMem Unit) :
    (do validateRois [inp, out] w h
        checkCommonColorCount inp.img [out.img]
        k : M BMem Unit) m = k m := by
  rw [bind_ok (validate_pre_ok (vs := [inp, out])
    (by simp; exact ⟨⟨r.wfi, r.fiti⟩, r.wfo, r.fito⟩)),
    bind_ok (common_ok (by simp [r.co]))]

theorem prologue1_bad {m : BMem} {inp out : View} {w h : Nat}
    (hb : Bad [inp, out] w h (out.img.cc = inp.img.cc)) (k : M BMem Unit) :
    (do validateRois [inp, out] w h
        checkCommonColorCount inp.img [out.img]
        k : M BMem Unit) m = .throw m := by
  rcases rois_dichotomy (m := m) hb with ht | ⟨ho, hc⟩
  · rw [bind_throw ht]
  · rw [bind_ok ho, bind_throw (common_throw ⟨out.img, by simp, hc⟩)]

/-! ### C09 -/

theorem C09_absoluteDifference {m : BMem} {in1 in2 out : View} {w h : Nat}
    (r : Ready2 m in1 in2 out w h) :
    ∃ m', AbsoluteDifference in1 in2 out w h m = .ok () m' ∧
      WritesRoi m m' out w h fun x y c => specAbsDiff (in1.get m x y c) (in2.get m x y c) := by
  rw [AbsoluteDifference, prologue2_ok r]
  simp only [← absDiffE_spec]
  exact binaryRows_opt r.wf1 r.wf2 r.wfo r.fit1 r.fit2 r.fito r.c2 r.co r.n1 r.n2 (by simp)
    (Or.inl (by simp)) (by simp)

theorem C09_absoluteDifference_rejects {m : BMem} {in1 in2 out : View} {w h : Nat}
    (hb : Bad [in1, in2, out] w h (SameColors2 in1 in2 out)) :
    AbsoluteDifference in1 in2 out w h m = .throw m := by
  rw [AbsoluteDifference, prologue2_bad hb]

/-! ### C10 -/

theorem C10_bitwiseAnd {m : BMem} {in1 in2 out : View} {w h : Nat}
    (r : Ready2 m in1 in2 out w h) :
    ∃ m' F, BitwiseAnd in1 in2 out w h m = .ok () m' ∧ WritesRoi m m' out w h F ∧
      ∀ x y c k, bit (F x y c) k = (bit (in1.get m x y c) k && bit (in2.get m x y c) k) := by
  rw [BitwiseAnd, prologue2_ok r]
  obtain ⟨m', h1, h2⟩ := binaryRows_opt (f := fun a b => a &&& b) r.wf1 r.wf2 r.wfo r.fit1 r.fit2
    r.fito r.c2 r.co r.n1 r.n2 (imgs := [in1.img, in2.img, out.img]) (by simp) (Or.inl (by simp)) (by simp)
  refine ⟨m', _, h1, h2, fun x y c k => ?_⟩
  simp only [bit, UInt8.toNat_and, Nat.testBit_and]

theorem C10_bitwiseOr {m : BMem} {in1 in2 out : View} {w h : Nat}
    (r : Ready2 m in1 in2 out w h) :
    ∃ m' F, BitwiseOr in1 in2 out w h m = .ok () m' ∧ WritesRoi m m' out w h F ∧
      ∀ x y c k, bit (F x y c) k = (bit (in1.get m x y c) k || bit (in2.get m x y c) k) := by
  rw [BitwiseOr, prologue2_ok r]
  obtain ⟨m', h1, h2⟩ := binaryRows_opt (f := fun a b => a ||| b) r.wf1 r.wf2 r.wfo r.fit1 r.fit2
    r.fito r.c2 r.co r.n1 r.n2 (imgs := [in1.img, in2.img, out.img]) (by simp) (Or.inl (by simp)) (by simp)
  refine ⟨m', _, h1, h2, fun x y c k => ?_⟩
  simp only [bit, UInt8.toNat_or, Nat.testBit_or]

theorem C10_bitwiseXor {m : BMem} {in1 in2 out : View} {w h : Nat}
    (r : Ready2 m in1 in2 out w h) :
    ∃ m' F, BitwiseXor in1 in2 out w h m = .ok () m' ∧ WritesRoi m m' out w h F ∧
      ∀ x y c k, bit (F x y c) k = (bit (in1.get m x y c) k != bit (in2.get m x y c) k) := by
  rw [BitwiseXor, prologue2_ok r]
  obtain ⟨m', h1, h2⟩ := binaryRows_opt (f := fun a b => a ^^^ b) r.wf1 r.wf2 r.wfo r.fit1 r.fit2
    r.fito r.c2 r.co r.n1 r.n2 (imgs := [in1.img, in2.img, out.img]) (by simp) (Or.inl (by simp)) (by simp)
  refine ⟨m', _, h1, h2, fun x y c k => ?_⟩
  simp only [bit, UInt8.toNat_xor, Nat.testBit_xor]

theorem C10_bitwise_rejects {m : BMem} {in1 in2 out : View} {w h : Nat}
    (hb : Bad [in1, in2, out] w h (SameColors2 in1 in2 out)) :
    BitwiseAnd in1 in2 out w h m = .throw m ∧ BitwiseOr in1 in2 out w h m = .throw m ∧
    BitwiseXor in1 in2 out w h m = .throw m := by
  refine ⟨?_, ?_, ?_⟩
  · rw [BitwiseAnd, prologue2_bad hb]
  · rw [BitwiseOr, prologue2_bad hb]
  · rw [BitwiseXor, prologue2_bad hb]

/-! ### C11 -/

theorem C11_maximum {m : BMem} {in1 in2 out : View} {w h : Nat}
    (r : Ready2 m in1 in2 out w h) :
    ∃ m', Maximum in1 in2 out w h m = .ok () m' ∧
      WritesRoi m m' out w h fun x y c => specMax (in1.get m x y c) (in2.get m x y c) := by
  rw [Maximum, prologue2_ok r]
  simp only [← maxE_spec]
  exact binaryRows_opt r.wf1 r.wf2 r.wfo r.fit1 r.fit2 r.fito r.c2 r.co r.n1 r.n2 (by simp)
    (Or.inl (by simp)) (by simp)

theorem C11_minimum {m : BMem} {in1 in2 out : View} {w h : Nat}
    (r : Ready2 m in1 in2 out w h) :
    ∃ m', Minimum in1 in2 out w h m = .ok () m' ∧
      WritesRoi m m' out w h fun x y c => specMin (in1.get m x y c) (in2.get m x y c) := by
  rw [Minimum, prologue2_ok r]
  simp only [← minE_spec]
  exact binaryRows_opt r.wf1 r.wf2 r.wfo r.fit1 r.fit2 r.fito r.c2 r.co r.n1 r.n2 (by simp)
    (Or.inl (by simp)) (by simp)

theorem C11_rejects {m : BMem} {in1 in2 out : View} {w h : Nat}
    (hb : Bad [in1, in2, out] w h (SameColors2 in1 in2 out)) :
    Maximum in1 in2 out w h m = .throw m ∧ Minimum in1 in2 out w h m = .throw m := by
  constructor
  · rw [Maximum, prologue2_bad hb]
  · rw [Minimum, prologue2_bad hb]

/-! ### C12 : Subtract -/

/-- The guard under which `Subtract` is right: the second input has rows as long as the
    first one, or the call does not cover complete rows of the first input and the
    output, or there is only one row. -/
def SubtractGuard (in1 in2 out : View) (w h : Nat) : Prop :=
  in2.img.rowSize = in1.img.rowSize ∨
  ¬ (in1.img.rowSize = w * in1.img.cc ∧ out.img.rowSize = w * in1.img.cc) ∨ h = 1

/-- C12 under the guard.  What is missing for the full C12: padded (or wider) second
    inputs, for which the claim is false (`C12_subtract_wrong`). -/
theorem C12_subtract_partial {m : BMem} {in1 in2 out : View} {w h : Nat}
    (r : Ready2 m in1 in2 out w h) (hg : SubtractGuard in1 in2 out w h) :
    ∃ m', Subtract in1 in2 out w h m = .ok () m' ∧
      WritesRoi m m' out w h fun x y c => specSub (in1.get m x y c) (in2.get m x y c) := by
  rw [Subtract, prologue2_ok r]
  simp only [← subE_spec]
  by_cases he : in2.img.rowSize = in1.img.rowSize
  · exact binaryRows_opt r.wf1 r.wf2 r.wfo r.fit1 r.fit2 r.fito r.c2 r.co r.n1 r.n2 (by simp)
      (Or.inr he) (by simp)
  · have heq : optimiseRoi (u32 (w * in1.img.cc)) h [in1.img, in1.img, out.img]
        = optimiseRoi (u32 (w * in1.img.cc)) h [in1.img, in2.img, out.img] := by
      obtain ⟨_, _, _, _, _, _, _, _, hwcc, _⟩ := View.facts r.wf1 r.fit1
      rw [u32_of_lt hwcc]
      rcases hg with hg | hg | hg
      · exact absurd hg he
      · rcases optimiseRoi_cases (w * in1.img.cc) h [in1.img, in1.img, out.img] r.fit1.hpos with
          ha | ⟨_, ha, _⟩
        · rcases optimiseRoi_cases (w * in1.img.cc) h [in1.img, in2.img, out.img] r.fit1.hpos with
            hb | ⟨_, hb, _⟩
          · rw [ha, hb]
          · exact absurd ⟨hb _ (by simp), hb _ (by simp)⟩ hg
        · exact absurd ⟨ha _ (by simp), ha _ (by simp)⟩ hg
      · subst hg
        rcases optimiseRoi_cases (w * in1.img.cc) 1 [in1.img, in1.img, out.img] (by decide) with
          ha | ⟨ha, _, _⟩ <;>
        rcases optimiseRoi_cases (w * in1.img.cc) 1 [in1.img, in2.img, out.img] (by decide) with
          hb | ⟨hb, _, _⟩ <;> rw [ha, hb] <;> simp
    simp only [heq]
    exact binaryRows_opt r.wf1 r.wf2 r.wfo r.fit1 r.fit2 r.fito r.c2 r.co r.n1 r.n2 (by simp)
      (Or.inl (by simp)) (by simp)

theorem C12_subtract_rejects {m : BMem} {in1 in2 out : View} {w h : Nat}
    (hb : Bad [in1, in2, out] w h (SameColors2 in1 in2 out)) :
    Subtract in1 in2 out w h m = .throw m := by
  rw [Subtract, prologue2_bad hb]

/-! Concrete memory used in examples: blocks 1, 2, 3, ... of 16 bytes. -/

def exMem : BMem where
  size b := if b = 0 then 0 else 16
  byte b i := UInt8.ofNat (b * 10 + i * i)

/-- A 2x2 image without padding. -/
def tight (b : Nat) : Image := ⟨b, 2, 2, 1, 2⟩
/-- A 2x2 image with rows padded to 4 bytes. -/
def padded (b : Nat) : Image := ⟨b, 2, 2, 1, 4⟩

theorem wf_tight (b : Nat) (hb : b ≠ 0) : (tight b).WF exMem :=
  ⟨by simp [tight], by simp [tight, exMem, hb], by simp [tight]⟩
theorem wf_padded (b : Nat) (hb : b ≠ 0) : (padded b).WF exMem :=
  ⟨by simp [padded], by simp [padded, exMem, hb], by simp [padded]⟩

theorem fits_tight (b : Nat) (hb : b ≠ 0) : (⟨tight b, 0, 0⟩ : View).Fits 2 2 :=
  ⟨hb, Or.inl rfl, by decide, by decide, by simp [tight], by simp [tight]⟩
theorem fits_padded (b : Nat) (hb : b ≠ 0) : (⟨padded b, 0, 0⟩ : View).Fits 2 2 :=
  ⟨hb, Or.inl rfl, by decide, by decide, by simp [padded], by simp [padded]⟩

/-- The hypotheses of C09 - C12 can be met: three images with different padding. -/
theorem ready2_ex : Ready2 exMem ⟨tight 1, 0, 0⟩ ⟨padded 2, 0, 0⟩ ⟨tight 3, 0, 0⟩ 2 2 :=
  ⟨wf_tight 1 (by decide), wf_padded 2 (by decide), wf_tight 3 (by decide), fits_tight 1 (by decide),
    fits_padded 2 (by decide), fits_tight 3 (by decide), rfl, rfl,
    noClash_of_ne _ _ (by decide), noClash_of_ne _ _ (by decide)⟩

/-- ... also in place: output is the first input. -/
example : Ready2 exMem ⟨tight 1, 0, 0⟩ ⟨padded 2, 0, 0⟩ ⟨tight 1, 0, 0⟩ 2 2 :=
  ⟨wf_tight 1 (by decide), wf_padded 2 (by decide), wf_tight 1 (by decide), fits_tight 1 (by decide),
    fits_padded 2 (by decide), fits_tight 1 (by decide), rfl, rfl,
    noClash_self (by decide) (by decide), noClash_of_ne _ _ (by decide)⟩

/-- Value of a byte after a call (none if the call threw or had undefined behaviour). -/
def after (r : Res BMem Unit) (b i : Nat) : Option UInt8 :=
  match r with
  | .ok _ m => some (m.byte b i)
  | _ => none

example : after (AbsoluteDifference ⟨tight 1, 0, 0⟩ ⟨padded 2, 0, 0⟩ ⟨tight 3, 0, 0⟩ 2 2 exMem) 3 2
    = some (36 - 14) := by decide
example : Bad [⟨tight 1, 0, 0⟩, ⟨tight 2, 1, 0⟩, ⟨tight 3, 0, 0⟩] 2 2
    (SameColors2 ⟨tight 1, 0, 0⟩ ⟨tight 2, 1, 0⟩ ⟨tight 3, 0, 0⟩) :=
  ⟨by
      intro v hv
      simp only [List.mem_cons, List.not_mem_nil, or_false] at hv
      rcases hv with rfl | rfl | rfl <;> exact ⟨by decide, by decide, by decide, by decide⟩,
    by decide, by decide, Or.inl ⟨⟨tight 2, 1, 0⟩, by simp, fun hf => absurd hf.inX (by decide)⟩⟩

/-- First input all 200, padding byte 2 of the second input 150, its pixels 0. -/
def subMem : BMem where
  size b := if b = 0 then 0 else 16
  byte b i := if b = 1 then 200 else if b = 2 ∧ i = 2 then 150 else 0

/-- C12 is false as stated: with an unpadded first input and output and a padded second
    input, `Subtract` returns normally with a wrong pixel, because the row merging of line
    1918 ignores the second input: output pixel (0,1) must be 200 - 0 and is 50. -/
theorem C12_subtract_wrong :
    Ready2 subMem ⟨tight 1, 0, 0⟩ ⟨padded 2, 0, 0⟩ ⟨tight 3, 0, 0⟩ 2 2 ∧
    specSub ((⟨tight 1, 0, 0⟩ : View).get subMem 0 1 0) ((⟨padded 2, 0, 0⟩ : View).get subMem 0 1 0) = 200 ∧
    after (Subtract ⟨tight 1, 0, 0⟩ ⟨padded 2, 0, 0⟩ ⟨tight 3, 0, 0⟩ 2 2 subMem) 3
      ((⟨tight 3, 0, 0⟩ : View).cell 0 1 0) = some 50 := by
  refine ⟨⟨⟨by decide, by decide, by decide⟩, ⟨by decide, by decide, by decide⟩,
    ⟨by decide, by decide, by decide⟩, fits_tight 1 (by decide),
    fits_padded 2 (by decide), fits_tight 3 (by decide), rfl, rfl,
    noClash_of_ne _ _ (by decide), noClash_of_ne _ _ (by decide)⟩, by decide, by decide⟩

/-! ### C13 : Invert -/

theorem invert_spec (a : UInt8) : (~~~ a) = UInt8.ofNat (255 - a.toNat) := by
  apply UInt8.toNat_inj.1
  have ha := a.toNat_lt
  rw [ofNat_toNat' (by omega), UInt8.toNat_not]
  simp only [UInt8.size]

theorem C13_invert {m : BMem} {inp out : View} {w h : Nat} (r : Ready1 m inp out w h) :
    ∃ m', Invert inp out w h m = .ok () m' ∧
      WritesRoi m m' out w h fun x y c => UInt8.ofNat (255 - (inp.get m x y c).toNat) := by
  rw [Invert, prologue1_ok r]
  simp only [← invert_spec]
  exact unaryRows_opt r.wfi r.wfo r.fiti r.fito r.co r.n1

theorem C13_invert_rejects {m : BMem} {inp out : View} {w h : Nat}
    (hb : Bad [inp, out] w h (out.img.cc = inp.img.cc)) : Invert inp out w h m = .throw m := by
  rw [Invert, prologue1_bad hb]

theorem Image.WF.of_size {α : Type} {m m' : Mem α} {img : Image} (wf : img.WF m)
    (hs : m'.size = m.size) : img.WF m' := ⟨wf.row, by rw [hs]; exact wf.block, wf.small⟩

/-- Inverting in place twice restores the complete memory. -/
theorem C13_invert_involution {m : BMem} {v : View} {w h : Nat} (wf : v.img.WF m)
    (fit : v.Fits w h) :
    ∃ m', Invert v v w h m = .ok () m' ∧ Invert v v w h m' = .ok () m := by
  have r : Ready1 m v v w h := ⟨wf, wf, fit, fit, rfl, noClash_self wf.row fit.inX⟩
  obtain ⟨m', h1, h2⟩ := C13_invert r
  have wf' := Image.WF.of_size wf h2.size_eq
  have r' : Ready1 m' v v w h := ⟨wf', wf', fit, fit, rfl, noClash_self wf.row fit.inX⟩
  obtain ⟨m'', h3, h4⟩ := C13_invert r'
  refine ⟨m', h1, ?_⟩
  rw [h3]
  congr 1
  have hA : WritesRoi m m'' v w h fun x y c => v.get m x y c := by
    refine ⟨by rw [h4.size_eq, h2.size_eq], ?_, ?_⟩
    · intro x y c hx hy hc
      rw [h4.inside x y c hx hy hc, h2.inside x y c hx hy hc]
      have := (v.get m x y c).toNat_lt
      apply UInt8.toNat_inj.1
      rw [ofNat_toNat' (by omega), ofNat_toNat' (by omega)]
      omega
    · intro b i hne
      rw [h4.outside b i hne, h2.outside b i hne]
  have hB : WritesRoi m m v w h fun x y c => v.get m x y c :=
    ⟨rfl, fun _ _ _ _ _ _ => rfl, fun _ _ _ => rfl⟩
  exact hA.unique hB

example : Ready1 exMem ⟨tight 1, 0, 0⟩ ⟨padded 2, 0, 0⟩ 2 2 :=
  ⟨wf_tight 1 (by decide), wf_padded 2 (by decide), fits_tight 1 (by decide),
    fits_padded 2 (by decide), rfl, noClash_of_ne _ _ (by decide)⟩
example : after (Invert ⟨tight 1, 0, 0⟩ ⟨padded 2, 0, 0⟩ 2 2 exMem) 2 5 = some (255 - 19) := by decide

/-! ### C14 : Threshold -/

/-- Both images are gray-scale. -/
def Gray1 (inp out : View) : Prop := inp.img.cc = 1 ∧ out.img.cc = 1

theorem grayPrologue_ok {m : BMem} {inp out : View} {w h : Nat} (r : Ready1 m inp out w h)
    (g : inp.img.cc = 1) (k : M BMem Unit) :
    (do validateRois [inp, out] w h
        verifyGray [inp.img, out.img]
        k : M BMem Unit) m = k m := by
  rw [bind_ok (validate_pre_ok (vs := [inp, out])
    (by simp; exact ⟨⟨r.wfi, r.fiti⟩, r.wfo, r.fito⟩)),
    bind_ok (gray_ok (by simp [g, r.co]))]

theorem grayPrologue_bad {m : BMem} {inp out : View} {w h : Nat}
    (hb : Bad [inp, out] w h (Gray1 inp out)) (k : M BMem Unit) :
    (do validateRois [inp, out] w h
        verifyGray [inp.img, out.img]
        k : M BMem Unit) m = .throw m := by
  rcases rois_dichotomy (m := m) hb with ht | ⟨ho, hc⟩
  · rw [bind_throw ht]
  · rw [bind_ok ho, bind_throw (gray_throw ?_)]
    by_cases h1 : inp.img.cc = 1
    · exact ⟨out.img, by simp, fun h2 => hc ⟨h1, h2⟩⟩
    · exact ⟨inp.img, by simp, h1⟩

theorem C14_threshold {m : BMem} {inp out : View} {w h : Nat} (t : UInt8)
    (r : Ready1 m inp out w h) (g : inp.img.cc = 1) :
    ∃ m', Threshold inp out w h t m = .ok () m' ∧
      WritesRoi m m' out w h fun x y c =>
        if t.toNat ≤ (inp.get m x y c).toNat then 255 else 0 := by
  rw [Threshold, grayPrologue_ok r g]
  have := unaryRows_opt (f := thrE t) r.wfi r.wfo r.fiti r.fito r.co r.n1
  obtain ⟨_, _, _, _, _, _, _, _, hw, _⟩ := View.facts r.wfi r.fiti
  rw [g, Nat.mul_one] at hw
  rw [g, Nat.mul_one, u32_of_lt hw] at this
  obtain ⟨m', h1, h2⟩ := this
  refine ⟨m', h1, h2.size_eq, ?_, h2.outside⟩
  intro x y c hx hy hc
  rw [h2.inside x y c hx hy hc, thrE]
  simp only [UInt8.lt_iff_toNat_lt]
  by_cases hlt : (inp.get m x y c).toNat < t.toNat
  · rw [if_pos hlt, if_neg (by omega)]
  · rw [if_neg hlt, if_pos (by omega)]

theorem C14_threshold2 {m : BMem} {inp out : View} {w h : Nat} (lo hi : UInt8) (hlh : lo ≤ hi)
    (r : Ready1 m inp out w h) (g : inp.img.cc = 1) :
    ∃ m', Threshold2 inp out w h lo hi m = .ok () m' ∧
      WritesRoi m m' out w h fun x y c =>
        if lo.toNat ≤ (inp.get m x y c).toNat ∧ (inp.get m x y c).toNat ≤ hi.toNat then 255 else 0 := by
  rw [Threshold2, grayPrologue_ok r g]
  have hnot : decide (lo > hi) = false := by
    have : lo.toNat ≤ hi.toNat := UInt8.le_iff_toNat_le.1 hlh
    simp only [gt_iff_lt, UInt8.lt_iff_toNat_lt, decide_eq_false_iff_not]
    omega
  simp only [hnot, throwIf_false, pure_bind']
  have := unaryRows_opt (f := thr2E lo hi) r.wfi r.wfo r.fiti r.fito r.co r.n1
  obtain ⟨_, _, _, _, _, _, _, _, hw, _⟩ := View.facts r.wfi r.fiti
  rw [g, Nat.mul_one] at hw
  rw [g, Nat.mul_one, u32_of_lt hw] at this
  obtain ⟨m', h1, h2⟩ := this
  refine ⟨m', h1, h2.size_eq, ?_, h2.outside⟩
  intro x y c hx hy hc
  rw [h2.inside x y c hx hy hc, thr2E]
  simp only [UInt8.lt_iff_toNat_lt, gt_iff_lt]
  by_cases hlt : (inp.get m x y c).toNat < lo.toNat ∨ hi.toNat < (inp.get m x y c).toNat
  · rw [if_pos hlt, if_neg (by omega)]
  · rw [if_neg hlt, if_pos (by omega)]

theorem C14_threshold_rejects {m : BMem} {inp out : View} {w h : Nat} (t lo hi : UInt8)
    (hb : Bad [inp, out] w h (Gray1 inp out)) :
    Threshold inp out w h t m = .throw m ∧ Threshold2 inp out w h lo hi m = .throw m := by
  constructor
  · rw [Threshold, grayPrologue_bad hb]
  · rw [Threshold2, grayPrologue_bad hb]

/-- Swapped limits are refused as well. -/
theorem C14_threshold2_rejects_limits {m : BMem} {inp out : View} {w h : Nat} (lo hi : UInt8)
    (hlh : hi < lo) (r : Ready1 m inp out w h) (g : inp.img.cc = 1) :
    Threshold2 inp out w h lo hi m = .throw m := by
  rw [Threshold2, grayPrologue_ok r g]
  have : decide (lo > hi) = true := by simpa using hlh
  simp only [this]
  rfl

example : after (Threshold ⟨tight 1, 0, 0⟩ ⟨padded 2, 0, 0⟩ 2 2 11 exMem) 2 1 = some 255 := by decide
example : after (Threshold2 ⟨tight 1, 0, 0⟩ ⟨padded 2, 0, 0⟩ 2 2 11 14 exMem) 2 5 = some 0 := by decide

/-! ### C15 : LookupTable -/

theorem C15_lookupTable {m : BMem} {inp out : View} {w h : Nat} (table : List UInt8)
    (hlen : table.length = 256) (r : Ready1 m inp out w h) :
    ∃ m', LookupTable inp out w h table m = .ok () m' ∧
      WritesRoi m m' out w h fun x y c =>
        table[(inp.get m x y c).toNat]'(by rw [hlen]; exact UInt8.toNat_lt _) := by
  rw [LookupTable, bind_ok (validate_pre_ok (vs := [inp, out])
    (by simp; exact ⟨⟨r.wfi, r.fiti⟩, r.wfo, r.fito⟩))]
  have hl : (table.length != 256) = false := by simp [hlen]
  rw [hl, throwIf_false, pure_bind', bind_ok (common_ok (by simp [r.co]))]
  have hb : (fun (outX inX : Nat) (_ : Unit) => (do
        let a ← readC inp.img.data inX
        let t ← orUb table[a.toNat]?
        writeC out.img.data outX t : M BMem Unit)) = fun outX inX _ => (do
        let a ← readC inp.img.data inX
        writeC out.img.data outX (table[a.toNat]'(by rw [hlen]; exact UInt8.toNat_lt _))) := by
    funext outX inX _
    congr 1
    funext a
    rw [List.getElem?_eq_getElem (by rw [hlen]; exact UInt8.toNat_lt _)]
    rfl
  rw [hb]
  exact unaryRows_opt (f := fun a => table[a.toNat]'(by rw [hlen]; exact UInt8.toNat_lt _))
    r.wfi r.wfo r.fiti r.fito r.co r.n1

theorem C15_lookupTable_rejects {m : BMem} {inp out : View} {w h : Nat} (table : List UInt8)
    (hb : Bad [inp, out] w h (out.img.cc = inp.img.cc ∧ table.length = 256)) :
    LookupTable inp out w h table m = .throw m := by
  rw [LookupTable]
  rcases rois_dichotomy (m := m) hb with ht | ⟨ho, hc⟩
  · rw [bind_throw ht]
  · rw [bind_ok ho]
    by_cases hl : table.length = 256
    · have : (table.length != 256) = false := by simp [hl]
      rw [this, throwIf_false, pure_bind', bind_throw (common_throw ⟨out.img, by simp, fun h => hc ⟨h, hl⟩⟩)]
    · have : (table.length != 256) = true := by simpa using hl
      rw [this, bind_throw (throwIf_true m)]

set_option maxRecDepth 8000 in
example : after (LookupTable ⟨tight 1, 0, 0⟩ ⟨padded 2, 0, 0⟩ 2 2
    ((List.range 256).map fun i => UInt8.ofNat (i / 2)) exMem) 2 5 = some 9 := by decide

/-! ### C16 : Copy of a ROI -/

/-- `Copy` for rectangles that have no byte in common (different images, or disjoint
    parts of one image). -/
theorem C16_copy {m : BMem} {inp out : View} {w h : Nat}
    (wfi : inp.img.WF m) (wfo : out.img.WF m) (fiti : inp.Fits w h) (fito : out.Fits w h)
    (co : out.img.cc = inp.img.cc) (hap : Apart inp w h out w h) :
    ∃ m', CopyRoi inp out w h m = .ok () m' ∧
      WritesRoi m m' out w h fun x y c => inp.get m x y c :=
  CopyRoi_rows wfi wfo fiti fito co hap

theorem C16_copy_rejects {m : BMem} {inp out : View} {w h : Nat}
    (hb : Bad [inp, out] w h (out.img.cc = inp.img.cc)) : CopyRoi inp out w h m = .throw m := by
  rw [CopyRoi, prologue1_bad hb]

/-- Copying the left column of an image to its right column. -/
example : Apart ⟨padded 2, 0, 0⟩ 1 2 ⟨padded 2, 1, 0⟩ 1 2 :=
  apart_disjoint rfl (by decide) (by decide) (by decide) (Or.inl (by decide))
example : after (CopyRoi ⟨padded 2, 0, 0⟩ ⟨padded 2, 1, 0⟩ 1 2 exMem) 2 5 = some 36 := by decide

/-- A copy onto itself calls `memcpy` with equal pointers, which the C standard leaves
    undefined; hence the hypothesis `Apart` of C16. -/
theorem C16_copy_self_ub :
    CopyRoi ⟨padded 2, 0, 0⟩ ⟨padded 2, 0, 0⟩ 2 2 exMem = .ub := by
  rfl

/-! ### C17 : Fill -/

theorem C17_fill {m : BMem} {v : View} {w h : Nat} (wf : v.img.WF m) (fit : v.Fits w h)
    (value : UInt8) :
    ∃ m', Fill v w h value m = .ok () m' ∧ WritesRoi m m' v w h fun _ _ _ => value :=
  Fill_rows wf fit value

theorem C17_fill_rejects {m : BMem} {v : View} {w h : Nat} (value : UInt8)
    (hb : Bad [v] w h True) : Fill v w h value m = .throw m := by
  rw [Fill]
  rcases rois_dichotomy (m := m) hb with ht | ⟨_, hc⟩
  · rw [bind_throw ht]
  · exact absurd trivial hc

example : after (Fill ⟨padded 2, 1, 0⟩ 1 2 77 exMem) 2 5 = some 77 := by decide

/-! ### C36 : images of 4 GiB and more -/

/-- C36 is false: on a 65536 x 65536 gray-scale image, whose storage is complete, `Fill`
    returns normally and leaves the memory exactly as it was: the row loop ends at once
    because `height * rowSize` is 0 modulo 2^32. -/
theorem C36_fill_large_image_noop (m : BMem) (b : Nat) (hb : b ≠ 0) (value : UInt8) :
    Fill ⟨⟨b, 65536, 65536, 1, 65536⟩, 0, 0⟩ 65536 65536 value m = .ok () m := by
  have hf : (⟨⟨b, 65536, 65536, 1, 65536⟩, 0, 0⟩ : View).Fits 65536 65536 :=
    ⟨hb, Or.inl rfl, by decide, by decide, by simp, by simp⟩
  rw [Fill, bind_ok (validateRois_ok m (by simp; exact hf))]
  exact loop_stop (by simp [View.start, u32, optimiseRoi, isFullImageRow])

/-- The same happens to `Invert` (and to every function using the common row loops). -/
theorem C36_invert_large_image_noop (m : BMem) (b : Nat) (hb : b ≠ 0) :
    Invert ⟨⟨b, 65536, 65536, 1, 65536⟩, 0, 0⟩ ⟨⟨b, 65536, 65536, 1, 65536⟩, 0, 0⟩ 65536 65536 m
      = .ok () m := by
  have hf : (⟨⟨b, 65536, 65536, 1, 65536⟩, 0, 0⟩ : View).Fits 65536 65536 :=
    ⟨hb, Or.inl rfl, by decide, by decide, by simp, by simp⟩
  rw [Invert, bind_ok (validateRois_ok m (by simp; exact hf)), bind_ok (common_ok (by simp)), unaryRows, rowLoop2]
  exact loop_stop (by simp [View.start, u32, optimiseRoi, isFullImageRow])

end PV.Props
