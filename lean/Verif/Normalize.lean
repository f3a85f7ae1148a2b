import Verif.Rounding
import Verif.Reduce
import Verif.PixelCopy
/-
  Normalize and GammaCorrection, src/image_function.cpp 1285-1327 and 829-837,
  src/image_function_helper.cpp 381-397.

  `rnd` is the rounding of floating-point operations.  A conversion of a value out of the range of
  `uint8_t` is undefined in C++; `oob` is what it gives: `none` for the language standard, a value for
  an implementation which does not care.
-/
namespace PV

/-- `static_cast<uint8_t>( q )`: the fraction is dropped. src/image_function.cpp 1323. -/
def castU8 (oob : ℚ → Option UInt8) (q : ℚ) : Option UInt8 :=
  if -1 < q ∧ q < 256 then some (UInt8.ofNat ⌊q⌋.toNat) else oob q

/-- The loops of src/image_function.cpp 1296-1310: minimum and maximum. -/
def minMax (inp : View) (w h : Nat) : M BMem (UInt8 × UInt8) :=
  rowLoop1 inp.img.rowSize 1 (fun inX s => do
    let a ← readC inp.img.data inX
    pure (if s.1 > a then a else s.1, if s.2 < a then a else s.2)) (inp.start inp.img.cc) (u32 (w * inp.img.cc)) h (255, 0)

/-- The expression of src/image_function.cpp 1322 with `correction` of 1316. -/
def normalValue (rnd : ℚ → ℚ) (mn mx : UInt8) (i : Nat) : ℚ :=
  rnd (rnd (((i : ℚ) - mn.toNat) * rnd (255 / ((mx.toNat : ℚ) - mn.toNat))) + 1 / 2)

/-- `value`, src/image_function.cpp 1319-1322 -/
def normalTable (rnd : ℚ → ℚ) (oob : ℚ → Option UInt8) (mn mx : UInt8) : Option (List UInt8) :=
  (List.range 256).mapM fun i => castU8 oob (normalValue rnd mn mx i)

/-- The end of the function, src/image_function.cpp 1312-1325 -/
def normalizeWith (rnd : ℚ → ℚ) (oob : ℚ → Option UInt8) (inp out : View) (w h : Nat) (s : UInt8 × UInt8) : M BMem Unit :=
  if (s.1 = 0 ∧ s.2 = 255) ∨ s.1 = s.2 then CopyRoi inp out w h
  else
    match normalTable rnd oob s.1 s.2 with
    | none => ubE
    | some t => LookupTable inp out w h t

/-- `Normalize`, src/image_function.cpp 1285-1327 -/
def Normalize (rnd : ℚ → ℚ) (oob : ℚ → Option UInt8) (inp out : View) (w h : Nat) : M BMem Unit := do
  validateRois [inp, out] w h
  checkCommonColorCount inp.img [out.img]
  let s ← minMax inp w h
  normalizeWith rnd oob inp out w h s

/-- The expression of src/image_function_helper.cpp 390.  `pow` is the function of the C library. -/
def gammaData (rnd : ℚ → ℚ) (pow : ℚ → ℚ → ℚ) (a gamma : ℚ) (i : Nat) : ℚ :=
  rnd (rnd (rnd (a * pow (rnd ((i : ℚ) / 255)) gamma) * 255) + 1 / 2)

/-- src/image_function_helper.cpp 386-396; a conversion out of range would be undefined. -/
def gammaTable (rnd : ℚ → ℚ) (pow : ℚ → ℚ → ℚ) (a gamma : ℚ) : Option (List UInt8) :=
  (List.range 256).mapM fun i =>
    if gammaData rnd pow a gamma i < 256 then castU8 (fun _ => none) (gammaData rnd pow a gamma i) else some 255

/-- `GetGammaCorrectionLookupTable`, src/image_function_helper.cpp 381-397 -/
def GetGammaCorrectionLookupTable {μ : Type} (rnd : ℚ → ℚ) (pow : ℚ → ℚ → ℚ) (a gamma : ℚ) : M μ (List UInt8) := do
  throwIf (decide (a < 0) || decide (gamma < 0))
  orUb (gammaTable rnd pow a gamma)

/-- `GammaCorrection`, src/image_function.cpp 829-837 -/
def GammaCorrection (rnd : ℚ → ℚ) (pow : ℚ → ℚ → ℚ) (inp out : View) (w h : Nat) (a gamma : ℚ) : M BMem Unit := do
  validateRois [inp, out] w h
  let value ← GetGammaCorrectionLookupTable rnd pow a gamma
  LookupTable inp out w h value

/-! ### Minimum and maximum -/

theorem minMax_run {m : BMem} {inp : View} {w h : Nat} (wf : inp.img.WF m) (fit : inp.Fits w h) :
    ∃ mn mx, minMax inp w h m = .ok (mn, mx) m ∧
      (∀ x y c, x < w → y < h → c < inp.img.cc → mn ≤ inp.get m x y c ∧ inp.get m x y c ≤ mx) ∧
      (∃ x y c, x < w ∧ y < h ∧ c < inp.img.cc ∧ inp.get m x y c = mn) ∧
      (∃ x y c, x < w ∧ y < h ∧ c < inp.img.cc ∧ inp.get m x y c = mx) := by
  obtain ⟨hcc, hr, _, _, _, hfit, _, _, hwcc, _⟩ := View.facts wf fit
  have e := rowLoop1_eq (μ := BMem) (A := UInt8 × UInt8) (row := inp.img.rowSize) (step := 1)
    (body := fun inX s => do
      let a ← readC inp.img.data inX
      pure (if s.1 > a then a else s.1, if s.2 < a then a else s.2)) (pY := inp.start inp.img.cc)
    (n := w * inp.img.cc) (height := h) (255, 0) hr (by decide) hfit (by omega)
  rw [Nat.mul_one] at e
  rw [minMax, u32_of_lt hwcc, e, fold_bytesL,
    fold_reads (f := fun p s => (if s.1 > inp.get m p.1 p.2.1 p.2.2 then inp.get m p.1 p.2.1 p.2.2 else s.1,
      if s.2 < inp.get m p.1 p.2.1 p.2.2 then inp.get m p.1 p.2.1 p.2.2 else s.2))]
  · have key : ∀ (L : List (Nat × Nat × Nat)) (s : UInt8 × UInt8),
        let r := L.foldl (fun s p => (if s.1 > inp.get m p.1 p.2.1 p.2.2 then inp.get m p.1 p.2.1 p.2.2 else s.1,
          if s.2 < inp.get m p.1 p.2.1 p.2.2 then inp.get m p.1 p.2.1 p.2.2 else s.2)) s
        (r.1 ≤ s.1 ∧ s.2 ≤ r.2) ∧ (∀ p ∈ L, r.1 ≤ inp.get m p.1 p.2.1 p.2.2 ∧ inp.get m p.1 p.2.1 p.2.2 ≤ r.2) ∧
        (r.1 = s.1 ∨ ∃ p ∈ L, inp.get m p.1 p.2.1 p.2.2 = r.1) ∧ (r.2 = s.2 ∨ ∃ p ∈ L, inp.get m p.1 p.2.1 p.2.2 = r.2) := by
      intro L
      induction L with
      | nil =>
        intro s
        exact ⟨⟨UInt8.le_refl _, UInt8.le_refl _⟩, by simp, Or.inl rfl, Or.inl rfl⟩
      | cons p ps ih =>
        intro s
        rw [List.foldl_cons]
        obtain ⟨⟨a1, a2⟩, a3, a4, a5⟩ := ih (if s.1 > inp.get m p.1 p.2.1 p.2.2 then inp.get m p.1 p.2.1 p.2.2 else s.1,
          if s.2 < inp.get m p.1 p.2.1 p.2.2 then inp.get m p.1 p.2.1 p.2.2 else s.2)
        generalize List.foldl _ _ ps = r at *
        have hg : ∀ q : UInt8, inp.get m p.1 p.2.1 p.2.2 = q → ∃ p' ∈ p :: ps, inp.get m p'.1 p'.2.1 p'.2.2 = q :=
          fun q hq => ⟨p, List.mem_cons_self .., hq⟩
        have hgs : ∀ q : UInt8, (∃ p' ∈ ps, inp.get m p'.1 p'.2.1 p'.2.2 = q) → ∃ p' ∈ p :: ps, inp.get m p'.1 p'.2.1 p'.2.2 = q :=
          fun q ⟨p', h1, h2⟩ => ⟨p', List.mem_cons_of_mem _ h1, h2⟩
        have ha : r.1 ≤ inp.get m p.1 p.2.1 p.2.2 ∧ r.1 ≤ s.1 := by
          simp only [UInt8.le_iff_toNat_le] at *
          split at a1 <;> rename_i hh <;> simp only [gt_iff_lt, UInt8.lt_iff_toNat_lt] at hh <;> omega
        have hb : inp.get m p.1 p.2.1 p.2.2 ≤ r.2 ∧ s.2 ≤ r.2 := by
          simp only [UInt8.le_iff_toNat_le] at *
          split at a2 <;> rename_i hh <;> simp only [UInt8.lt_iff_toNat_lt] at hh <;> omega
        refine ⟨⟨ha.2, hb.2⟩, ?_, ?_, ?_⟩
        · intro q hq
          rcases List.mem_cons.mp hq with rfl | hq
          · exact ⟨ha.1, hb.1⟩
          · exact a3 q hq
        · rcases a4 with h | h
          · rw [h]
            by_cases hh : s.1 > inp.get m p.1 p.2.1 p.2.2
            · exact Or.inr (hg _ (if_pos hh).symm)
            · exact Or.inl (if_neg hh)
          · exact Or.inr (hgs _ h)
        · rcases a5 with h | h
          · rw [h]
            by_cases hh : s.2 < inp.get m p.1 p.2.1 p.2.2
            · exact Or.inr (hg _ (if_pos hh).symm)
            · exact Or.inl (if_neg hh)
          · exact Or.inr (hgs _ h)
    have hk := key (bytesL w h inp.img.cc) (255, 0)
    generalize List.foldl _ _ (bytesL w h inp.img.cc) = r at hk
    obtain ⟨⟨a1, a2⟩, a3, a4, a5⟩ := hk
    have hall : ∀ x y c, x < w → y < h → c < inp.img.cc → r.1 ≤ inp.get m x y c ∧ inp.get m x y c ≤ r.2 :=
      fun x y c hx hy hc => a3 (x, y, c) ((mem_bytesL hcc).mpr ⟨hx, hy, hc⟩)
    have h0 := hall 0 0 0 fit.wpos fit.hpos hcc
    refine ⟨r.1, r.2, rfl, hall, ?_, ?_⟩
    · rcases a4 with h | ⟨p, hp, he⟩
      · refine ⟨0, 0, 0, fit.wpos, fit.hpos, hcc, ?_⟩
        refine UInt8.le_antisymm ?_ h0.1
        rw [h]
        exact UInt8.le_iff_toNat_le.mpr (Nat.le_of_lt_succ (UInt8.toNat_lt _))
      · obtain ⟨h1, h2, h3⟩ := (mem_bytesL hcc).mp hp
        exact ⟨_, _, _, h1, h2, h3, he⟩
    · rcases a5 with h | ⟨p, hp, he⟩
      · refine ⟨0, 0, 0, fit.wpos, fit.hpos, hcc, ?_⟩
        refine UInt8.le_antisymm h0.2 ?_
        rw [h]
        exact UInt8.le_iff_toNat_le.mpr (Nat.zero_le _)
      · obtain ⟨h1, h2, h3⟩ := (mem_bytesL hcc).mp hp
        exact ⟨_, _, _, h1, h2, h3, he⟩
  · intro p hp a
    obtain ⟨h1, h2, h3⟩ := (mem_bytesL hcc).mp hp
    have := View.start_cell wf fit p.1 p.2.1 p.2.2
    simp only [Nat.mul_one, this]
    rw [bind_ok (readC_get wf fit rfl h1 h2 h3)]
    rfl

/-! ### The table -/

/-- The conversion of a value in range. -/
theorem castU8_in {oob : ℚ → Option UInt8} {q : ℚ} (h0 : 0 ≤ q) (h1 : q < 256) :
    ∃ v : UInt8, castU8 oob q = some v ∧ (v.toNat : ℚ) ≤ q ∧ q < v.toNat + 1 ∧ v.toNat = ⌊q⌋.toNat := by
  have hf : 0 ≤ ⌊q⌋ := Int.floor_nonneg.mpr h0
  have hl : ⌊q⌋ < 256 := Int.floor_lt.mpr (by exact_mod_cast h1)
  have ht : (UInt8.ofNat ⌊q⌋.toNat).toNat = ⌊q⌋.toNat := by
    rw [UInt8.toNat_ofNat']
    exact Nat.mod_eq_of_lt (by omega)
  have hq : ((⌊q⌋.toNat : ℕ) : ℚ) = (⌊q⌋ : ℚ) := by
    have : ((⌊q⌋.toNat : ℕ) : ℤ) = ⌊q⌋ := Int.toNat_of_nonneg hf
    exact_mod_cast this
  refine ⟨UInt8.ofNat ⌊q⌋.toNat, ?_, ?_, ?_, ht⟩
  · rw [castU8, if_pos ⟨by linarith, h1⟩]
  · rw [ht, hq]
    exact Int.floor_le q
  · rw [ht, hq]
    exact Int.lt_floor_add_one q

variable {rnd : ℚ → ℚ} {mn mx : UInt8}

/-- The rounded value is near the exact one. -/
theorem normalValue_near (r : Rounding rnd) (hlt : mn < mx) {i : Nat} (h1 : mn.toNat ≤ i) (h2 : i ≤ mx.toNat) :
    |normalValue rnd mn mx i - (255 * ((i : ℚ) - mn.toNat) / ((mx.toNat : ℚ) - mn.toNat) + 1 / 2)| ≤ 1 / 2 ^ 40 := by
  have hd : (0 : ℚ) < (mx.toNat : ℚ) - mn.toNat := by
    have := UInt8.lt_iff_toNat_lt.mp hlt
    have : (mn.toNat : ℚ) < mx.toNat := by exact_mod_cast this
    linarith
  have hk0 : (0 : ℚ) ≤ (i : ℚ) - mn.toNat := by
    have : (mn.toNat : ℚ) ≤ i := by exact_mod_cast h1
    linarith
  have hkd : (i : ℚ) - mn.toNat ≤ (mx.toNat : ℚ) - mn.toNat := by
    have : (i : ℚ) ≤ mx.toNat := by exact_mod_cast h2
    linarith
  unfold normalValue
  generalize (mx.toNat : ℚ) - mn.toNat = d at *
  generalize (i : ℚ) - mn.toNat = k at *
  have hc0 : (0 : ℚ) ≤ 255 / d := by positivity
  obtain ⟨c1, c2⟩ := r.bounds hc0
  have hcr := r.nonneg hc0
  have ht : 255 * k / d = k * (255 / d) := by ring
  have ht0 : 0 ≤ k * (255 / d) := by positivity
  have ht255 : k * (255 / d) ≤ 255 := by
    rw [← ht, div_le_iff₀ hd]
    linarith
  have hp0 : 0 ≤ k * rnd (255 / d) := mul_nonneg hk0 hcr
  have p1 : k * rnd (255 / d) ≤ k * (255 / d) + k * (255 / d) / 2 ^ 52 := by
    have := mul_le_mul_of_nonneg_left c2 hk0
    linarith
  have p2 : k * (255 / d) - k * (255 / d) / 2 ^ 52 ≤ k * rnd (255 / d) := by
    have := mul_le_mul_of_nonneg_left c1 hk0
    linarith
  obtain ⟨q1, q2⟩ := r.bounds hp0
  have hq0 := r.nonneg hp0
  have hs0 : 0 ≤ rnd (k * rnd (255 / d)) + 1 / 2 := by linarith
  obtain ⟨s1, s2⟩ := r.bounds hs0
  rw [ht]
  generalize rnd (rnd (k * rnd (255 / d)) + 1 / 2) = z at *
  generalize rnd (k * rnd (255 / d)) = y at *
  generalize k * rnd (255 / d) = x at *
  generalize k * (255 / d) = t at *
  norm_num at *
  rw [abs_le]
  constructor <;> linarith

theorem normalValue_mono (r : Rounding rnd) (hlt : mn < mx) {i j : Nat} (h : i ≤ j) :
    normalValue rnd mn mx i ≤ normalValue rnd mn mx j := by
  have hd : (0 : ℚ) < (mx.toNat : ℚ) - mn.toNat := by
    have := UInt8.lt_iff_toNat_lt.mp hlt
    have : (mn.toNat : ℚ) < mx.toNat := by exact_mod_cast this
    linarith
  have hc0 : (0 : ℚ) ≤ 255 / ((mx.toNat : ℚ) - mn.toNat) := by positivity
  unfold normalValue
  refine r.mono _ _ ?_
  have hij : (i : ℚ) ≤ j := by exact_mod_cast h
  have := r.mono _ _ (mul_le_mul_of_nonneg_right (sub_le_sub_right hij (mn.toNat : ℚ)) (r.nonneg hc0))
  linarith

theorem mapM_some {α β : Type} {f : α → Option β} {L : List α} (h : ∀ a ∈ L, (f a).isSome) :
    ∃ t, L.mapM f = some t ∧ t.length = L.length ∧ ∀ k (hk : k < t.length) (hk' : k < L.length), f L[k] = some t[k] := by
  induction L with
  | nil => exact ⟨[], rfl, rfl, fun k hk => absurd hk (by simp)⟩
  | cons a as ih =>
    obtain ⟨t, h1, h2, h3⟩ := ih fun b hb => h b (List.mem_cons_of_mem _ hb)
    obtain ⟨b, hb⟩ := Option.isSome_iff_exists.mp (h a (List.mem_cons_self ..))
    refine ⟨b :: t, by simp [List.mapM_cons, hb, h1], by simp [h2], fun k hk hk' => ?_⟩
    cases k with
    | zero => simpa using hb
    | succ k =>
      simp only [List.getElem_cons_succ]
      exact h3 k _ _

end PV
