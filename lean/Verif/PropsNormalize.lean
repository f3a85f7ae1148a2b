import Verif.Normalize
import Verif.PropsReduce
/-
  C34: Normalize.  C74: GammaCorrection.
-/
namespace PV.Props
open PV

/-- A position of the rectangle. -/
def In (v : View) (w h : Nat) (p : Nat × Nat × Nat) : Prop := p.1 < w ∧ p.2.1 < h ∧ p.2.2 < v.img.cc

/-- The value at a position. -/
abbrev at3 (v : View) (m : BMem) (p : Nat × Nat × Nat) : UInt8 := v.get m p.1 p.2.1 p.2.2

/-- The contrast of the rectangle is stretched to the full range. -/
structure Stretched (m m' : BMem) (inp out : View) (w h : Nat) : Prop where
  /-- the order of values is kept -/
  order : ∀ p q, In inp w h p → In inp w h q → at3 inp m p ≤ at3 inp m q → at3 out m' p ≤ at3 out m' q
  /-- a constant rectangle is copied -/
  const : (∀ p q, In inp w h p → In inp w h q → at3 inp m p = at3 inp m q) → ∀ p, In inp w h p → at3 out m' p = at3 inp m p
  /-- otherwise the smallest value is 0 ... -/
  low : ∀ p q, In inp w h p → In inp w h q → (∀ s, In inp w h s → at3 inp m p ≤ at3 inp m s) → at3 inp m p ≠ at3 inp m q →
    at3 out m' p = 0
  /-- ... the largest is 255 ... -/
  high : ∀ p q, In inp w h p → In inp w h q → (∀ s, In inp w h s → at3 inp m s ≤ at3 inp m p) → at3 inp m p ≠ at3 inp m q →
    at3 out m' p = 255
  /-- ... and the values in between are the rounded linear interpolation. -/
  near : ∀ p q, In inp w h p → In inp w h q → (∀ s, In inp w h s → at3 inp m p ≤ at3 inp m s ∧ at3 inp m s ≤ at3 inp m q) →
    at3 inp m p ≠ at3 inp m q → ∀ s, In inp w h s →
    |((at3 out m' s).toNat : ℚ) - 255 * (((at3 inp m s).toNat : ℚ) - (at3 inp m p).toNat) /
      (((at3 inp m q).toNat : ℚ) - (at3 inp m p).toNat)| ≤ 1 / 2 + 1 / 2 ^ 40

/-- What is needed of the function from values to values. -/
structure Stretches (f : UInt8 → UInt8) (mn mx : UInt8) : Prop where
  mono : ∀ a b, mn ≤ a → a ≤ b → b ≤ mx → f a ≤ f b
  const : mn = mx → f mn = mn
  low : mn < mx → f mn = 0
  high : mn < mx → f mx = 255
  near : mn < mx → ∀ a, mn ≤ a → a ≤ mx → |((f a).toNat : ℚ) - 255 * ((a.toNat : ℚ) - mn.toNat) / ((mx.toNat : ℚ) - mn.toNat)|
    ≤ 1 / 2 + 1 / 2 ^ 40

theorem stretches_id {mn mx : UInt8} (h : (mn = 0 ∧ mx = 255) ∨ mn = mx) : Stretches id mn mx where
  mono _ _ _ h _ := h
  const _ := rfl
  low hl := by
    rcases h with h | h
    · exact h.1
    · exact absurd hl (by rw [h]; exact UInt8.lt_irrefl _)
  high hl := by
    rcases h with h | h
    · exact h.2
    · exact absurd hl (by rw [h]; exact UInt8.lt_irrefl _)
  near hl a _ _ := by
    rcases h with h | h
    · rw [h.1, h.2, show UInt8.toNat 255 = 255 from rfl, show UInt8.toNat 0 = 0 from rfl]
      norm_num
    · exact absurd hl (by rw [h]; exact UInt8.lt_irrefl _)

theorem stretches_table {rnd : ℚ → ℚ} (r : Rounding rnd) {oob : ℚ → Option UInt8} (ho : ∀ q, (oob q).isSome) {mn mx : UInt8}
    (hlt : mn < mx) : ∃ t, normalTable rnd oob mn mx = some t ∧ ∃ hl : t.length = 256,
      Stretches (fun a => t[a.toNat]'(by rw [hl]; exact UInt8.toNat_lt _)) mn mx := by
  have hlt' := UInt8.lt_iff_toNat_lt.mp hlt
  obtain ⟨t, h1, h2, h3⟩ := mapM_some (f := fun i => castU8 oob (normalValue rnd mn mx i)) (L := List.range 256) fun i _ => by
    unfold castU8
    split
    · rfl
    · exact ho _
  rw [List.length_range] at h2
  have hd : (0 : ℚ) < (mx.toNat : ℚ) - mn.toNat := by
    have : (mn.toNat : ℚ) < mx.toNat := by exact_mod_cast hlt'
    linarith
  have get : ∀ a : UInt8, mn ≤ a → a ≤ mx → ∃ (hk : a.toNat < t.length) , ((t[a.toNat].toNat : ℚ) ≤ normalValue rnd mn mx a.toNat ∧
      normalValue rnd mn mx a.toNat < t[a.toNat].toNat + 1 ∧ t[a.toNat].toNat = ⌊normalValue rnd mn mx a.toNat⌋.toNat) := by
    intro a h4 h5
    have ha := UInt8.toNat_lt a
    have hk : a.toNat < t.length := by rw [h2]; exact ha
    refine ⟨hk, ?_⟩
    have h6 := h3 a.toNat hk (by rw [List.length_range]; exact ha)
    rw [List.getElem_range] at h6
    have hn := normalValue_near r hlt (UInt8.le_iff_toNat_le.mp h4) (UInt8.le_iff_toNat_le.mp h5)
    have ht0 : 0 ≤ 255 * ((a.toNat : ℚ) - mn.toNat) / ((mx.toNat : ℚ) - mn.toNat) := by
      have : (mn.toNat : ℚ) ≤ a.toNat := by exact_mod_cast UInt8.le_iff_toNat_le.mp h4
      exact div_nonneg (by linarith) hd.le
    have ht1 : 255 * ((a.toNat : ℚ) - mn.toNat) / ((mx.toNat : ℚ) - mn.toNat) ≤ 255 := by
      have : (a.toNat : ℚ) ≤ mx.toNat := by exact_mod_cast UInt8.le_iff_toNat_le.mp h5
      rw [div_le_iff₀ hd]
      linarith
    rw [abs_le] at hn
    norm_num at hn
    obtain ⟨v, e1, e2, e3, e4⟩ := castU8_in (oob := oob) (q := normalValue rnd mn mx a.toNat) (by linarith [hn.1]) (by linarith [hn.2])
    rw [e1] at h6
    rw [← Option.some.inj h6]
    exact ⟨e2, e3, e4⟩
  refine ⟨t, h1, h2, ?_, ?_, ?_, ?_, ?_⟩
  · intro a b h4 h5 h6
    obtain ⟨_, _, _, ea⟩ := get a h4 (UInt8.le_trans h5 h6)
    obtain ⟨_, _, _, eb⟩ := get b (UInt8.le_trans h4 h5) h6
    rw [UInt8.le_iff_toNat_le, ea, eb]
    exact Int.toNat_le_toNat (Int.floor_mono (normalValue_mono r hlt (UInt8.le_iff_toNat_le.mp h5)))
  · intro he
    exact absurd hlt (by rw [he]; exact UInt8.lt_irrefl _)
  · intro _
    obtain ⟨_, e1, e2, _⟩ := get mn (UInt8.le_refl _) (UInt8.le_of_lt hlt)
    have hn := normalValue_near r hlt (Nat.le_refl _) hlt'.le
    rw [abs_le] at hn
    norm_num at hn
    have : ((t[mn.toNat]).toNat : ℚ) < 1 := by linarith [hn.2]
    have : (t[mn.toNat]).toNat < 1 := by exact_mod_cast this
    exact UInt8.toNat_inj.mp (by simpa using this)
  · intro _
    obtain ⟨_, e1, e2, _⟩ := get mx (UInt8.le_of_lt hlt) (UInt8.le_refl _)
    have hn := normalValue_near r hlt hlt'.le (Nat.le_refl _)
    rw [mul_div_assoc, div_self hd.ne', abs_le] at hn
    norm_num at hn
    have h7 : (254 : ℚ) < ((t[mx.toNat]).toNat : ℚ) := by linarith [hn.1]
    have h8 : 254 < (t[mx.toNat]).toNat := by exact_mod_cast h7
    have h9 := UInt8.toNat_lt (t[mx.toNat])
    exact UInt8.toNat_inj.mp (by simp only [UInt8.reduceToNat]; omega)
  · intro _ a h4 h5
    obtain ⟨_, e1, e2, _⟩ := get a h4 h5
    have hn := normalValue_near r hlt (UInt8.le_iff_toNat_le.mp h4) (UInt8.le_iff_toNat_le.mp h5)
    rw [abs_le] at hn ⊢
    constructor
    · linarith [hn.1]
    · linarith [hn.2]

/-- Input and output of Normalize: the output does not overlap the input. -/
structure Apart1 (m : BMem) (inp out : View) (w h : Nat) : Prop extends Ready1 m inp out w h where
  apart : Apart inp w h out w h

/-- Nothing to stretch: the rectangle has the values 0 and 255, or one value only. -/
def Full (m : BMem) (v : View) (w h : Nat) : Prop :=
  (∃ p q, In v w h p ∧ In v w h q ∧ at3 v m p = 0 ∧ at3 v m q = 255) ∨
  ∀ p q, In v w h p → In v w h q → at3 v m p = at3 v m q

theorem normalize_run {rnd : ℚ → ℚ} (r : Rounding rnd) {oob : ℚ → Option UInt8}
    {m : BMem} {inp out : View} {w h : Nat} (a : Apart1 m inp out w h) (ho : (∀ q, (oob q).isSome) ∨ Full m inp w h) :
    ∃ m', Normalize rnd oob inp out w h m = .ok () m' ∧ WritesRoi m m' out w h (fun x y c => out.get m' x y c) ∧
      Stretched m m' inp out w h := by
  obtain ⟨mn, mx, e, hall, ⟨x1, y1, c1, a1, a2, a3, a4⟩, ⟨x2, y2, c2, b1, b2, b3, b4⟩⟩ := minMax_run a.wfi a.fiti
  have hmm : mn ≤ mx := by
    have := hall x1 y1 c1 a1 a2 a3
    exact UInt8.le_trans this.1 this.2
  have run : ∃ f m', Normalize rnd oob inp out w h m = .ok () m' ∧ WritesRoi m m' out w h (fun x y c => f (inp.get m x y c)) ∧
      Stretches f mn mx := by
    rw [Normalize, bind_ok (validate_pre_ok (vs := [inp, out]) (by simp; exact ⟨⟨a.wfi, a.fiti⟩, a.wfo, a.fito⟩)),
      bind_ok (common_ok (by simp [a.co])), bind_ok e, normalizeWith]
    by_cases hc : (mn = 0 ∧ mx = 255) ∨ mn = mx
    · rw [if_pos hc]
      obtain ⟨m', h1, h2⟩ := C16_copy a.wfi a.wfo a.fiti a.fito a.co a.apart
      exact ⟨id, m', h1, h2, stretches_id hc⟩
    · rw [if_neg hc]
      have hlt : mn < mx := by
        rcases Nat.lt_or_eq_of_le (UInt8.le_iff_toNat_le.mp hmm) with h | h
        · exact UInt8.lt_iff_toNat_lt.mpr h
        · exact absurd (Or.inr (UInt8.toNat_inj.mp h)) hc
      have ho : ∀ q, (oob q).isSome := by
        refine ho.resolve_right ?_
        rintro (⟨p, q, hp, hq, e0, e255⟩ | hcon)
        · refine hc (Or.inl ⟨?_, ?_⟩)
          · exact UInt8.le_antisymm (e0 ▸ (hall _ _ _ hp.1 hp.2.1 hp.2.2).1) (UInt8.le_iff_toNat_le.mpr (Nat.zero_le _))
          · exact UInt8.le_antisymm (UInt8.le_iff_toNat_le.mpr (Nat.le_of_lt_succ (UInt8.toNat_lt _)))
              (e255 ▸ (hall _ _ _ hq.1 hq.2.1 hq.2.2).2)
        · exact hc (Or.inr (a4.symm.trans ((hcon (x1, y1, c1) (x2, y2, c2) ⟨a1, a2, a3⟩ ⟨b1, b2, b3⟩).trans b4)))
      obtain ⟨t, h1, h2, h3⟩ := stretches_table r ho hlt
      obtain ⟨m', h4, h5⟩ := C15_lookupTable t h2 a.toReady1
      simp only [h1]
      exact ⟨_, m', h4, h5, h3⟩
  obtain ⟨f, m', h1, h2, hf⟩ := run
  have hv : ∀ p, In inp w h p → at3 out m' p = f (at3 inp m p) := fun p hp =>
    h2.inside p.1 p.2.1 p.2.2 hp.1 hp.2.1 (by rw [a.co]; exact hp.2.2)
  have hr : ∀ p, In inp w h p → mn ≤ at3 inp m p ∧ at3 inp m p ≤ mx := fun p hp => hall _ _ _ hp.1 hp.2.1 hp.2.2
  have isMin : ∀ p, In inp w h p → (∀ s, In inp w h s → at3 inp m p ≤ at3 inp m s) → at3 inp m p = mn := fun p hp hs =>
    UInt8.le_antisymm (UInt8.le_trans (hs (x1, y1, c1) ⟨a1, a2, a3⟩) (a4 ▸ UInt8.le_refl _)) (hr p hp).1
  have isMax : ∀ p, In inp w h p → (∀ s, In inp w h s → at3 inp m s ≤ at3 inp m p) → at3 inp m p = mx := fun p hp hs =>
    UInt8.le_antisymm (hr p hp).2 (UInt8.le_trans (b4 ▸ UInt8.le_refl _) (hs (x2, y2, c2) ⟨b1, b2, b3⟩))
  have lt_of : ∀ p q, In inp w h p → In inp w h q → at3 inp m p ≠ at3 inp m q → mn < mx := by
    intro p q hp hq hne
    have h1 := hr p hp
    have h2 := hr q hq
    rw [Ne, ← UInt8.toNat_inj] at hne
    simp only [UInt8.le_iff_toNat_le, UInt8.lt_iff_toNat_lt] at *
    omega
  refine ⟨m', h1, ⟨h2.size_eq, fun _ _ _ _ _ _ => rfl, h2.outside⟩, ?_, ?_, ?_, ?_, ?_⟩
  · intro p q hp hq hle
    rw [hv p hp, hv q hq]
    exact hf.mono _ _ (hr p hp).1 hle (hr q hq).2
  · intro hc p hp
    have e1 : at3 inp m p = mn := by rw [hc p (x1, y1, c1) hp ⟨a1, a2, a3⟩]; exact a4
    have e2 : at3 inp m p = mx := by rw [hc p (x2, y2, c2) hp ⟨b1, b2, b3⟩]; exact b4
    rw [hv p hp, e1]
    exact hf.const (e1.symm.trans e2)
  · intro p q hp hq hs hne
    rw [hv p hp, isMin p hp hs]
    exact hf.low (lt_of p q hp hq hne)
  · intro p q hp hq hs hne
    rw [hv p hp, isMax p hp hs]
    exact hf.high (lt_of p q hp hq hne)
  · intro p q hp hq hs hne s hs'
    have hlt := lt_of p q hp hq hne
    rw [isMin p hp fun s hs' => (hs s hs').1, isMax q hq fun s hs' => (hs s hs').2, hv s hs']
    exact hf.near hlt _ (hr s hs').1 (hr s hs').2

/-- **C34.** Normalize keeps the order of values, makes the smallest value 0 and the largest 255 (the
    others are the rounded linear interpolation) and copies constant rectangles, for every rounding of
    the floating-point operations.

    Partial: the table has entries for values which are not in the image. Their computation converts
    values out of the range of `uint8_t`, which C++ leaves undefined (see `C34_strict_wrong`); here the
    conversion is assumed to give some value (`oob`). -/
theorem C34_normalize_partial {rnd : ℚ → ℚ} (r : Rounding rnd) {oob : ℚ → Option UInt8} (ho : ∀ q, (oob q).isSome)
    {m : BMem} {inp out : View} {w h : Nat} (a : Apart1 m inp out w h) :
    ∃ m', Normalize rnd oob inp out w h m = .ok () m' ∧ WritesRoi m m' out w h (fun x y c => out.get m' x y c) ∧
      Stretched m m' inp out w h :=
  normalize_run r a (Or.inl ho)

/-- **C34.** The same without an assumption about the conversion.

    Partial: for rectangles with the values 0 and 255 and for constant ones only. -/
theorem C34_strict_partial {rnd : ℚ → ℚ} (r : Rounding rnd) {m : BMem} {inp out : View} {w h : Nat} (a : Apart1 m inp out w h)
    (hf : Full m inp w h) :
    ∃ m', Normalize rnd (fun _ => none) inp out w h m = .ok () m' ∧ WritesRoi m m' out w h (fun x y c => out.get m' x y c) ∧
      Stretched m m' inp out w h :=
  normalize_run r a (Or.inr hf)

theorem mapM_none {α β : Type} {f : α → Option β} {L : List α} {a : α} (ha : a ∈ L) (h : f a = none) : L.mapM f = none := by
  induction L with
  | nil => exact absurd ha (by simp)
  | cons b bs ih =>
    rw [List.mapM_cons]
    rcases List.mem_cons.mp ha with rfl | ha
    · rw [h]
      rfl
    · cases f b with
      | none => rfl
      | some c => rw [ih ha]; rfl

/-- C34 is false by the letter of the standard: if the values of a rectangle are at least 2 and not all
    equal, the call converts a negative number to `uint8_t`, whatever the rounding is. -/
theorem C34_strict_wrong {rnd : ℚ → ℚ} (r : Rounding rnd) {m : BMem} {inp out : View} {w h : Nat} (a : Apart1 m inp out w h)
    (h2 : ∀ p, In inp w h p → 2 ≤ at3 inp m p) {p q : Nat × Nat × Nat} (hp : In inp w h p) (hq : In inp w h q)
    (hne : at3 inp m p ≠ at3 inp m q) :
    Normalize rnd (fun _ => none) inp out w h m = .ub := by
  obtain ⟨mn, mx, e, hall, ⟨x1, y1, c1, a1, a2, a3, a4⟩, ⟨x2, y2, c2, b1, b2, b3, b4⟩⟩ := minMax_run a.wfi a.fiti
  have hmn : 2 ≤ mn := by
    have := h2 (x1, y1, c1) ⟨a1, a2, a3⟩
    rwa [← a4]
  have hlt : mn < mx := by
    have h1 : mn ≤ at3 inp m p ∧ at3 inp m p ≤ mx := hall _ _ _ hp.1 hp.2.1 hp.2.2
    have h2 : mn ≤ at3 inp m q ∧ at3 inp m q ≤ mx := hall _ _ _ hq.1 hq.2.1 hq.2.2
    rw [Ne, ← UInt8.toNat_inj] at hne
    simp only [UInt8.le_iff_toNat_le, UInt8.lt_iff_toNat_lt] at *
    omega
  rw [Normalize, bind_ok (validate_pre_ok (vs := [inp, out]) (by simp; exact ⟨⟨a.wfi, a.fiti⟩, a.wfo, a.fito⟩)),
    bind_ok (common_ok (by simp [a.co])), bind_ok e, normalizeWith, if_neg]
  · have : normalTable rnd (fun _ => none) mn mx = none := by
      refine mapM_none (a := 0) (by simp) ?_
      unfold castU8
      rw [if_neg]
      rintro ⟨hc, _⟩
      have hd : (0 : ℚ) < (mx.toNat : ℚ) - mn.toNat := by
        have : (mn.toNat : ℚ) < mx.toNat := by exact_mod_cast UInt8.lt_iff_toNat_lt.mp hlt
        linarith
      have hd255 : (mx.toNat : ℚ) - mn.toNat ≤ 255 := by
        have := UInt8.toNat_lt mx
        have h1 : (mx.toNat : ℚ) ≤ 255 := by exact_mod_cast Nat.le_of_lt_succ this
        have h2 : (0 : ℚ) ≤ mn.toNat := by positivity
        linarith
      have hn2 : (2 : ℚ) ≤ mn.toNat := by exact_mod_cast UInt8.le_iff_toNat_le.mp hmn
      have h1 : 1 ≤ 255 / ((mx.toNat : ℚ) - mn.toNat) := by
        rw [le_div_iff₀ hd]
        linarith
      have h3 : 1 - 1 / 2 ^ 52 ≤ rnd (255 / ((mx.toNat : ℚ) - mn.toNat)) := by
        have := (r.bounds (a := 1) (by norm_num)).1
        exact le_trans this (r.mono _ _ h1)
      have h4 : ((0 : ℕ) : ℚ) - mn.toNat = -(mn.toNat : ℚ) := by simp
      have h5 : (((0 : ℕ) : ℚ) - mn.toNat) * rnd (255 / ((mx.toNat : ℚ) - mn.toNat)) ≤ -(2 - 2 / 2 ^ 52) := by
        rw [h4]
        nlinarith
      have h6 : ∀ q : ℚ, q < 0 → rnd q ≤ q - q / 2 ^ 52 := by
        intro q hq
        have := r.err q
        rw [abs_of_neg hq, abs_le] at this
        linarith [this.2]
      have h7 := le_trans (r.mono _ _ h5) (h6 _ (by norm_num))
      have h8 : rnd ((((0 : ℕ) : ℚ) - mn.toNat) * rnd (255 / ((mx.toNat : ℚ) - mn.toNat))) + 1 / 2 ≤ -(3 / 2 - 1 / 2 ^ 48) := by
        norm_num at h7 ⊢
        linarith
      have h9 := le_trans (r.mono _ _ h8) (h6 _ (by norm_num))
      unfold normalValue at hc
      norm_num at h9 hc
      linarith
    rw [this]
    rfl
  · rintro (⟨h0, _⟩ | he)
    · rw [show mn = 0 from h0] at hmn
      exact absurd hmn (by decide)
    · rw [show mn = mx from he] at hlt
      exact UInt8.lt_irrefl _ hlt

/-- **C34.** Rectangles that do not fit and different colour counts are refused. -/
theorem C34_rejects {rnd : ℚ → ℚ} {oob : ℚ → Option UInt8} {m : BMem} {inp out : View} {w h : Nat}
    (hb : Bad [inp, out] w h (out.img.cc = inp.img.cc)) : Normalize rnd oob inp out w h m = .throw m := by
  rw [Normalize]
  rcases rois_dichotomy (m := m) hb with ht | ⟨ho, hc⟩
  · rw [bind_throw ht]
  · rw [bind_ok ho, bind_throw (common_throw ⟨out.img, by simp, hc⟩)]

/-! ### C74 : GammaCorrection -/

/-- What is assumed about `pow` for one exponent: not negative and monotone for bases from 0. -/
structure PowOk (pow : ℚ → ℚ → ℚ) (gamma : ℚ) : Prop where
  nonneg : ∀ x, 0 ≤ x → 0 ≤ pow x gamma
  mono : ∀ x y, 0 ≤ x → x ≤ y → pow x gamma ≤ pow y gamma

theorem gammaData_nonneg {rnd : ℚ → ℚ} (r : Rounding rnd) {pow : ℚ → ℚ → ℚ} {a gamma : ℚ} (hp : PowOk pow gamma)
    (ha : 0 ≤ a) (i : Nat) : 0 ≤ gammaData rnd pow a gamma i := by
  unfold gammaData
  have h1 : 0 ≤ rnd ((i : ℚ) / 255) := r.nonneg (by positivity)
  have h2 := r.nonneg (mul_nonneg ha (hp.nonneg _ h1))
  have h3 := r.nonneg (mul_nonneg h2 (by norm_num : (0 : ℚ) ≤ 255))
  exact r.nonneg (by linarith)

theorem gammaData_mono {rnd : ℚ → ℚ} (r : Rounding rnd) {pow : ℚ → ℚ → ℚ} {a gamma : ℚ} (hp : PowOk pow gamma)
    (ha : 0 ≤ a) {i j : Nat} (h : i ≤ j) : gammaData rnd pow a gamma i ≤ gammaData rnd pow a gamma j := by
  unfold gammaData
  have h1 : 0 ≤ rnd ((i : ℚ) / 255) := r.nonneg (by positivity)
  have h2 : rnd ((i : ℚ) / 255) ≤ rnd ((j : ℚ) / 255) :=
    r.mono _ _ (div_le_div_of_nonneg_right (by exact_mod_cast h) (by norm_num))
  have h3 := r.mono _ _ (mul_le_mul_of_nonneg_left (hp.mono _ _ h1 h2) ha)
  have h4 := r.mono _ _ (mul_le_mul_of_nonneg_right h3 (by norm_num : (0 : ℚ) ≤ 255))
  exact r.mono _ _ (by linarith)

theorem gammaTable_run {rnd : ℚ → ℚ} (r : Rounding rnd) {pow : ℚ → ℚ → ℚ} {a gamma : ℚ} (hp : PowOk pow gamma) (ha : 0 ≤ a) :
    ∃ t, gammaTable rnd pow a gamma = some t ∧ ∃ hl : t.length = 256, ∀ k (hk : k < 256),
      (t[k]'(by omega)).toNat = if gammaData rnd pow a gamma k < 256 then ⌊gammaData rnd pow a gamma k⌋.toNat else 255 := by
  obtain ⟨t, h1, h2, h3⟩ := mapM_some (f := fun i =>
    if gammaData rnd pow a gamma i < 256 then castU8 (fun _ => none) (gammaData rnd pow a gamma i) else some 255)
    (L := List.range 256) fun i _ => by
      split
      · rename_i hlt
        obtain ⟨v, e, _⟩ := castU8_in (oob := fun _ => none) (gammaData_nonneg r hp ha i) hlt
        rw [e]
        rfl
      · rfl
  rw [List.length_range] at h2
  refine ⟨t, h1, h2, fun k hk => ?_⟩
  have h4 := h3 k (by omega) (by simpa using hk)
  rw [List.getElem_range] at h4
  split at h4
  · rename_i hlt
    obtain ⟨v, e, _, _, e2⟩ := castU8_in (oob := fun _ => none) (gammaData_nonneg r hp ha k) hlt
    rw [e] at h4
    rw [if_pos hlt, ← Option.some.inj h4, e2]
  · rename_i hlt
    rw [if_neg hlt, ← Option.some.inj h4]
    rfl

/-- **C74.** GammaCorrection with parameters that are not negative replaces every value by a function of it,
    and the function is monotone: the order of values is kept. Black stays black if 0 to the power of gamma is
    0; white stays white if 1 to the power of gamma is 1 and `a` is at least 1. With both parameters 1
    the image is copied. -/
theorem C74_gamma {rnd : ℚ → ℚ} (r : Rounding rnd) {pow : ℚ → ℚ → ℚ} {a gamma : ℚ} (hp : PowOk pow gamma) (ha : 0 ≤ a)
    (hg : 0 ≤ gamma) {m : BMem} {inp out : View} {w h : Nat} (rd : Ready1 m inp out w h) :
    ∃ (f : UInt8 → UInt8) (m' : BMem), GammaCorrection rnd pow inp out w h a gamma m = .ok () m' ∧
      WritesRoi m m' out w h (fun x y c => f (inp.get m x y c)) ∧
      (∀ u v, u ≤ v → f u ≤ f v) ∧
      (pow 0 gamma = 0 → f 0 = 0) ∧
      (pow 1 gamma = 1 → 1 ≤ a → f 255 = 255) ∧
      (a = 1 → (∀ x, pow x gamma = x) → ∀ u, f u = u) := by
  obtain ⟨t, h1, h2, h3⟩ := gammaTable_run r hp ha
  obtain ⟨m', h4, h5⟩ := C15_lookupTable t h2 rd
  have hneg : (decide (a < 0) || decide (gamma < 0)) = false := by simp [ha, hg]
  refine ⟨fun u => t[u.toNat]'(by rw [h2]; exact UInt8.toNat_lt _), m', ?_, h5, ?_, ?_, ?_, ?_⟩
  · rw [GammaCorrection, bind_ok (validate_pre_ok (vs := [inp, out]) (by simp; exact ⟨⟨rd.wfi, rd.fiti⟩, rd.wfo, rd.fito⟩)),
      GetGammaCorrectionLookupTable, hneg, throwIf_false, pure_bind', h1]
    exact h4
  · intro u v huv
    rw [UInt8.le_iff_toNat_le, h3 _ (UInt8.toNat_lt _), h3 _ (UInt8.toNat_lt _)]
    have hm := gammaData_mono r hp ha (UInt8.le_iff_toNat_le.mp huv)
    have hf := Int.toNat_le_toNat (Int.floor_mono hm)
    split
    · split
      · exact hf
      · rename_i hu _
        have : ⌊gammaData rnd pow a gamma u.toNat⌋ < 256 := Int.floor_lt.mpr (by exact_mod_cast hu)
        omega
    · rename_i hu
      rw [if_neg (by linarith)]
  · intro hp0
    apply UInt8.toNat_inj.mp
    rw [h3 _ (by decide)]
    have : gammaData rnd pow a gamma (UInt8.toNat 0) < 1 := by
      unfold gammaData
      rw [show UInt8.toNat 0 = 0 from rfl, Nat.cast_zero, zero_div, r.zero, hp0, mul_zero, r.zero, zero_mul, r.zero]
      have := (r.bounds (a := 0 + 1 / 2) (by norm_num)).2
      norm_num at this ⊢
      linarith
    rw [if_pos (by linarith)]
    have : ⌊gammaData rnd pow a gamma (UInt8.toNat 0)⌋ < 1 := Int.floor_lt.mpr (by exact_mod_cast this)
    simp only [UInt8.reduceToNat] at this ⊢
    omega
  · intro hp1 ha1
    apply UInt8.toNat_inj.mp
    rw [h3 _ (by decide)]
    split
    · rename_i hlt
      have : (255 : ℚ) ≤ gammaData rnd pow a gamma (UInt8.toNat 255) := by
        unfold gammaData
        rw [show UInt8.toNat 255 = 255 from rfl]
        have e1 : (((255 : ℕ) : ℚ) / 255) = 1 := by norm_num
        rw [e1, r.one, hp1, mul_one]
        have h1 := r.mono 1 a ha1
        rw [r.one] at h1
        have h2 := r.mono 255 (rnd a * 255) (by linarith)
        have e255 : rnd 255 = 255 := by exact_mod_cast r.int 255 (by norm_num)
        rw [e255] at h2
        have h3 := r.mono 255 (rnd (rnd a * 255) + 1 / 2) (by linarith)
        rwa [e255] at h3
      have h1 : 255 ≤ ⌊gammaData rnd pow a gamma (UInt8.toNat 255)⌋ := Int.le_floor.mpr (by exact_mod_cast this)
      have h2 : ⌊gammaData rnd pow a gamma (UInt8.toNat 255)⌋ < 256 := Int.floor_lt.mpr (by exact_mod_cast hlt)
      simp only [UInt8.reduceToNat] at h1 h2 ⊢
      omega
    · rfl
  · intro ha1 hpx u
    apply UInt8.toNat_inj.mp
    rw [h3 _ (UInt8.toNat_lt _)]
    have hu : (u.toNat : ℚ) ≤ 255 := by exact_mod_cast Nat.le_of_lt_succ (UInt8.toNat_lt u)
    have hu0 : (0 : ℚ) ≤ u.toNat := by positivity
    have near : |gammaData rnd pow a gamma u.toNat - (u.toNat + 1 / 2)| ≤ 1 / 2 ^ 40 := by
      unfold gammaData
      rw [hpx, ha1, one_mul]
      have b1 := r.bounds (a := (u.toNat : ℚ) / 255) (by positivity)
      have n1 := r.nonneg (a := (u.toNat : ℚ) / 255) (by positivity)
      have b2 := r.bounds n1
      have n2 := r.nonneg n1
      have n3 : 0 ≤ rnd (rnd ((u.toNat : ℚ) / 255)) * 255 := by positivity
      have b3 := r.bounds n3
      have n4 := r.nonneg n3
      have n5 : 0 ≤ rnd (rnd (rnd ((u.toNat : ℚ) / 255)) * 255) + 1 / 2 := by linarith
      have b5 := r.bounds n5
      generalize rnd (rnd (rnd (rnd ((u.toNat : ℚ) / 255)) * 255) + 1 / 2) = z at *
      generalize rnd (rnd (rnd ((u.toNat : ℚ) / 255)) * 255) = y at *
      generalize rnd (rnd ((u.toNat : ℚ) / 255)) = x at *
      generalize rnd ((u.toNat : ℚ) / 255) = q at *
      generalize (u.toNat : ℚ) = k at *
      obtain ⟨b1, b1'⟩ := b1
      obtain ⟨b2, b2'⟩ := b2
      obtain ⟨b3, b3'⟩ := b3
      obtain ⟨b5, b5'⟩ := b5
      norm_num at *
      rw [abs_le]
      constructor <;> linarith
    rw [abs_le] at near
    norm_num at near
    rw [if_pos (by linarith [near.2])]
    have e : ⌊gammaData rnd pow a gamma u.toNat⌋ = u.toNat := by
      rw [Int.floor_eq_iff]
      push_cast
      constructor <;> linarith [near.1, near.2]
    rw [e]
    rfl

/-- **C74.** Negative parameters, rectangles that do not fit and different colour counts are refused. -/
theorem C74_rejects {rnd : ℚ → ℚ} (r : Rounding rnd) {pow : ℚ → ℚ → ℚ} {a gamma : ℚ} (hp : PowOk pow gamma)
    {m : BMem} {inp out : View} {w h : Nat} (hb : Bad [inp, out] w h (out.img.cc = inp.img.cc ∧ 0 ≤ a ∧ 0 ≤ gamma)) :
    GammaCorrection rnd pow inp out w h a gamma m = .throw m := by
  rw [GammaCorrection]
  rcases rois_dichotomy (m := m) hb with ht | ⟨hok, hc⟩
  · rw [bind_throw ht]
  · rw [bind_ok hok]
    by_cases hn : 0 ≤ a ∧ 0 ≤ gamma
    · obtain ⟨t, h1, h2, _⟩ := gammaTable_run r hp hn.1
      have hneg : (decide (a < 0) || decide (gamma < 0)) = false := by simp [hn.1, hn.2]
      rw [GetGammaCorrectionLookupTable, hneg, throwIf_false, pure_bind', h1]
      refine (bind_ok (a := t) (m' := m) rfl).trans ?_
      exact C15_lookupTable_rejects t ⟨hb.u32, hb.hw, hb.hh, Or.inr fun ⟨h, _⟩ => hc ⟨h, hn⟩⟩
    · have hneg : (decide (a < 0) || decide (gamma < 0)) = true := by
        by_cases h1 : a < 0
        · simp [h1]
        · have : gamma < 0 := by
            refine lt_of_not_ge fun h2 => hn ⟨le_of_not_gt h1, h2⟩
          simp [this]
      rw [GetGammaCorrectionLookupTable, hneg, bind_throw (bind_throw (throwIf_true m))]

/-! ### Concrete cases -/

/-- Exponent 1 and exponent 2. -/
example : PowOk (fun x g => if g = 2 then x * x else x) 2 where
  nonneg x h := by simp; positivity
  mono x y h hxy := by simp only [if_pos]; exact mul_le_mul hxy hxy h (le_trans h hxy)
example : PowOk (fun x g => if g = 2 then x * x else x) 1 where
  nonneg x h := by norm_num; exact h
  mono x y h hxy := by norm_num; exact hxy


theorem apart1_ex : Apart1 exMem ⟨tight 1, 0, 0⟩ ⟨padded 2, 0, 0⟩ 2 2 where
  wfi := wf_tight 1 (by decide)
  wfo := wf_padded 2 (by decide)
  fiti := fits_tight 1 (by decide)
  fito := fits_padded 2 (by decide)
  co := rfl
  n1 := noClash_of_apart (apart_of_ne 2 2 2 2 (by decide))
  apart := apart_of_ne 2 2 2 2 (by decide)

/-- With IEEE doubles and a conversion which gives 0 for values out of range. -/
example : ∃ m', Normalize double (fun _ => some 0) ⟨tight 1, 0, 0⟩ ⟨padded 2, 0, 0⟩ 2 2 exMem = .ok () m' :=
  let ⟨m', h, _⟩ := C34_normalize_partial Rounding.double (fun _ => rfl) apart1_ex
  ⟨m', h⟩

example : Normalize double (fun _ => none) ⟨tight 1, 0, 0⟩ ⟨padded 2, 0, 0⟩ 2 2 exMem = .ub :=
  C34_strict_wrong Rounding.double apart1_ex
    (by
      rintro ⟨x, y, c⟩ ⟨hx, hy, hc⟩
      have : ∀ x, x < 2 → ∀ y, y < 2 → ∀ c, c < 1 → 2 ≤ (⟨tight 1, 0, 0⟩ : View).get exMem x y c := by decide
      exact this x hx y hy c hc)
    (p := (0, 0, 0)) (q := (1, 0, 0)) ⟨by decide, by decide, by decide⟩ ⟨by decide, by decide, by decide⟩ (by decide)

end PV.Props
