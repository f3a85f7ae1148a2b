import Verif.Rounding
import Verif.Core
/-
  GetThreshold (Otsu's method), src/image_function_helper.cpp 399-440.
-/
namespace PV

/-- A division of two `double`s; the divisor is not allowed to be 0 in C++. src/image_function_helper.cpp 428-429. -/
def divD {μ : Type} (rnd : ℚ → ℚ) (a b : ℚ) : M μ ℚ := if b = 0 then ubE else pure (rnd (a / b))

/-- `pixelCount` and `sum`, src/image_function_helper.cpp 407-410 -/
def otsuTotals {μ : Type} (hist : List UInt32) : M μ (Nat × Nat) := do
  let h0 ← orUb hist[0]?
  let h1 ← orUb hist[1]?
  fold (fun k s => do
    let h ← orUb hist[k + 2]?
    pure (u32 (s.1 + h.toNat), u32 (s.2 + u32 ((k + 2) * h.toNat)))) (List.range 254) (u32 (h0.toNat + h1.toNat), h1.toNat)

/-- `sigma`, src/image_function_helper.cpp 429-431 -/
def sigmaD {μ : Type} (rnd : ℚ → ℚ) (pixelCountTemp pixelCount sumTemp sum : Nat) : M μ ℚ := do
  let w1 ← divD rnd pixelCountTemp pixelCount
  let a1 ← divD rnd sumTemp pixelCountTemp
  let a2 ← divD rnd (u32 (sum + 4294967296 - sumTemp)) (u32 (pixelCount + 4294967296 - pixelCountTemp))
  let a := rnd (a1 - a2)
  pure (rnd (rnd (rnd (w1 * rnd (1 - w1)) * a) * a))

/-- The loop, src/image_function_helper.cpp 419-437, from index `i` on; the first argument is the
    number of iterations left. -/
def otsuLoop {μ : Type} (rnd : ℚ → ℚ) (hist : List UInt32) (pixelCount sum : Nat) :
    Nat → Nat → Nat → Nat → ℚ → Nat → M μ Nat
  | 0, _, _, _, _, threshold => pure threshold
  | n + 1, i, pixelCountTemp, sumTemp, maximumSigma, threshold => do
    let hi ← orUb hist[i]?
    let pct := u32 (pixelCountTemp + hi.toNat)
    if pct = pixelCount then pure threshold
    else if pct > 0 then do
      let st := u32 (sumTemp + u32 (i * hi.toNat))
      let sigma ← sigmaD rnd pct pixelCount st sum
      if sigma > maximumSigma then otsuLoop rnd hist pixelCount sum n (i + 1) pct st sigma i
      else otsuLoop rnd hist pixelCount sum n (i + 1) pct st maximumSigma threshold
    else otsuLoop rnd hist pixelCount sum n (i + 1) pct sumTemp maximumSigma threshold

/-- `GetThreshold`, src/image_function_helper.cpp 399-440 -/
def GetThreshold {μ : Type} (rnd : ℚ → ℚ) (hist : List UInt32) : M μ Nat := do
  throwIf (hist.length != 256)
  let totals ← otsuTotals hist
  otsuLoop rnd hist totals.1 totals.2 256 0 0 0 (-1) 0

/-! ### Lemmas -/

/-- The sum of the first `n` values. Not in the code: for statements and proofs. -/
def cum (H : Nat → Nat) : Nat → Nat
  | 0 => 0
  | n + 1 => cum H n + H n

theorem cum_mono {H : Nat → Nat} {a b : Nat} (h : a ≤ b) : cum H a ≤ cum H b := by
  induction h with
  | refl => exact Nat.le_refl _
  | step _ ih => exact Nat.le_trans ih (Nat.le_add_right _ _)

variable {μ : Type} {hist : List UInt32}

/-- Entry `k` of a histogram, and its contribution to the sum of values. Not in the code: for statements and proofs. -/
def entry (hist : List UInt32) (k : Nat) : Nat := (hist.getD k 0).toNat
/-- Not in the code: for statements and proofs. -/
def weighted (hist : List UInt32) (k : Nat) : Nat := k * entry hist k

theorem entry_get {k : Nat} (h : k < hist.length) : hist[k]? = some hist[k] ∧ hist[k].toNat = entry hist k := by
  refine ⟨List.getElem?_eq_getElem h, ?_⟩
  rw [entry, List.getD_eq_getElem?_getD, List.getElem?_eq_getElem h]
  rfl

theorem orUb_entry {k : Nat} (h : k < hist.length) (s : μ) : orUb hist[k]? s = .ok hist[k] s := by
  rw [(entry_get h).1]
  rfl

theorem otsuTotals_run (hl : hist.length = 256) (s : μ) :
    otsuTotals hist s = .ok (u32 (cum (entry hist) 256), u32 (cum (weighted hist) 256)) s := by
  rw [otsuTotals, bind_ok (orUb_entry (by omega) s), bind_ok (orUb_entry (by omega) s)]
  rw [(entry_get (by omega)).2, (entry_get (by omega)).2]
  suffices h : ∀ n, n ≤ 254 → fold (fun k (t : Nat × Nat) => do
      let h ← orUb hist[k + 2]?
      pure (u32 (t.1 + h.toNat), u32 (t.2 + u32 ((k + 2) * h.toNat)))) (List.range n)
        (u32 (entry hist 0 + entry hist 1), entry hist 1) s
      = .ok (u32 (cum (entry hist) (n + 2)), u32 (cum (weighted hist) (n + 2))) s from h 254 (Nat.le_refl _)
  intro n
  induction n with
  | zero =>
    intro _
    have : entry hist 1 < 4294967296 := UInt32.toNat_lt _
    simp only [List.range_zero, fold_nil, cum, weighted, Nat.zero_add, Nat.zero_mul, Nat.one_mul, u32_of_lt this]
    rfl
  | succ n ih =>
    intro hn
    rw [List.range_succ, fold_append, bind_ok (ih (by omega)), fold_cons]
    rw [bind_assoc', bind_ok (orUb_entry (hist := hist) (k := n + 2) (by omega) s), (entry_get (hist := hist) (by omega)).2, pure_bind']
    simp only [fold_nil, cum, weighted, u32]
    refine congrArg (Res.ok · s) (Prod.ext ?_ ?_) <;> simp only <;> omega

/-- `sigma` as computed with rounding `rnd`. Not in the code: for statements and proofs. -/
def sigmaQ (rnd : ℚ → ℚ) (n1 n s1 s2 : Nat) : ℚ :=
  rnd (rnd (rnd (rnd (n1 / n) * rnd (1 - rnd (n1 / n))) * rnd (rnd (s1 / n1) - rnd (s2 / (n - n1 : Nat)))) *
    rnd (rnd (s1 / n1) - rnd (s2 / (n - n1 : Nat))))

theorem sigmaD_run {rnd : ℚ → ℚ} {n1 n s1 sum : Nat} (h1 : 0 < n1) (h2 : n1 < n) (h3 : n < 4294967296) (s : μ) :
    sigmaD rnd n1 n s1 sum s = .ok (sigmaQ rnd n1 n s1 (u32 (sum + 4294967296 - s1))) s := by
  have e : u32 (n + 4294967296 - n1) = n - n1 := by
    unfold u32
    omega
  have q1 : ¬ (n : ℚ) = 0 := by exact_mod_cast (by omega : n ≠ 0)
  have q2 : ¬ (n1 : ℚ) = 0 := by exact_mod_cast (by omega : n1 ≠ 0)
  have q3 : ¬ ((n - n1 : Nat) : ℚ) = 0 := by exact_mod_cast (by omega : n - n1 ≠ 0)
  rw [sigmaD, e]
  simp only [divD, if_neg q1, if_neg q2, if_neg q3]
  rfl

theorem sigmaQ_nonneg {rnd : ℚ → ℚ} (r : Rounding rnd) {n1 n s1 s2 : Nat} (h : n1 ≤ n) : 0 ≤ sigmaQ rnd n1 n s1 s2 := by
  unfold sigmaQ
  generalize rnd (rnd (s1 / n1) - rnd (s2 / (n - n1 : Nat))) = a
  have hw0 : 0 ≤ rnd ((n1 : ℚ) / n) := r.nonneg (by positivity)
  have hw1 : rnd ((n1 : ℚ) / n) ≤ 1 := by
    have : (n1 : ℚ) / n ≤ 1 := div_le_one_of_le₀ (by exact_mod_cast h) (by positivity)
    have := r.mono _ _ this
    rwa [r.one] at this
  have hb : 0 ≤ rnd (rnd ((n1 : ℚ) / n) * rnd (1 - rnd ((n1 : ℚ) / n))) :=
    r.nonneg (mul_nonneg hw0 (r.nonneg (by linarith)))
  generalize rnd (rnd ((n1 : ℚ) / n) * rnd (1 - rnd ((n1 : ℚ) / n))) = b at hb
  refine r.nonneg ?_
  rcases le_total 0 a with ha | ha
  · exact mul_nonneg (r.nonneg (mul_nonneg hb ha)) ha
  · exact mul_nonneg_of_nonpos_of_nonpos (r.nonpos (mul_nonpos_of_nonneg_of_nonpos hb ha)) ha

/-- The index `i` splits the pixels into two non-empty classes, `0..i` and the rest. Not in the code: for statements and proofs. -/
def Splits (H : Nat → Nat) (i : Nat) : Prop := 0 < cum H (i + 1) ∧ cum H (i + 1) < cum H 256

/-- `sigma` at index `i`. Not in the code: for statements and proofs. -/
def sigmaAt (rnd : ℚ → ℚ) (hist : List UInt32) (i : Nat) : ℚ :=
  sigmaQ rnd (cum (entry hist) (i + 1)) (cum (entry hist) 256) (u32 (cum (weighted hist) (i + 1)))
    (u32 (u32 (cum (weighted hist) 256) + 4294967296 - u32 (cum (weighted hist) (i + 1))))

/-- The best split below `n`, if there is one. Not in the code: for statements and proofs. -/
def Best (rnd : ℚ → ℚ) (hist : List UInt32) (n : Nat) (maximumSigma : ℚ) (t : Nat) : Prop :=
  (maximumSigma = -1 ∧ t = 0 ∧ ∀ j, j < n → ¬ Splits (entry hist) j) ∨
  (Splits (entry hist) t ∧ t < n ∧ maximumSigma = sigmaAt rnd hist t ∧ ∀ j, j < n → Splits (entry hist) j →
    sigmaAt rnd hist j ≤ sigmaAt rnd hist t ∧ (j < t → sigmaAt rnd hist j < sigmaAt rnd hist t))

theorem cum_weighted_zero {n : Nat} (h : cum (entry hist) n = 0) : cum (weighted hist) n = 0 := by
  induction n with
  | zero => rfl
  | succ n ih =>
    simp only [cum] at *
    rw [ih (by omega), weighted, show entry hist n = 0 by omega]
    rfl

theorem otsuLoop_run {rnd : ℚ → ℚ} (r : Rounding rnd) (hl : hist.length = 256) (ht : cum (entry hist) 256 < 4294967296) (s : μ)
    (n : Nat) : ∀ {i : Nat} {mS : ℚ} {t : Nat}, i + n = 256 → (∀ j, j < i → cum (entry hist) (j + 1) < cum (entry hist) 256) →
    Best rnd hist i mS t →
    ∃ t' mS', otsuLoop rnd hist (u32 (cum (entry hist) 256)) (u32 (cum (weighted hist) 256)) n i (cum (entry hist) i)
      (u32 (cum (weighted hist) i)) mS t s = .ok t' s ∧ Best rnd hist 256 mS' t' := by
  induction n with
  | zero =>
    intro i mS t hi hlt hb
    have : i = 256 := by omega
    subst this
    exact ⟨t, mS, rfl, hb⟩
  | succ n ih =>
    intro i mS t hi hlt hb
    have hpi : cum (entry hist) i + entry hist i = cum (entry hist) (i + 1) := rfl
    have hci : cum (entry hist) (i + 1) ≤ cum (entry hist) 256 := cum_mono (by omega)
    have hw : u32 (u32 (cum (weighted hist) i) + u32 (i * entry hist i)) = u32 (cum (weighted hist) (i + 1)) := by
      simp only [cum, weighted, u32]
      omega
    rw [otsuLoop, bind_ok (orUb_entry (by omega) s), (entry_get (by omega)).2]
    simp only [hpi, u32_of_lt ht, u32_of_lt (Nat.lt_of_le_of_lt hci ht), hw]
    have ih' := @ih (i + 1)
    rw [u32_of_lt ht] at ih'
    by_cases hbreak : cum (entry hist) (i + 1) = cum (entry hist) 256
    · rw [if_pos hbreak]
      refine ⟨t, mS, rfl, ?_⟩
      have hno : ∀ j, i ≤ j → ¬ Splits (entry hist) j := by
        intro j hj hs
        have : cum (entry hist) (i + 1) ≤ cum (entry hist) (j + 1) := cum_mono (by omega)
        have := hs.2
        omega
      rcases hb with ⟨h1, h2, h3⟩ | ⟨h1, h2, h3, h4⟩
      · exact Or.inl ⟨h1, h2, fun j _ => if hj : j < i then h3 j hj else hno j (by omega)⟩
      · exact Or.inr ⟨h1, by omega, h3, fun j _ hs => if hj : j < i then h4 j hj hs else absurd hs (hno j (by omega))⟩
    · rw [if_neg hbreak]
      have hlt' : ∀ j, j < i + 1 → cum (entry hist) (j + 1) < cum (entry hist) 256 := by
        intro j hj
        rcases Nat.lt_or_eq_of_le (Nat.le_of_lt_succ hj) with h | h
        · exact hlt j h
        · rw [h]
          omega
      by_cases hpos : cum (entry hist) (i + 1) > 0
      · rw [if_pos hpos, bind_ok (sigmaD_run hpos (by omega) ht s)]
        have hS : Splits (entry hist) i := ⟨hpos, by omega⟩
        have h0 : 0 ≤ sigmaAt rnd hist i := sigmaQ_nonneg r hci
        rw [show sigmaQ rnd (cum (entry hist) (i + 1)) (cum (entry hist) 256) (u32 (cum (weighted hist) (i + 1)))
          (u32 (u32 (cum (weighted hist) 256) + 4294967296 - u32 (cum (weighted hist) (i + 1)))) = sigmaAt rnd hist i from rfl]
        by_cases hg : sigmaAt rnd hist i > mS
        · rw [if_pos hg]
          refine ih' (by omega) hlt' (Or.inr ⟨hS, by omega, rfl, fun j hj hs => ?_⟩)
          rcases Nat.lt_or_eq_of_le (Nat.le_of_lt_succ hj) with h | h
          · rcases hb with ⟨_, _, h3⟩ | ⟨_, _, h3, h4⟩
            · exact absurd hs (h3 j h)
            · have := (h4 j h hs).1
              rw [← h3] at this
              exact ⟨le_of_lt (lt_of_le_of_lt this hg), fun _ => lt_of_le_of_lt this hg⟩
          · rw [h]
            exact ⟨le_refl _, fun h => absurd h (Nat.lt_irrefl _)⟩
        · rw [if_neg hg]
          refine ih' (by omega) hlt' ?_
          rcases hb with ⟨h1, _, _⟩ | ⟨h1, h2, h3, h4⟩
          · rw [h1] at hg
            exact absurd (by linarith) hg
          · refine Or.inr ⟨h1, by omega, h3, fun j hj hs => ?_⟩
            rcases Nat.lt_or_eq_of_le (Nat.le_of_lt_succ hj) with h | h
            · exact h4 j h hs
            · rw [h, ← h3]
              exact ⟨le_of_not_gt hg, fun h' => by omega⟩
      · rw [if_neg hpos]
        have hz : cum (entry hist) (i + 1) = 0 := by omega
        have e : u32 (cum (weighted hist) i) = u32 (cum (weighted hist) (i + 1)) := by
          rw [cum_weighted_zero hz, cum_weighted_zero (hist := hist) (n := i) (by simp only [cum] at hz; omega)]
        rw [e]
        refine ih' (by omega) hlt' ?_
        have hnS : ¬ Splits (entry hist) i := fun hs => hpos hs.1
        rcases hb with ⟨h1, h2, h3⟩ | ⟨h1, h2, h3, h4⟩
        · refine Or.inl ⟨h1, h2, fun j hj => ?_⟩
          rcases Nat.lt_or_eq_of_le (Nat.le_of_lt_succ hj) with h | h
          · exact h3 j h
          · exact h ▸ hnS
        · refine Or.inr ⟨h1, by omega, h3, fun j hj hs => ?_⟩
          rcases Nat.lt_or_eq_of_le (Nat.le_of_lt_succ hj) with h | h
          · exact h4 j h hs
          · exact absurd (h ▸ hs) hnS

theorem getThreshold_run {rnd : ℚ → ℚ} (r : Rounding rnd) (hl : hist.length = 256) (ht : cum (entry hist) 256 < 4294967296) (s : μ) :
    ∃ t mS, GetThreshold rnd hist s = .ok t s ∧ Best rnd hist 256 mS t := by
  have h1 : (hist.length != 256) = false := by simp [hl]
  rw [GetThreshold, h1, throwIf_false, pure_bind', bind_ok (otsuTotals_run hl s)]
  exact otsuLoop_run r hl ht s 256 (i := 0) (Nat.zero_add _) (fun j hj => absurd hj (Nat.not_lt_zero _))
    (Or.inl ⟨rfl, rfl, fun j hj => absurd hj (Nat.not_lt_zero _)⟩)

end PV
