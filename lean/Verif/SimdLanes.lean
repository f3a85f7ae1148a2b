import Verif.SimdRows
/-
  The instructions of every kernel compute the scalar expression in every byte.
-/
namespace PV.Simd

theorem forall_byte {P : UInt8 → Prop} (h : ∀ n, n < 256 → P (UInt8.ofNat n)) (a : UInt8) : P a := by
  have := h a.toNat a.toNat_lt
  rwa [UInt8.ofNat_toNat] at this

/-- Flipping the top bit turns the unsigned order into the signed one. -/
theorem signed_xor (a : UInt8) : signed (a ^^^ 128) = (a.toNat : Int) - 128 :=
  forall_byte (P := fun a => signed (a ^^^ 128) = (a.toNat : Int) - 128) (by decide +kernel) a

theorem max8_eq (a b : UInt8) : (if a < b then b else a) = maxE a b := by
  rw [maxE]
  have h : a < b ↔ a.toNat < b.toNat := UInt8.lt_iff_toNat_lt
  have h' : b < a ↔ b.toNat < a.toNat := UInt8.lt_iff_toNat_lt
  by_cases h1 : a < b
  · rw [if_pos h1, if_neg (fun h2 => by have := h.1 h1; have := h'.1 h2; omega)]
  · rw [if_neg h1]
    by_cases h2 : b < a
    · rw [if_pos h2]
    · rw [if_neg h2]
      have h3 : ¬ a.toNat < b.toNat := fun x => h1 (h.2 x)
      have h4 : ¬ b.toNat < a.toNat := fun x => h2 (h'.2 x)
      exact UInt8.toNat_inj.1 (by omega)

theorem min8_eq (a b : UInt8) : (if a < b then a else b) = minE a b := by
  rw [minE]

theorem sub_minE (a b : UInt8) : a - minE a b = subE a b := by
  rw [minE, subE]
  by_cases h : b > a
  · rw [if_pos h, if_pos h, UInt8.sub_self]
  · rw [if_neg h, if_neg h]

theorem maxE_sub_minE (a b : UInt8) : maxE a b - minE a b = absDiffE a b := by
  rw [maxE, minE, absDiffE]
  have h : a < b ↔ a.toNat < b.toNat := UInt8.lt_iff_toNat_lt
  have h' : b < a ↔ b.toNat < a.toNat := UInt8.lt_iff_toNat_lt
  by_cases h1 : b > a
  · rw [if_neg (fun h2 => by have := h.1 h1; have := h'.1 h2; omega), if_pos h1, if_pos h1]
  · rw [if_neg h1, if_neg h1]
    by_cases h2 : b < a
    · rw [if_pos h2]
    · rw [if_neg h2]
      have : a = b := UInt8.toNat_inj.1 (by
        have h3 : ¬ a.toNat < b.toNat := fun x => h1 (h.2 x)
        have h4 : ¬ b.toNat < a.toNat := fun x => h2 (h'.2 x)
        omega)
      rw [this]

theorem abd_eq (a b : UInt8) :
    UInt8.ofNat (a.toNat - b.toNat + (b.toNat - a.toNat)) = absDiffE a b := by
  apply UInt8.toNat_inj.1
  have ha := a.toNat_lt
  have hb := b.toNat_lt
  rw [UInt8.toNat_ofNat', Nat.mod_eq_of_lt (by omega), absDiffE]
  split
  · rename_i h
    have h' : a.toNat < b.toNat := UInt8.lt_iff_toNat_lt.1 h
    rw [UInt8.toNat_sub_of_le _ _ (UInt8.le_iff_toNat_le.2 (by omega))]
    omega
  · rename_i h
    have h' : ¬ a.toNat < b.toNat := fun hh => h (UInt8.lt_iff_toNat_lt.2 hh)
    rw [UInt8.toNat_sub_of_le _ _ (UInt8.le_iff_toNat_le.2 (by omega))]
    omega

theorem lanes_absDiff (k : Kind) (n : Nat) : Lanes2 n (absDiffV k) absDiffE := by
  intro a b i _
  cases k <;> simp only [absDiffV, sub8, max8, min8, abd8, max8_eq, min8_eq, maxE_sub_minE, abd_eq]

theorem lanes_and (k : Kind) (n : Nat) : Lanes2 n (andV k) fun a b => a &&& b := fun _ _ _ _ => rfl
theorem lanes_or (k : Kind) (n : Nat) : Lanes2 n (orV k) fun a b => a ||| b := fun _ _ _ _ => rfl
theorem lanes_xor (k : Kind) (n : Nat) : Lanes2 n (xorV k) fun a b => a ^^^ b := fun _ _ _ _ => rfl
theorem lanes_max (k : Kind) (n : Nat) : Lanes2 n (maxV k) maxE := fun a b i _ => max8_eq (a i) (b i)
theorem lanes_min (k : Kind) (n : Nat) : Lanes2 n (minV k) minE := fun a b i _ => min8_eq (a i) (b i)
theorem lanes_sub (k : Kind) (n : Nat) : Lanes2 n (subV k) subE := fun a b i _ => by
  simp only [subV, sub8, min8, min8_eq, sub_minE]

theorem and_ff (a : UInt8) : a &&& 255 = a :=
  forall_byte (P := fun a => a &&& 255 = a) (by decide +kernel) a

theorem lanes_not (k : Kind) (n : Nat) : Lanes1 n (notV k) fun a => ~~~ a := by
  intro a i _
  cases k <;> simp only [notV, not8, andnot8, set1, and_ff]

theorem toNat_pred {t : UInt8} (ht : t > 0) : (t - 1).toNat = t.toNat - 1 := by
  have h0 : (0 : UInt8).toNat < t.toNat := UInt8.lt_iff_toNat_lt.1 ht
  exact UInt8.toNat_sub_of_le _ _ (UInt8.le_iff_toNat_le.2 h0)

theorem lanes_thr (k : Kind) (n : Nat) {t : UInt8} (ht : t > 0 ∨ k = .neon) :
    Lanes1 n (thrV t k) (thrE t) := by
  intro a i _
  have hlt : a i < t ↔ (a i).toNat < t.toNat := UInt8.lt_iff_toNat_lt
  have main : k ≠ .neon → (if signed (a i ^^^ 128) > signed ((t - 1) ^^^ 128) then (255 : UInt8) else 0)
      = thrE t (a i) := by
    intro hk
    have ht' : t > 0 := ht.resolve_right hk
    rw [signed_xor, signed_xor, toNat_pred ht', thrE]
    have h0 : (0 : UInt8).toNat < t.toNat := UInt8.lt_iff_toNat_lt.1 ht'
    have h00 : (0 : UInt8).toNat = 0 := rfl
    by_cases h : a i < t
    · rw [if_pos h, if_neg (by have := hlt.1 h; omega)]
    · rw [if_neg h, if_pos (by have : ¬ (a i).toNat < t.toNat := fun x => h (hlt.2 x); omega)]
  cases k
  case neon =>
    show (if a i ≥ t then (255 : UInt8) else 0) = if a i < t then 0 else 255
    by_cases h : a i < t
    · rw [if_pos h, if_neg (fun hh : a i ≥ t => by
        have := hlt.1 h
        have := UInt8.le_iff_toNat_le.1 hh
        omega)]
    · rw [if_neg h, if_pos (UInt8.le_iff_toNat_le.2 (by
        have : ¬ (a i).toNat < t.toNat := fun x => h (hlt.2 x)
        omega))]
  all_goals exact main (by decide)

theorem mask_and (p q : Prop) [Decidable p] [Decidable q] :
    ((if p then 255 else 0 : UInt8) &&& (if q then 255 else 0)) = if p ∧ q then 255 else 0 := by
  by_cases hp : p <;> by_cases hq : q <;> simp [hp, hq]

theorem mask_or (p q : Prop) [Decidable p] [Decidable q] :
    ((if p then 255 else 0 : UInt8) ||| (if q then 255 else 0)) = if p ∨ q then 255 else 0 := by
  by_cases hp : p <;> by_cases hq : q <;> simp [hp, hq]

theorem mask_not (p : Prop) [Decidable p] :
    (~~~ (if p then 255 else 0 : UInt8) &&& 255) = if p then 0 else 255 := by
  by_cases hp : p
  · rw [if_pos hp, if_pos hp]; decide
  · rw [if_neg hp, if_neg hp]; decide

theorem thr2T_eq (k : Kind) (lo hi : UInt8) (a : UInt8) : thr2T lo hi k a = thr2E lo hi a := by
  cases k <;> simp only [thr2T]
  by_cases h : lo > 0
  · rw [if_pos h]
  · rw [if_neg h, thr2E]
    have h1 : ¬ a < lo := fun hh => by
      have h2 := UInt8.lt_iff_toNat_lt.1 hh
      exact h (UInt8.lt_iff_toNat_lt.2 (by have : (0 : UInt8).toNat = 0 := rfl; omega))
    by_cases h2 : a > hi
    · rw [if_pos h2, if_pos (Or.inr h2)]
    · rw [if_neg h2, if_neg (fun h3 => h3.elim h1 h2)]

theorem lanes_thr2 (k : Kind) (n : Nat) (lo hi : UInt8) : Lanes1 n (thr2V lo hi k) (thr2E lo hi) := by
  intro a i _
  have hlo : a i < lo ↔ (a i).toNat < lo.toNat := UInt8.lt_iff_toNat_lt
  have hhi : a i > hi ↔ hi.toNat < (a i).toNat := UInt8.lt_iff_toNat_lt
  have main : (if signed (a i ^^^ 128) < signed (lo ^^^ 128) ∨ signed (a i ^^^ 128) > signed (hi ^^^ 128)
      then (0 : UInt8) else 255) = thr2E lo hi (a i) := by
    rw [signed_xor, signed_xor, signed_xor, thr2E]
    have : ((a i).toNat : Int) - 128 < (lo.toNat : Int) - 128 ∨ ((a i).toNat : Int) - 128 > (hi.toNat : Int) - 128
        ↔ a i < lo ∨ a i > hi := by
      rw [hlo, hhi]; omega
    by_cases h : a i < lo ∨ a i > hi
    · rw [if_pos h, if_pos (this.2 h)]
    · rw [if_neg h, if_neg (fun hh => h (this.1 hh))]
  cases k
  case neon =>
    show ((if a i ≥ lo then (255 : UInt8) else 0) &&& (if a i ≤ hi then (255 : UInt8) else 0)) = if a i < lo ∨ a i > hi then 0 else 255
    rw [mask_and]
    have : (a i ≥ lo ∧ a i ≤ hi) ↔ ¬ (a i < lo ∨ a i > hi) := by
      rw [hlo, hhi, ge_iff_le, UInt8.le_iff_toNat_le, UInt8.le_iff_toNat_le]; omega
    by_cases h : a i < lo ∨ a i > hi
    · rw [if_pos h, if_neg (fun hh => this.1 hh h)]
    · rw [if_neg h, if_pos (this.2 h)]
  case avx =>
    rw [← main]
    have key : ∀ (p q : Prop) [Decidable p] [Decidable q] (r : Prop) [Decidable r], (r ↔ (¬ p ∧ q)) →
        (~~~ (if p then 255 else 0 : UInt8) &&& 255 &&& (if q then 255 else 0)) = if r then 255 else 0 := by
      intro p q _ _ r _ hr
      rw [mask_not]
      by_cases hp : p <;> by_cases hq : q <;> simp [hp, hq, hr]
    by_cases h : lo > 0
    · have e : thr2V lo hi .avx a i
          = (~~~ (if signed (a i ^^^ 128) > signed (hi ^^^ 128) then 255 else 0 : UInt8) &&& 255 &&&
            (if signed (a i ^^^ 128) > signed ((lo - 1) ^^^ 128) then 255 else 0)) := by
        rw [thr2V, if_pos h]
        rfl
      rw [e, key _ _ (¬ (signed (a i ^^^ 128) < signed (lo ^^^ 128) ∨ signed (a i ^^^ 128) > signed (hi ^^^ 128)))]
      · by_cases hx : signed (a i ^^^ 128) < signed (lo ^^^ 128) ∨ signed (a i ^^^ 128) > signed (hi ^^^ 128)
        · rw [if_pos hx, if_neg (fun hh => hh hx)]
        · rw [if_neg hx, if_pos hx]
      · rw [signed_xor, signed_xor, signed_xor, signed_xor, toNat_pred h]
        have h0 : (0 : UInt8).toNat < lo.toNat := UInt8.lt_iff_toNat_lt.1 h
        have h00 : (0 : UInt8).toNat = 0 := rfl
        omega
    · have e : thr2V lo hi .avx a i
          = (~~~ (if signed (a i ^^^ 128) > signed (hi ^^^ 128) then 255 else 0 : UInt8) &&& 255) := by
        rw [thr2V, if_neg h]
        rfl
      rw [e, mask_not, signed_xor, signed_xor, signed_xor]
      have h0 : ¬ (0 : UInt8).toNat < lo.toNat := fun hh => h (UInt8.lt_iff_toNat_lt.2 hh)
      have h00 : (0 : UInt8).toNat = 0 := rfl
      by_cases hx : ((a i).toNat : Int) - 128 > (hi.toNat : Int) - 128
      · rw [if_pos hx, if_pos (Or.inr hx)]
      · rw [if_neg hx, if_neg (by omega)]
  all_goals
    rw [← main]
    show (~~~ ((if signed (a i ^^^ 128) < signed (lo ^^^ 128) then 255 else 0 : UInt8) |||
      (if signed (a i ^^^ 128) > signed (hi ^^^ 128) then 255 else 0)) &&& 255) = _
    rw [mask_or, mask_not]

end PV.Simd
