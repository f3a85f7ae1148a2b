import Verif.Core
import Verif.Haar
/-
  Local vectors and counting loops.

  A local `std::vector` no other variable refers to is a value `Arr α`: a length and the
  elements.  Reading or writing outside of it is undefined.
-/
namespace PV

variable {α μ A : Type}

/-- `std::vector` with the length fixed; used for the vectors of src/edge_detection.cpp 274-276. -/
structure Arr (α : Type) where
  len : Nat
  at' : Nat → α

/-- `v[i]`. Used for the vectors of src/edge_detection.cpp 274-276 and src/math/math_base.cpp 66-73. -/
def Arr.rd (v : Arr α) (i : Nat) : M μ α := if i < v.len then pure (v.at' i) else ubE

/-- `v[i] = x`. Used for the vectors of src/edge_detection.cpp 274-276 and src/math/math_base.cpp 66-73. -/
def Arr.wr (v : Arr α) (i : Nat) (x : α) : M μ (Arr α) :=
  if i < v.len then pure ⟨v.len, fun k => if k = i then x else v.at' k⟩ else ubE

/-- `std::swap( v[i], v[j] )`. src/math/math_base.cpp 97-108. -/
def Arr.swap (v : Arr α) (i j : Nat) : M μ (Arr α) := do
  let a ← v.rd i
  let b ← v.rd j
  let v ← v.wr i b
  v.wr j a

/-- `for ( size_t j = a; j < n; ++j ) x = body( j, x );`. src/math/math_base.cpp 68-135, src/edge_detection.cpp 121-208. -/
def forLoop (a n : Nat) (body : Nat → A → M μ A) (x : A) : M μ A :=
  loop (fun j => decide (j < n)) (fun j => j + 1) body fuelMax a x

theorem Arr.rd_ok {v : Arr α} {i : Nat} (h : i < v.len) (m : μ) : v.rd i m = .ok (v.at' i) m := by
  rw [Arr.rd, if_pos h]
  rfl

theorem Arr.wr_ok {v : Arr α} {i : Nat} (x : α) (h : i < v.len) (m : μ) :
    v.wr i x m = .ok ⟨v.len, fun k => if k = i then x else v.at' k⟩ m := by
  rw [Arr.wr, if_pos h]
  rfl

theorem Arr.swap_ok {v : Arr α} {i j : Nat} (hi : i < v.len) (hj : j < v.len) (m : μ) :
    v.swap i j m = .ok ⟨v.len, fun k => if k = j then v.at' i else if k = i then v.at' j else v.at' k⟩ m := by
  refine (bind_ok (Arr.rd_ok hi m)).trans ((bind_ok (Arr.rd_ok hj m)).trans ((bind_ok (Arr.wr_ok _ hi m)).trans ?_))
  exact Arr.wr_ok (v := ⟨v.len, fun k => if k = i then v.at' j else v.at' k⟩) _ hj m

/-- The rule for counting loops whose body neither throws nor is undefined. -/
theorem forLoop_inv {a n : Nat} {body : Nat → A → M μ A} {P : Nat → A → μ → Prop} {x : A} {m : μ} (ha : a ≤ n)
    (hn : n < fuelMax) (h0 : P a x m)
    (hs : ∀ j x m, a ≤ j → j < n → P j x m → ∃ x' m', body j x m = .ok x' m' ∧ P (j + 1) x' m') :
    ∃ x' m', forLoop a n body x m = .ok x' m' ∧ P n x' m' := by
  suffices h : ∀ d j f x m, j + d = n → a ≤ j → d < f → P j x m →
      ∃ x' m', loop (fun j => decide (j < n)) (fun j => j + 1) body f j x m = .ok x' m' ∧ P n x' m' from
    h (n - a) a fuelMax x m (by omega) (Nat.le_refl _) (by omega) h0
  intro d
  induction d with
  | zero =>
    intro j f x m hj _ hf hp
    obtain ⟨f, rfl⟩ : ∃ g, f = g + 1 := ⟨f - 1, by omega⟩
    have : j = n := by omega
    subst this
    refine ⟨x, m, ?_, hp⟩
    rw [loop, if_neg (by simp)]
    rfl
  | succ d ih =>
    intro j f x m hj haj hf hp
    obtain ⟨f, rfl⟩ : ∃ g, f = g + 1 := ⟨f - 1, by omega⟩
    obtain ⟨x1, m1, h1, h2⟩ := hs j x m haj (by omega) hp
    obtain ⟨x2, m2, h3, h4⟩ := ih (j + 1) f x1 m1 (by omega) (by omega) (by omega) h2
    refine ⟨x2, m2, ?_, h4⟩
    rw [loop, if_pos (by simp; omega)]
    exact (bind_ok h1).trans h3

/-- The same for bodies which keep the state and may throw under `Q`. -/
theorem forLoop_inv_throw {a n : Nat} {body : Nat → A → M μ A} {P : Nat → A → Prop} {Q : Prop} {x : A} {m : μ} (ha : a ≤ n)
    (hn : n < fuelMax) (h0 : P a x)
    (hs : ∀ j x, a ≤ j → j < n → P j x → (body j x m = .throw m ∧ Q) ∨ ∃ x', body j x m = .ok x' m ∧ P (j + 1) x') :
    (forLoop a n body x m = .throw m ∧ Q) ∨ ∃ x', forLoop a n body x m = .ok x' m ∧ P n x' := by
  suffices h : ∀ d j f x, j + d = n → a ≤ j → d < f → P j x →
      (loop (fun j => decide (j < n)) (fun j => j + 1) body f j x m = .throw m ∧ Q) ∨
      ∃ x', loop (fun j => decide (j < n)) (fun j => j + 1) body f j x m = .ok x' m ∧ P n x' from
    h (n - a) a fuelMax x (by omega) (Nat.le_refl _) (by omega) h0
  intro d
  induction d with
  | zero =>
    intro j f x hj _ hf hp
    obtain ⟨f, rfl⟩ : ∃ g, f = g + 1 := ⟨f - 1, by omega⟩
    have : j = n := by omega
    subst this
    refine Or.inr ⟨x, ?_, hp⟩
    rw [loop, if_neg (by simp)]
    rfl
  | succ d ih =>
    intro j f x hj haj hf hp
    obtain ⟨f, rfl⟩ : ∃ g, f = g + 1 := ⟨f - 1, by omega⟩
    rw [loop, if_pos (by simp; omega)]
    rcases hs j x haj (by omega) hp with ⟨h1, hq⟩ | ⟨x1, h1, h2⟩
    · exact Or.inl ⟨bind_throw h1, hq⟩
    · rcases ih (j + 1) f x1 (by omega) (by omega) (by omega) h2 with ⟨h3, hq⟩ | ⟨x2, h3, h4⟩
      · exact Or.inl ⟨(bind_ok h1).trans h3, hq⟩
      · exact Or.inr ⟨x2, (bind_ok h1).trans h3, h4⟩

/-- The same for bodies which keep the state. -/
theorem forLoop_keep {a n : Nat} {body : Nat → A → M μ A} {P : Nat → A → Prop} {x : A} {m : μ} (ha : a ≤ n)
    (hn : n < fuelMax) (h0 : P a x)
    (hs : ∀ j x, a ≤ j → j < n → P j x → ∃ x', body j x m = .ok x' m ∧ P (j + 1) x') :
    ∃ x', forLoop a n body x m = .ok x' m ∧ P n x' := by
  rcases forLoop_inv_throw (P := P) (Q := False) (m := m) ha hn h0 fun j x h1 h2 h3 => Or.inr (hs j x h1 h2 h3) with h | h
  · exact h.2.elim
  · exact h

end PV
