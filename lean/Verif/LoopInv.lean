import Verif.Core
/-
  The rule for loops with an invariant and a number that gets smaller.
-/
namespace PV

variable {μ A S : Type}

theorem loop_inv {cond : S → Bool} {next : S → S} {body : S → A → M μ A} (P : S → A → μ → Prop) (v : S → Nat)
    (hs : ∀ s a m, P s a m → cond s = true → ∃ a' m', body s a m = .ok a' m' ∧ P (next s) a' m' ∧ v (next s) < v s) :
    ∀ (fuel : Nat) (s : S) (a : A) (m : μ), v s < fuel → P s a m →
    ∃ s' a' m', loop cond next body fuel s a m = .ok a' m' ∧ P s' a' m' ∧ cond s' = false := by
  intro fuel
  induction fuel with
  | zero =>
    intro s a m h
    exact absurd h (Nat.not_lt_zero _)
  | succ f ih =>
    intro s a m hv hp
    rw [loop]
    cases hc : cond s with
    | false =>
      refine ⟨s, a, m, ?_, hp, hc⟩
      rw [if_neg (by simp)]
      rfl
    | true =>
      obtain ⟨a1, m1, h1, h2, h3⟩ := hs s a m hp hc
      obtain ⟨s', a', m', h4, h5⟩ := ih (next s) a1 m1 (by omega) h2
      refine ⟨s', a', m', ?_, h5⟩
      rw [if_pos rfl]
      exact (bind_ok h1).trans h4

end PV
