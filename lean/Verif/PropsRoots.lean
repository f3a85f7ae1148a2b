import Verif.RootsLemmas
import Verif.PropsReduce
import Verif.Rounding
/-
  C61: getMatrixRoots solves the given system of linear equations.
-/
namespace PV.Props
open PV PV.Roots Finset

/-- Exact arithmetic -/
local notation "same" => (fun x : ℚ => x)

/-- `x` solves the system of the matrix `a` (row by row) and the free terms `b`. -/
def Solves (n : Nat) (a b x : Nat → ℚ) : Prop := ∀ k, k < n → ∑ j ∈ range n, a (j + k * n) * x j = b k

/-- The system has close to no unique solution: some x with an element equal to 1 is mapped below 10^-10. -/
def AlmostSingular (n : Nat) (a : Nat → ℚ) : Prop :=
  ∃ x : Nat → ℚ, (∃ j, j < n ∧ x j = 1) ∧ ∀ k, k < n → |∑ j ∈ range n, a (j + k * n) * x j| < 1 / 10 ^ 10

/-- The parameters: `n` free terms, `n * n` coefficients and room for `n` roots. -/
structure System (n : Nat) (a b m : Arr ℚ) : Prop where
  two : 2 ≤ n
  mat : a.len = n * n
  terms : b.len = n
  room : n ≤ m.len
  small : n * n < 18446744073709551616

/-- C61: with exact arithmetic getMatrixRoots either throws, leaving the roots alone, and then the matrix is almost singular;
    or returns the only solution, changing nothing behind the n roots. -/
theorem C61_roots_partial {n : Nat} {a b m : Arr ℚ} (h : System n a b m) :
    (getMatrixRoots same a b m = .throw m ∧ AlmostSingular n a.at') ∨
    ∃ m', getMatrixRoots same a b m = .ok () m' ∧ m'.len = m.len ∧ (∀ k, n ≤ k → m'.at' k = m.at' k) ∧ Solves n a.at' b.at' m'.at' ∧
      ∀ x, Solves n a.at' b.at' x → ∀ j, j < n → x j = m'.at' j := by
  have hn : n * n < fuelMax := h.small
  have htwo := h.two
  have e : (a.len == 0 || b.len == 0 || a.len != u64 (b.len * b.len) || decide (b.len < 2)) = false := by
    rw [h.mat, h.terms, u64_of_lt hn]
    have : 0 < n * n := Nat.mul_pos (by omega) (by omega)
    simp only [bne_self_eq_false, Bool.or_false, Bool.or_eq_false_iff, beq_eq_false_iff_ne, ne_eq, decide_eq_false_iff_not]
    omega
  obtain ⟨idx, i1, i2, i3⟩ := initIndices_ok hn m
  have hinv : Inv n a b 0 ⟨a, idx, b⟩ (fun j => j) (fun k => k) :=
    ⟨⟨h.mat, i2, h.terms⟩, ⟨fun _ h => h, fun _ _ _ _ h => h, fun j hj => ⟨j, hj, rfl⟩⟩, ⟨fun _ h => h, fun _ _ _ _ h => h, fun j hj => ⟨j, hj, rfl⟩⟩,
      i3, fun j k hj => absurd hj (by omega), fun j hj => absurd hj (by omega), fun t X _ k _ => rfl, fun t X hX => hX⟩
  have hloop := forLoop_inv_throw (m := m) (P := fun i s => ∃ σ ρ, Inv n a b i s σ ρ) (Q := NearlySingular n a)
    (body := fun i s => round same n i s) (x := ⟨a, idx, b⟩) (Nat.zero_le n) (self_lt hn) ⟨_, _, hinv⟩
    (by
      rintro i s - hi ⟨σ, ρ, hs⟩
      exact round_ok hn hs hi m)
  have hpre : ∀ r, (forLoop 0 n (fun i s => round same n i s) ⟨a, idx, b⟩ >>= fun s => backwards same n s (n - 1) ⟨n, fun _ => 0⟩ >>= fun u => results n s u) m = r →
      getMatrixRoots same a b m = r := by
    intro r hr
    rw [← hr, getMatrixRoots, e, throwIf_false, pure_bind', h.terms, bind_ok i1]
  rcases hloop with ⟨h1, h2⟩ | ⟨s, h1, σ, ρ, hs⟩
  · left
    refine ⟨hpre _ (bind_throw h1), ?_⟩
    obtain ⟨x, hx, hk⟩ := h2
    refine ⟨x, hx, fun k hkn => ?_⟩
    have := hk k hkn
    rw [tiny] at this
    norm_num
    norm_num at this
    exact this
  · right
    obtain ⟨u, u1, u2, u3⟩ := backwards_ok hn hs m (n - 1) ⟨n, fun _ => 0⟩ (by omega) rfl
      (fun k hk hkn => absurd hkn (by omega))
    obtain ⟨m', r1, r2, r3, r4⟩ := results_ok hn hs.lens hs.perm hs.idx u2 h.room
    have hd : ∀ j, j < n → el n s.mat j j ≠ 0 := by
      intro j hj h0
      have := hs.diag j hj
      rw [h0, abs_zero, tiny] at this
      norm_num at this
    have hz : ∀ k, k < n → res n s.mat s.terms 1 (fun j => m'.at' (σ j)) k = 0 := by
      intro k hk
      rw [res_congr r3, res, u3 k (Nat.zero_le _) hk]
      ring
    refine ⟨m', hpre _ ((bind_ok h1).trans ((bind_ok u1).trans r1)), r2, r4, ?_, ?_⟩
    · intro k hk
      obtain ⟨k', hk', rfl⟩ := hs.rows.surj k hk
      have := hs.miss 1 m'.at' hz k' hk'
      rw [hz k' hk', res, one_mul] at this
      exact sub_eq_zero.1 this
    · intro x hx j hj
      obtain ⟨j', hj', rfl⟩ := hs.perm.surj j hj
      rw [r3 j' hj']
      refine tri_unique (Y := fun j => x (σ j)) (fun j k hjk hk => hs.zero j k (by omega) hjk hk) hd u3 (fun k hk => ?_) j' hj'
      have := hs.keep 1 x (fun k hk => by
        rw [res, one_mul]
        exact sub_eq_zero.2 (hx k hk)) k hk
      rw [res, one_mul] at this
      exact sub_eq_zero.1 this

/-- C61: with any rounding getMatrixRoots either throws, leaving the roots alone, or returns, changing nothing behind the n roots; nothing is read or
    written out of range and nothing is divided by zero. -/
theorem C61_total_partial (rnd : ℚ → ℚ) {n : Nat} {a b m : Arr ℚ} (h : System n a b m) :
    getMatrixRoots rnd a b m = .throw m ∨
    ∃ m', getMatrixRoots rnd a b m = .ok () m' ∧ m'.len = m.len ∧ ∀ k, n ≤ k → m'.at' k = m.at' k := by
  have hn : n * n < fuelMax := h.small
  have htwo := h.two
  have e : (a.len == 0 || b.len == 0 || a.len != u64 (b.len * b.len) || decide (b.len < 2)) = false := by
    rw [h.mat, h.terms, u64_of_lt hn]
    have : 0 < n * n := Nat.mul_pos (by omega) (by omega)
    simp only [bne_self_eq_false, Bool.or_false, Bool.or_eq_false_iff, beq_eq_false_iff_ne, ne_eq, decide_eq_false_iff_not]
    omega
  obtain ⟨idx, i1, i2, i3⟩ := initIndices_ok hn m
  have hinv : Tidy n ⟨a, idx, b⟩ (fun j => j) := ⟨⟨h.mat, i2, h.terms⟩, ⟨fun _ h => h, fun _ _ _ _ h => h, fun j hj => ⟨j, hj, rfl⟩⟩, i3⟩
  have hloop := forLoop_inv_throw (m := m) (P := fun _ s => ∃ σ, Tidy n s σ) (Q := True)
    (body := fun i s => round rnd n i s) (x := ⟨a, idx, b⟩) (Nat.zero_le n) (self_lt hn) ⟨_, hinv⟩
    (by
      rintro i s - hi ⟨σ, hs⟩
      exact round_total rnd hn hs hi m)
  have hpre : ∀ r, (forLoop 0 n (fun i s => round rnd n i s) ⟨a, idx, b⟩ >>= fun s => backwards rnd n s (n - 1) ⟨n, fun _ => 0⟩ >>= fun u => results n s u) m = r →
      getMatrixRoots rnd a b m = r := by
    intro r hr
    rw [← hr, getMatrixRoots, e, throwIf_false, pure_bind', h.terms, bind_ok i1]
  rcases hloop with ⟨h1, -⟩ | ⟨s, h1, σ, hs⟩
  · exact Or.inl (hpre _ (bind_throw h1))
  · obtain ⟨u, u1, u2⟩ := backwards_total rnd hn hs.lens m (n - 1) ⟨n, fun _ => 0⟩ (by omega) rfl
    obtain ⟨m', r1, r2, -, r4⟩ := results_ok hn hs.lens hs.perm hs.idx u2 h.room
    exact Or.inr ⟨m', hpre _ ((bind_ok h1).trans ((bind_ok u1).trans r1)), r2, r4⟩

/-- Parameters which do not describe a system throw. -/
theorem C61_rejects (rnd : ℚ → ℚ) {a b m : Arr ℚ}
    (hb : a.len = 0 ∨ b.len < 2 ∨ (b.len * b.len < 18446744073709551616 ∧ a.len ≠ b.len * b.len)) : getMatrixRoots rnd a b m = .throw m := by
  have e : (a.len == 0 || b.len == 0 || a.len != u64 (b.len * b.len) || decide (b.len < 2)) = true := by
    simp only [Bool.or_eq_true, beq_iff_eq, bne_iff_ne, ne_eq, decide_eq_true_eq]
    rcases hb with hb | hb | ⟨h1, hb⟩
    · tauto
    · tauto
    · rw [u64_of_lt h1]
      tauto
  rw [getMatrixRoots, e]
  rfl

/-- A system of three equations. -/
def sysA : Arr ℚ := ⟨9, fun i => match i with
  | 0 => 0 | 1 => 2 | 2 => 1 | 3 => 1 | 4 => -1 | 5 => 0 | 6 => 3 | 7 => 0 | _ => 5⟩
def sysB : Arr ℚ := ⟨3, fun i => match i with
  | 0 => 5 | 1 => -1 | _ => 11⟩

def resultAt (r : Res (Arr ℚ) Unit) (i : Nat) : Option ℚ :=
  match r with
  | .ok _ m => some (m.at' i)
  | _ => none

example : System 3 sysA sysB ⟨3, fun _ => 0⟩ := ⟨by decide, by decide, by decide, by decide, by decide⟩

/-- It is solved, not refused. -/
example : (List.range 3).map (resultAt (getMatrixRoots same sysA sysB ⟨3, fun _ => 0⟩)) = [some (4 / 7), some (11 / 7), some (13 / 7)] := by
  decide +kernel

/-- The first row is 49 times the second. -/
def dependent : Arr ℚ := ⟨4, fun i => match i with
  | 0 => 49000049 | 1 => 49000000 | 2 => 1000001 | _ => 1000000⟩
def unequal : Arr ℚ := ⟨2, fun i => match i with
  | 0 => 0 | _ => 1⟩

/-- C61 with the rounding of `double`: a system of whole numbers without a solution is given roots. -/
theorem C61_rounded_wrong : (∀ x, ¬ Solves 2 dependent.at' unequal.at' x)
    ∧ resultAt (getMatrixRoots double dependent unequal ⟨2, fun _ => 0⟩) 1 = some 8589934592 := by
  refine ⟨fun x h => ?_, by decide +kernel⟩
  have h0 := h 0 (by norm_num)
  have h1 := h 1 (by norm_num)
  rw [Finset.sum_range_succ, Finset.sum_range_one] at h0 h1
  simp only [dependent, unequal] at h0 h1
  linarith

/-- In exact arithmetic it is refused. -/
example : resultAt (getMatrixRoots same dependent unequal ⟨2, fun _ => 0⟩) 1 = none := by decide +kernel

/-- The function writes the roots without making room for them. -/
theorem C61_wrong_room : isUb (getMatrixRoots same sysA sysB ⟨0, fun _ => 0⟩) = true := by decide +kernel

/-- The check multiplies with 64 bits: 2^32 + 1 free terms and 2^33 + 1 coefficients are accepted. -/
theorem C61_wrong_size : isUb (getMatrixRoots same ⟨8589934593, fun _ => 1⟩ ⟨4294967297, fun _ => 1⟩ ⟨4294967297, fun _ => 0⟩) = true := by
  decide +kernel

example : getMatrixRoots double sysA ⟨2, fun _ => 1⟩ ⟨3, fun _ => 0⟩ = .throw ⟨3, fun _ => 0⟩ 
    := C61_rejects _ (by decide)

end PV.Props
