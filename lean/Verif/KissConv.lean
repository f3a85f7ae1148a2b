import Verif.KissLemmas
/-
  Sums over roots of 1 and the two-dimensional stage, for PropsKiss.lean.
-/
namespace PV.Kiss
open PV Finset

/-- Two-dimensional sums with powers of two roots of 1: w values in each of h rows. Not in the code: for statements and proofs. -/
noncomputable def dftR (A B : ℂ) (w h : Nat) (f : Nat → ℂ) (u v : Nat) : ℂ :=
  ∑ y ∈ range h, ∑ x ∈ range w, f (y * w + x) * (A ^ (x * u) * B ^ (y * v))

theorem onBuf_ok {μ : Type} {x : M (Arr ℂ) Unit} {a a' : Arr ℂ} (h : x a = .ok () a') (m : μ) : onBuf x a m = .ok a' m := by
  rw [onBuf, h]

/-- The two stages -/
theorem nd_ok {w h : Nat} {inverse : Bool} {junk : Nat → ℂ} (hw : 0 < w) (hh : 0 < h) (hs : w * h ≤ 1073741824) :
    ∃ pl, planAlloc w h inverse junk () = .ok pl () ∧ ∀ fin fout : Arr ℂ, fin.len = w * h → fout.len = w * h →
      ∃ c, nd pl fin fout () = .ok c () ∧ c.len = w * h ∧
        ∀ i k, i < w → k < h → c.at' (i * h + k) = dftR (root inverse h) (root inverse w) h w fin.at' k i := by
  have hw' : w ≤ w * h := Nat.le_mul_of_pos_right _ hh
  have hh' : h ≤ w * h := Nat.le_mul_of_pos_left _ hw
  obtain ⟨s0, e0, n0, r0, c0⟩ := alloc_ok inverse hw (by omega) ()
  obtain ⟨s1, e1, n1, r1, c1⟩ := alloc_ok inverse hh (by omega) ()
  refine ⟨⟨w * h, s0, s1, ⟨w * h, junk⟩⟩, ?_, ?_⟩
  · rw [planAlloc, if_pos (by omega), bind_ok e0, bind_ok e1]
    rfl
  · intro fin fout hfin hfout
    rw [← n0] at c0
    rw [← n1] at c1
    obtain ⟨t, et, lt, gt⟩ := stage_ok r0 c0 (s := h) (f := fin) (a := ⟨w * h, junk⟩) (by rw [n0, hfin]) (by rw [n0])
    obtain ⟨c, ec, lc, gc⟩ := stage_ok r1 c1 (s := w) (f := t) (a := fout) (by rw [n1, lt, Nat.mul_comm]) (by rw [n1, hfout, Nat.mul_comm])
    rw [n0] at et gt
    rw [n1, Nat.mul_comm h w] at ec
    rw [n1] at gc
    refine ⟨c, (bind_ok (onBuf_ok et ())).trans (onBuf_ok ec ()), lc.trans hfout, ?_⟩
    intro i k hi hk
    rw [gc i k hi hk, dftR, Finset.sum_comm]
    refine Finset.sum_congr rfl fun j hj => ?_
    have hj := Finset.mem_range.1 hj
    rw [show i + j * w = j * w + i by omega, gt j i hj hi, Finset.sum_mul]
    refine Finset.sum_congr rfl fun j' _ => ?_
    rw [Nat.add_comm j, mul_assoc, mul_comm (root inverse w ^ _)]

/-! ### Orthogonality -/

theorem root_mul (n : Nat) : root false n * root true n = 1 := by
  rw [root, root, ← Complex.exp_add, ← add_div]
  simp

theorem root_prim {n : Nat} (hn : 0 < n) : IsPrimitiveRoot (root true n) n := by
  have := Complex.isPrimitiveRoot_exp n hn.ne'
  rw [root]
  simpa using this

theorem geom {r : ℂ} {n : Nat} (h : r ^ n = 1) (h1 : r ≠ 1) : ∑ u ∈ range n, r ^ u = 0 := by
  rw [geom_sum_eq h1, h, sub_self, zero_div]

/-- Σ over u of ω^(-x u) ω^(x' u) -/
theorem orth {n x x' : Nat} (hx : x < n) (hx' : x' < n) :
    ∑ u ∈ range n, root false n ^ (x * u) * root true n ^ (u * x') = if x = x' then (n : ℂ) else 0 := by
  have e : ∀ u, root false n ^ (x * u) * root true n ^ (u * x') = (root false n ^ x * root true n ^ x') ^ u := fun u => by
    rw [mul_pow, ← pow_mul, ← pow_mul, Nat.mul_comm u]
  simp only [e]
  split
  · rename_i hc
    subst hc
    rw [← mul_pow, root_mul, one_pow]
    simp
  · rename_i hc
    refine geom ?_ ?_
    · rw [mul_pow, ← pow_mul, ← pow_mul, Nat.mul_comm x, Nat.mul_comm x', pow_mul, pow_mul, root_one false (by omega), root_one true (by omega), one_pow, one_pow, mul_one]
    · intro h1
      refine hc ((root_prim (by omega)).pow_inj hx hx' ?_)
      have h2 : root true n ^ x * (root false n ^ x * root true n ^ x') = root true n ^ x' := by
        rw [← mul_assoc, ← mul_pow, mul_comm (root true n), root_mul, one_pow, one_mul]
      rw [h1, mul_one] at h2
      exact h2

/-- The inverse sums of the direct sums -/
theorem dftR_inverse {w h : Nat} {f F : Nat → ℂ} (hF : ∀ u v, u < w → v < h → F (v * w + u) = dftR (root false w) (root false h) w h f u v)
    {x' y' : Nat} (hx : x' < w) (hy : y' < h) : dftR (root true w) (root true h) w h F x' y' = (w * h : ℂ) * f (y' * w + x') := by
  rw [dftR]
  have e : ∀ v ∈ range h, ∀ u ∈ range w, F (v * w + u) * (root true w ^ (u * x') * root true h ^ (v * y')) =
      ∑ y ∈ range h, ∑ x ∈ range w, f (y * w + x) * ((root false w ^ (x * u) * root true w ^ (u * x')) * (root false h ^ (y * v) * root true h ^ (v * y'))) := by
    intro v hv u hu
    rw [hF u v (Finset.mem_range.1 hu) (Finset.mem_range.1 hv), dftR, Finset.sum_mul]
    refine Finset.sum_congr rfl fun y _ => ?_
    rw [Finset.sum_mul]
    refine Finset.sum_congr rfl fun x _ => ?_
    ring
  rw [Finset.sum_congr rfl fun v hv => Finset.sum_congr rfl fun u hu => e v hv u hu]
  have e2 : (∑ v ∈ range h, ∑ u ∈ range w, ∑ y ∈ range h, ∑ x ∈ range w,
        f (y * w + x) * ((root false w ^ (x * u) * root true w ^ (u * x')) * (root false h ^ (y * v) * root true h ^ (v * y')))) =
      ∑ y ∈ range h, ∑ x ∈ range w, f (y * w + x) * ((∑ u ∈ range w, root false w ^ (x * u) * root true w ^ (u * x')) *
        ∑ v ∈ range h, root false h ^ (y * v) * root true h ^ (v * y')) := by
    rw [Finset.sum_congr rfl fun v _ => Finset.sum_comm, Finset.sum_comm]
    refine Finset.sum_congr rfl fun y _ => ?_
    rw [Finset.sum_congr rfl fun v _ => Finset.sum_comm, Finset.sum_comm]
    refine Finset.sum_congr rfl fun x _ => ?_
    rw [Finset.sum_mul_sum, Finset.mul_sum, Finset.sum_comm]
    refine Finset.sum_congr rfl fun u _ => ?_
    rw [Finset.mul_sum]
  rw [e2, Finset.sum_eq_single y']
  · rw [Finset.sum_eq_single x']
    · rw [orth hx hx, orth hy hy, if_pos rfl, if_pos rfl]
      ring
    · intro x hxr hne
      rw [orth (Finset.mem_range.1 hxr) hx, if_neg hne]
      ring
    · exact fun hc => absurd (Finset.mem_range.2 hx) hc
  · intro y hyr hne
    refine Finset.sum_eq_zero fun x _ => ?_
    rw [orth (Finset.mem_range.1 hyr) hy, if_neg hne]
    ring
  · exact fun hc => absurd (Finset.mem_range.2 hy) hc

/-! ### Convolution -/

/-- A shifted sum -/
theorem sum_shift {n x' : Nat} (hx : x' < n) {A : ℂ} (hA : A ^ n = 1) (g : Nat → ℂ) (u : Nat) :
    ∑ x ∈ range n, g ((x + n - x') % n) * A ^ (x * u) = A ^ (x' * u) * ∑ t ∈ range n, g t * A ^ (t * u) := by
  rw [Finset.mul_sum]
  refine Finset.sum_nbij' (fun x => (x + n - x') % n) (fun t => (t + x') % n) ?_ ?_ ?_ ?_ ?_
  · exact fun x _ => Finset.mem_range.2 (Nat.mod_lt _ (by omega))
  · exact fun x _ => Finset.mem_range.2 (Nat.mod_lt _ (by omega))
  · intro x hx
    have hx := Finset.mem_range.1 hx
    rw [Nat.mod_add_mod, show x + n - x' + x' = x + n by omega, Nat.add_mod_right, Nat.mod_eq_of_lt hx]
  · intro t ht
    have ht := Finset.mem_range.1 ht
    have h1 := Nat.mod_lt (t + x') (show 0 < n by omega)
    by_cases h2 : t + x' < n
    · rw [Nat.mod_eq_of_lt h2, show t + x' + n - x' = t + n by omega, Nat.add_mod_right, Nat.mod_eq_of_lt ht]
    · rw [Nat.mod_eq_sub_mod (a := t + x') (by omega), Nat.mod_eq_of_lt (by omega : t + x' - n < n), show t + x' - n + n - x' = t by omega, Nat.mod_eq_of_lt ht]
  · intro x hx
    have hx := Finset.mem_range.1 hx
    rw [mul_left_comm]
    congr 1
    rw [← pow_add, ← Nat.add_mul, pow_mul, pow_mul]
    congr 1
    by_cases h2 : x + n - x' < n
    · rw [Nat.mod_eq_of_lt h2, show x' + (x + n - x') = x + n by omega, pow_add, hA, mul_one]
    · rw [Nat.mod_eq_sub_mod (by omega), Nat.mod_eq_of_lt (by omega : x + n - x' - n < n)]
      congr 1
      omega

/-- The transform of a cyclic convolution is the product of the transforms. -/
theorem dftR_conv {w h : Nat} {A B : ℂ} (hA : A ^ w = 1) (hB : B ^ h = 1) {f g c : Nat → ℂ}
    (hc : ∀ x y, x < w → y < h → c (y * w + x) = ∑ y' ∈ range h, ∑ x' ∈ range w, f (y' * w + x') * g ((y + h - y') % h * w + (x + w - x') % w))
    (u v : Nat) : dftR A B w h c u v = dftR A B w h f u v * dftR A B w h g u v := by
  have e1 : dftR A B w h c u v = ∑ y ∈ range h, ∑ x ∈ range w, ∑ y' ∈ range h, ∑ x' ∈ range w,
      f (y' * w + x') * ((g ((y + h - y') % h * w + (x + w - x') % w) * A ^ (x * u)) * B ^ (y * v)) := by
    refine Finset.sum_congr rfl fun y hy => Finset.sum_congr rfl fun x hx => ?_
    rw [hc x y (Finset.mem_range.1 hx) (Finset.mem_range.1 hy), Finset.sum_mul]
    refine Finset.sum_congr rfl fun y' _ => ?_
    rw [Finset.sum_mul]
    refine Finset.sum_congr rfl fun x' _ => ?_
    ring
  have e2 : ∀ y' ∈ range h, ∀ x' ∈ range w, (∑ y ∈ range h, ∑ x ∈ range w,
      f (y' * w + x') * ((g ((y + h - y') % h * w + (x + w - x') % w) * A ^ (x * u)) * B ^ (y * v))) =
      f (y' * w + x') * (A ^ (x' * u) * B ^ (y' * v)) * dftR A B w h g u v := by
    intro y' hy' x' hx'
    have hy' := Finset.mem_range.1 hy'
    have hx' := Finset.mem_range.1 hx'
    have k1 : ∀ y, (∑ x ∈ range w, f (y' * w + x') * ((g ((y + h - y') % h * w + (x + w - x') % w) * A ^ (x * u)) * B ^ (y * v))) =
        f (y' * w + x') * A ^ (x' * u) * ((∑ t ∈ range w, g ((y + h - y') % h * w + t) * A ^ (t * u)) * B ^ (y * v)) := by
      intro y
      rw [← Finset.mul_sum, ← Finset.sum_mul, sum_shift hx' hA (fun t => g ((y + h - y') % h * w + t))]
      ring
    rw [Finset.sum_congr rfl fun y _ => k1 y, ← Finset.mul_sum, sum_shift hy' hB (fun s => ∑ t ∈ range w, g (s * w + t) * A ^ (t * u))]
    have k2 : (∑ t ∈ range h, (∑ t_1 ∈ range w, g (t * w + t_1) * A ^ (t_1 * u)) * B ^ (t * v)) = dftR A B w h g u v := by
      refine Finset.sum_congr rfl fun y _ => ?_
      rw [Finset.sum_mul]
      refine Finset.sum_congr rfl fun x _ => ?_
      ring
    rw [k2]
    ring
  rw [e1]
  have e3 : (∑ y ∈ range h, ∑ x ∈ range w, ∑ y' ∈ range h, ∑ x' ∈ range w,
      f (y' * w + x') * ((g ((y + h - y') % h * w + (x + w - x') % w) * A ^ (x * u)) * B ^ (y * v))) =
      ∑ y' ∈ range h, ∑ x' ∈ range w, ∑ y ∈ range h, ∑ x ∈ range w,
      f (y' * w + x') * ((g ((y + h - y') % h * w + (x + w - x') % w) * A ^ (x * u)) * B ^ (y * v)) := by
    rw [Finset.sum_congr rfl fun y _ => Finset.sum_comm, Finset.sum_comm]
    refine Finset.sum_congr rfl fun y' _ => ?_
    rw [Finset.sum_congr rfl fun y _ => Finset.sum_comm, Finset.sum_comm]
  rw [e3, Finset.sum_congr rfl fun y' hy' => Finset.sum_congr rfl fun x' hx' => e2 y' hy' x' hx']
  conv_rhs => rw [dftR, Finset.sum_mul]
  refine Finset.sum_congr rfl fun y' _ => ?_
  rw [Finset.sum_mul]

end PV.Kiss
