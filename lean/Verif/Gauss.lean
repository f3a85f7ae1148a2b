import Mathlib.Data.Rat.Defs
import Mathlib.Tactic.Ring
import Mathlib.Tactic.FieldSimp
import Verif.FilterLemmas
/-
  Model of `GetGaussianKernel` of src/filtering.cpp.

  Numbers are rationals; `fl` rounds the result of every operation to a `float` (the identity for
  exact arithmetic), and `ex` stands for `expf`.  A division by zero is undefined.  There are no
  infinities and no smallest number.
  The vector is block 1 of a memory of rationals.
-/
namespace PV

/-- `filter.resize( width * height ); std::fill( ..., 0.0f )` (src/filtering.cpp 358-360) -/
def gaussResize (n : Nat) : M (Mem ℚ) Unit := fun _ => .ok () ⟨fun b => if b = 1 then n else 0, fun _ _ => 0⟩

/-- `posX * posX + posY2` with `int32_t` (src/filtering.cpp, lines 375 and 378); overflow is undefined. -/
def squares (px py : Int) : M (Mem ℚ) Int :=
  if px * px < 2147483648 ∧ py * py < 2147483648 ∧ px * px + py * py < 2147483648 then pure (px * px + py * py) else ubE

/-- `-static_cast<int32_t>( kernelSize )` (src/filtering.cpp, lines 372 and 377): undefined for 2^31. -/
def negK (k : Nat) : M (Mem ℚ) Int :=
  if k < 2147483648 then pure (-(k : Int))
  else if k = 2147483648 then ubE
  else pure (4294967296 - (k : Int))

/-- `filter.data() + ( height / 2 - kernelSize ) * width + width / 2 - kernelSize` (src/filtering.cpp, lines 367 and 385) -/
def gaussStart (w h k : Nat) : M (Mem ℚ) Nat :=
  if k ≤ u32 (usub (h / 2) k * w) + w / 2 then pure (u32 (usub (h / 2) k * w) + w / 2 - k) else ubE

/-- src/filtering.cpp, lines 377-380: one row; returns the sum. -/
def gaussRow (fl ex : ℚ → ℚ) (scale dsigma : ℚ) (t x : Nat) (px : Int) (py : Int) (sum : ℚ) : M (Mem ℚ) ℚ :=
  loop (fun s : Nat × Int => s.1 != x + t) (fun s => (s.1 + 1, s.2 + 1)) (fun s sum => do
    let q ← squares s.2 py
    let v := fl (scale * ex (fl (-fl (q : ℚ) / dsigma)))
    writeC 1 s.1 v
    pure (fl (sum + v))) fuelMax (x, px) sum

/-- src/filtering.cpp, lines 387-394: one row multiplied. -/
def gaussScaleRow (fl : ℚ → ℚ) (norm : ℚ) (t x : Nat) : M (Mem ℚ) Unit :=
  loop (fun s => s != x + t) (fun s => s + 1) (fun s _ => do
    let v ← readC 1 s
    writeC 1 s (fl (v * norm))) fuelMax x ()

/-- Division; undefined when the divisor is zero. src/filtering.cpp 378, 383. -/
def divE (fl : ℚ → ℚ) (a b : ℚ) : M (Mem ℚ) ℚ := if b = 0 then ubE else pure (fl (a / b))

/-- The constant `pi` (src/filtering.cpp 362) -/
def piConst : ℚ := 31415926536 / 10000000000

/-- src/filtering.cpp 353-395 -/
def GetGaussianKernel (fl ex : ℚ → ℚ) (w h k : Nat) (sigma : ℚ) : M (Mem ℚ) Unit := do
  throwIf (decide (w < 3) || decide (h < 3) || k == 0 || decide (w < u32 (u32 (k * 2) + 1))
    || decide (h < u32 (u32 (k * 2) + 1)) || decide (sigma < 0))
  gaussResize (u32 (w * h))
  let dsigma := fl (sigma * 2)
  let scale ← divE fl 1 (fl (dsigma * fl piConst))
  let t := u32 (u32 (2 * k) + 1)
  let y ← gaussStart w h k
  let p ← negK k
  let sum ← loop (fun s : Nat × Int => s.1 != y + u32 (t * w)) (fun s => (s.1 + w, s.2 + 1))
    (fun s sum => gaussRow fl ex scale dsigma t s.1 p s.2 sum) fuelMax (y, p) 0
  let norm ← divE fl 1 sum
  loop (fun s => s != y + u32 (t * w)) (fun s => s + w)
    (fun s _ => gaussScaleRow fl norm t s) fuelMax y ()

/-! ### Lemmas -/

/-- The unscaled value at (x, y) of the square of side 2k + 1. Not in the code: for statements and proofs. -/
def gaussAt (fl ex : ℚ → ℚ) (scale dsigma : ℚ) (k x y : Nat) : ℚ :=
  fl (scale * ex (fl (-fl ((((x : Int) - k) * ((x : Int) - k) + ((y : Int) - k) * ((y : Int) - k) : Int) : ℚ) / dsigma)))

/-- The sum over the square. Not in the code: for statements and proofs. -/
def gaussSum (fl ex : ℚ → ℚ) (scale dsigma : ℚ) (k : Nat) : ℚ :=
  (grid (2 * k + 1) (2 * k + 1)).foldl (fun a q => fl (a + gaussAt fl ex scale dsigma k q.2 q.1)) 0

theorem fold_foldl {μ ι A : Type} {body : ι → A → M μ A} {g : ι → Unit → M μ Unit} {step : A → ι → A} (L : List ι) :
    ∀ (a : A) (m m' : μ),
    (∀ p ∈ L, ∀ a, ∀ m1 m2, g p () m1 = .ok () m2 → body p a m1 = .ok (step a p) m2) →
    fold g L () m = .ok () m' → fold body L a m = .ok (L.foldl step a) m' := by
  induction L with
  | nil =>
    intro a m m' _ hf
    injection hf with _ hf
    subst hf
    rfl
  | cons p L ih =>
    intro a m m' hs hf
    rw [fold_cons] at hf
    obtain ⟨_, m1, h1, h2⟩ := bind_eq_ok.1 hf
    rw [fold_cons, bind_ok (hs p (List.mem_cons_self ..) a m m1 h1),
      ih _ m1 m' (fun q hq => hs q (List.mem_cons_of_mem _ hq)) h2, List.foldl_cons]

/-- Two writes of the same rectangle: the second counts. -/
theorem WritesRoi.trans {α : Type} {m m1 m2 : Mem α} {v : View} {w h : Nat} {F G : Nat → Nat → Nat → α}
    (h1 : WritesRoi m m1 v w h F) (h2 : WritesRoi m1 m2 v w h G) : WritesRoi m m2 v w h G :=
  ⟨h2.size_eq.trans h1.size_eq, h2.inside, fun b i hn => (h2.outside b i hn).trans (h1.outside b i hn)⟩

/-- The zero vector after `resize`. Not in the code: for statements and proofs. -/
def zeroVec (n : Nat) : Mem ℚ := ⟨fun b => if b = 1 then n else 0, fun _ _ => 0⟩

/-- The square of side 2k + 1 in the middle of the vector seen as an image. Not in the code: for statements and proofs. -/
def square (w h k : Nat) : View := ⟨⟨1, w, h, 1, w⟩, w / 2 - k, h / 2 - k⟩

/-- The sizes a kernel must have. Not in the code: for statements and proofs. -/
structure GaussSize (w h k : Nat) : Prop where
  kpos : 0 < k
  hw : 2 * k + 1 ≤ w
  hh : 2 * k + 1 ≤ h
  small : w * h < 4294967296

theorem square_wf {w h k : Nat} (s : GaussSize w h k) {m : Mem ℚ} (hm : m.size = (zeroVec (w * h)).size) :
    (square w h k).img.WF m :=
  ⟨by simp [square], by rw [hm]; simp [square, zeroVec], by have := s.small; exact this⟩

theorem square_fits {w h k : Nat} (s : GaussSize w h k) : (square w h k).Fits (2 * k + 1) (2 * k + 1) := by
  have h1 := s.hw
  have h2 := s.hh
  refine ⟨by simp [square], Or.inl rfl, by omega, by omega, ?_, ?_⟩
  · simp only [square]
    omega
  · simp only [square]
    omega

theorem GaussSize.kk {w h k : Nat} (s : GaussSize w h k) : (2 * k + 1) * (2 * k + 1) < 4294967296 :=
  Nat.lt_of_le_of_lt (Nat.mul_le_mul s.hw s.hh) s.small

theorem GaussSize.k_lt {w h k : Nat} (s : GaussSize w h k) : k ≤ 32767 := by
  by_contra hc
  have h1 : 65537 * 65537 ≤ (2 * k + 1) * (2 * k + 1) := Nat.mul_le_mul (by omega) (by omega)
  have := s.kk
  omega

theorem squares_ok {w h k x y : Nat} (s : GaussSize w h k) (hx : x < 2 * k + 1) (hy : y < 2 * k + 1) (m : Mem ℚ) :
    squares ((x : Int) - k) ((y : Int) - k) m
      = .ok (((x : Int) - k) * ((x : Int) - k) + ((y : Int) - k) * ((y : Int) - k)) m := by
  have key : ∀ z : Nat, z < 2 * k + 1 → 0 ≤ ((z : Int) - k) * ((z : Int) - k) ∧ ((z : Int) - k) * ((z : Int) - k) ≤ 32767 * 32767 := by
    intro z hz
    have hk := s.k_lt
    have e : ((z : Int) - k) * ((z : Int) - k) = (((z : Int) - k).natAbs * ((z : Int) - k).natAbs : Nat) := by
      rw [Int.natAbs_mul_self]
    have h1 : ((z : Int) - k).natAbs ≤ 32767 := by omega
    have h2 := Nat.mul_le_mul h1 h1
    rw [e]
    constructor
    · exact Int.natCast_nonneg _
    · exact_mod_cast h2
  have a := key x hx
  have b := key y hy
  rw [squares, if_pos ⟨by omega, by omega, by omega⟩]
  rfl

theorem gaussRow_fold (fl ex : ℚ → ℚ) (scale dsigma : ℚ) (t x : Nat) (px py : Int) (sum : ℚ) (ht : t < 4294967296) :
    gaussRow fl ex scale dsigma t x px py sum = fold (fun (i : Nat) sum => do
      let q ← squares (px + (i : Int)) py
      let v := fl (scale * ex (fl (-fl (q : ℚ) / dsigma)))
      writeC 1 (x + i) v
      pure (fl (sum + v))) (List.range t) sum := by
  have e := loop_eq_fold (μ := Mem ℚ) (cond := fun s : Nat × Int => s.1 != x + t) (next := fun s => (s.1 + 1, s.2 + 1))
    (body := fun s sum => do
      let q ← squares s.2 py
      let v := fl (scale * ex (fl (-fl (q : ℚ) / dsigma)))
      writeC 1 s.1 v
      pure (fl (sum + v))) (fun i => (x + i, px + (i : Int))) t fuelMax sum (by rw [fuelMax]; omega)
    (fun k hk => by simp only [bne_iff_ne, ne_eq]; omega) (by simp)
    (fun k _ => by simp only [Prod.mk.injEq]; push_cast; omega)
  simp only [Nat.add_zero, Int.natCast_zero, Int.add_zero] at e
  exact e

theorem gaussScaleRow_fold (fl : ℚ → ℚ) (norm : ℚ) (t x : Nat) (ht : t < 4294967296) :
    gaussScaleRow fl norm t x = fold (fun i _ => do
      let v ← readC 1 (x + i)
      writeC 1 (x + i) (fl (v * norm))) (List.range t) () := by
  have e := loop_eq_fold (μ := Mem ℚ) (cond := fun s : Nat => s != x + t) (next := fun s => s + 1)
    (body := fun s _ => do
      let v ← readC 1 s
      writeC 1 s (fl (v * norm))) (fun i => x + i) t fuelMax () (by rw [fuelMax]; omega)
    (fun k hk => by simp only [bne_iff_ne, ne_eq]; omega) (by simp) (fun k _ => by omega)
  simp only [Nat.add_zero] at e
  exact e

theorem square_cell {w h k : Nat} (s : GaussSize w h k) (x y : Nat) :
    (h / 2 - k) * w + w / 2 - k + y * w + x = (square w h k).cell x y 0 := by
  have := s.hw
  simp only [View.cell, square, Nat.add_mul]
  omega

theorem gaussFill_ok {fl ex : ℚ → ℚ} {scale dsigma : ℚ} {w h k : Nat} (s : GaussSize w h k) :
    ∃ m', loop (fun s : Nat × Int => s.1 != (h / 2 - k) * w + w / 2 - k + (2 * k + 1) * w) (fun s => (s.1 + w, s.2 + 1))
        (fun s sum => gaussRow fl ex scale dsigma (2 * k + 1) s.1 (-(k : Int)) s.2 sum) fuelMax
        ((h / 2 - k) * w + w / 2 - k, -(k : Int)) 0 (zeroVec (w * h)) = .ok (gaussSum fl ex scale dsigma k) m' ∧
      WritesRoi (zeroVec (w * h)) m' (square w h k) (2 * k + 1) (2 * k + 1) fun x y _ => gaussAt fl ex scale dsigma k x y := by
  have hk := s.k_lt
  have hw := s.hw
  have hh := s.hh
  have htw : (2 * k + 1) * w < 4294967296 := by
    refine Nat.lt_of_le_of_lt (Nat.mul_le_mul_right _ hh) ?_
    rw [Nat.mul_comm]
    exact s.small
  have e := loop_eq_fold (μ := Mem ℚ)
    (cond := fun s : Nat × Int => s.1 != (h / 2 - k) * w + w / 2 - k + (2 * k + 1) * w) (next := fun s => (s.1 + w, s.2 + 1))
    (body := fun s sum => gaussRow fl ex scale dsigma (2 * k + 1) s.1 (-(k : Int)) s.2 sum)
    (fun j => ((h / 2 - k) * w + w / 2 - k + j * w, -(k : Int) + (j : Int))) (2 * k + 1) fuelMax (0 : ℚ)
    (count_lt_fuel (by omega) htw) (fun j hj => ptr_ne hj (by omega)) (by simp)
    (fun j _ => by simp only [Prod.mk.injEq, Nat.succ_mul]; push_cast; omega)
  simp only [Nat.zero_mul, Nat.add_zero, Int.natCast_zero, Int.add_zero] at e
  have e2 : (fun (j : Nat) sum => gaussRow fl ex scale dsigma (2 * k + 1) ((h / 2 - k) * w + w / 2 - k + j * w) (-(k : Int))
      (-(k : Int) + (j : Int)) sum)
      = fun (j : Nat) sum => fold (fun (i : Nat) sum => (do
        let q ← squares (-(k : Int) + (i : Int)) (-(k : Int) + (j : Int))
        let v := fl (scale * ex (fl (-fl (q : ℚ) / dsigma)))
        writeC 1 ((h / 2 - k) * w + w / 2 - k + j * w + i) v
        pure (fl (sum + v)) : M (Mem ℚ) ℚ)) (List.range (2 * k + 1)) sum := by
    funext j sum
    exact gaussRow_fold _ _ _ _ _ _ _ _ _ (by omega)
  rw [e, e2]
  have e3 := fold_grid (μ := Mem ℚ) (A := ℚ) (fun p sum => (do
        let q ← squares (-(k : Int) + (p.2 : Int)) (-(k : Int) + (p.1 : Int))
        let v := fl (scale * ex (fl (-fl (q : ℚ) / dsigma)))
        writeC 1 ((h / 2 - k) * w + w / 2 - k + p.1 * w + p.2) v
        pure (fl (sum + v)) : M (Mem ℚ) ℚ)) (2 * k + 1) (2 * k + 1) 0
  rw [← e3]
  classical
  have wf := square_wf s (m := zeroVec (w * h)) rfl
  have fit := square_fits s
  obtain ⟨m', h1, h2⟩ := gray_writes (m := zeroVec (w * h)) wf fit rfl
    (body := fun p _ m1 => if m1.size = (zeroVec (w * h)).size
      then .ok () (m1.set 1 ((square w h k).cell p.2 p.1 0) (gaussAt fl ex scale dsigma k p.2 p.1)) else .ub)
    (val := fun x y => gaussAt fl ex scale dsigma k x y)
    (fun x y hx hy m' ho => by
      show (if m'.size = _ then _ else _) = _
      rw [if_pos ho.size_eq]
      rfl)
  have h3 := fold_foldl (μ := Mem ℚ) (body := fun p sum => (do
        let q ← squares (-(k : Int) + (p.2 : Int)) (-(k : Int) + (p.1 : Int))
        let v := fl (scale * ex (fl (-fl (q : ℚ) / dsigma)))
        writeC 1 ((h / 2 - k) * w + w / 2 - k + p.1 * w + p.2) v
        pure (fl (sum + v)) : M (Mem ℚ) ℚ)) (step := fun a q => fl (a + gaussAt fl ex scale dsigma k q.2 q.1))
    (grid (2 * k + 1) (2 * k + 1)) 0 (zeroVec (w * h)) m' (by
      intro p hp a m1 m2 hg
      obtain ⟨hy, hx⟩ := mem_grid.1 hp
      split at hg
      · rename_i hs
        injection hg with _ hg
        rw [← hg, square_cell s]
        have q := squares_ok s hx hy m1
        rw [show (p.2 : Int) - k = -(k : Int) + p.2 by omega, show (p.1 : Int) - k = -(k : Int) + p.1 by omega] at q
        have hv : m1.Valid 1 ((square w h k).cell p.2 p.1 0) :=
          Mem.valid_of_size hs (View.cell_valid (c := 0) wf fit hx hy (Nat.zero_lt_one))
        refine (bind_ok q).trans ((bind_ok (writeC_ok _ hv)).trans ?_)
        rw [gaussAt, show (p.2 : Int) - k = -(k : Int) + p.2 by omega, show (p.1 : Int) - k = -(k : Int) + p.1 by omega]
        rfl
      · cases hg) h1
  exact ⟨m', h3, h2⟩

theorem gaussScale_ok {w h k : Nat} (s : GaussSize w h k) (fl : ℚ → ℚ) (norm : ℚ) {m : Mem ℚ} (hm : m.size = (zeroVec (w * h)).size) :
    ∃ m', loop (fun s : Nat => s != (h / 2 - k) * w + w / 2 - k + (2 * k + 1) * w) (fun s => s + w)
        (fun s _ => gaussScaleRow fl norm (2 * k + 1) s) fuelMax ((h / 2 - k) * w + w / 2 - k) () m = .ok () m' ∧
      WritesRoi m m' (square w h k) (2 * k + 1) (2 * k + 1) fun x y c => fl ((square w h k).get m x y c * norm) := by
  have hk := s.k_lt
  have hw := s.hw
  have hh := s.hh
  have htw : (2 * k + 1) * w < 4294967296 := by
    refine Nat.lt_of_le_of_lt (Nat.mul_le_mul_right _ hh) ?_
    rw [Nat.mul_comm]
    exact s.small
  have e := loop_eq_fold (μ := Mem ℚ)
    (cond := fun s : Nat => s != (h / 2 - k) * w + w / 2 - k + (2 * k + 1) * w) (next := fun s => s + w)
    (body := fun s _ => gaussScaleRow fl norm (2 * k + 1) s)
    (fun j => (h / 2 - k) * w + w / 2 - k + j * w) (2 * k + 1) fuelMax ()
    (count_lt_fuel (by omega) htw) (fun j hj => ptr_ne hj (by omega)) (by simp)
    (fun j _ => by simp only [Nat.succ_mul]; omega)
  simp only [Nat.zero_mul, Nat.add_zero] at e
  have e2 : (fun j (_ : Unit) => gaussScaleRow fl norm (2 * k + 1) ((h / 2 - k) * w + w / 2 - k + j * w))
      = fun j a => fold (fun i _ => (do
        let v ← readC 1 ((h / 2 - k) * w + w / 2 - k + j * w + i)
        writeC 1 ((h / 2 - k) * w + w / 2 - k + j * w + i) (fl (v * norm)) : M (Mem ℚ) Unit)) (List.range (2 * k + 1)) a := by
    funext j a
    exact gaussScaleRow_fold _ _ _ _ (by omega)
  rw [e, e2]
  have e3 := fold_grid (μ := Mem ℚ) (A := Unit) (fun p _ => (do
        let v ← readC 1 ((h / 2 - k) * w + w / 2 - k + p.1 * w + p.2)
        writeC 1 ((h / 2 - k) * w + w / 2 - k + p.1 * w + p.2) (fl (v * norm)) : M (Mem ℚ) Unit)) (2 * k + 1) (2 * k + 1) ()
  rw [← e3]
  have wf := square_wf s hm
  have fit := square_fits s
  obtain ⟨m', h1, h2⟩ := gray_writes (m := m) wf fit rfl
    (body := fun p _ => (do
        let v ← readC 1 ((h / 2 - k) * w + w / 2 - k + p.1 * w + p.2)
        writeC 1 ((h / 2 - k) * w + w / 2 - k + p.1 * w + p.2) (fl (v * norm)) : M (Mem ℚ) Unit))
    (val := fun x y => fl ((square w h k).get m x y 0 * norm))
    (fun x y hx hy m1 ho => by
      have hv : m1.Valid 1 ((square w h k).cell x y 0) :=
        Mem.valid_of_size ho.size_eq (View.cell_valid (c := 0) wf fit hx hy (Nat.zero_lt_one))
      have hg : m1.byte 1 ((square w h k).cell x y 0) = (square w h k).get m x y 0 :=
        ho.get_noClash (noClash_self wf.row fit.inX) hx hy (Nat.zero_lt_one)
      rw [square_cell s]
      refine (bind_ok (readC_ok hv)).trans ?_
      rw [hg]
      exact writeC_ok _ hv)
  refine ⟨m', h1, h2.size_eq, fun x y c hx hy hc => ?_, h2.outside⟩
  have hc0 : c = 0 := by
    have : c < 1 := hc
    omega
  subst hc0
  exact h2.inside x y 0 hx hy hc

theorem GetGaussianKernel_ok {fl ex : ℚ → ℚ} {sigma dsigma scale : ℚ} {w h k : Nat} (s : GaussSize w h k) (hs : 0 < sigma)
    (hds : dsigma = fl (sigma * 2)) (hsc : scale = fl (1 / fl (dsigma * fl piConst))) (hne : fl (dsigma * fl piConst) ≠ 0)
    (hn0 : gaussSum fl ex scale dsigma k ≠ 0) (m : Mem ℚ) :
    ∃ m', GetGaussianKernel fl ex w h k sigma m = .ok () m' ∧
      WritesRoi (zeroVec (w * h)) m' (square w h k) (2 * k + 1) (2 * k + 1) fun x y _ =>
        fl (gaussAt fl ex scale dsigma k x y * fl (1 / gaussSum fl ex scale dsigma k)) := by
  have hk := s.k_lt
  have hkp := s.kpos
  have hw := s.hw
  have hh := s.hh
  have hsm := s.small
  have htw : (2 * k + 1) * w < 4294967296 := by
    refine Nat.lt_of_le_of_lt (Nat.mul_le_mul_right _ hh) ?_
    rw [Nat.mul_comm]
    exact hsm
  have hhw : (h / 2 - k) * w < 4294967296 := by
    refine Nat.lt_of_le_of_lt (Nat.mul_le_mul_right _ (show h / 2 - k ≤ h by omega)) ?_
    rw [Nat.mul_comm]
    exact hsm
  have hh32 : h < 4294967296 := by
    have : 1 * h ≤ w * h := Nat.mul_le_mul_right _ (by omega)
    omega
  obtain ⟨m1, h1, w1⟩ := gaussFill_ok (fl := fl) (ex := ex) (scale := scale) (dsigma := dsigma) s
  obtain ⟨m2, h2, w2⟩ := gaussScale_ok s fl (fl (1 / gaussSum fl ex scale dsigma k)) w1.size_eq
  refine ⟨m2, ?_, ?_⟩
  · have hthr : (decide (w < 3) || decide (h < 3) || k == 0 || decide (w < u32 (u32 (k * 2) + 1))
        || decide (h < u32 (u32 (k * 2) + 1)) || decide (sigma < 0)) = false := by
      rw [u32_of_lt (show k * 2 < 4294967296 by omega), u32_of_lt (by omega)]
      simp only [Bool.or_eq_false_iff, decide_eq_false_iff_not, beq_eq_false_iff_ne, ne_eq]
      refine ⟨⟨⟨⟨⟨by omega, by omega⟩, by omega⟩, by omega⟩, by omega⟩, not_lt.2 hs.le⟩
    have ht : u32 (u32 (2 * k) + 1) = 2 * k + 1 := by
      rw [u32_of_lt (show 2 * k < 4294967296 by omega), u32_of_lt (by omega)]
    have hr : gaussResize (u32 (w * h)) m = .ok () (zeroVec (w * h)) := by
      rw [u32_of_lt hsm]
      rfl
    have hst : gaussStart w h k (zeroVec (w * h)) = .ok ((h / 2 - k) * w + w / 2 - k) (zeroVec (w * h)) := by
      rw [gaussStart, usub_of_le (by omega) (by omega), u32_of_lt hhw, if_pos (by omega)]
      rfl
    have hd : divE fl 1 (fl (fl (sigma * 2) * fl piConst)) (zeroVec (w * h)) = .ok scale (zeroVec (w * h)) := by
      rw [divE, ← hds, if_neg hne, hsc]
      rfl
    have hd2 : divE fl 1 (gaussSum fl ex scale dsigma k) m1 = .ok (fl (1 / gaussSum fl ex scale dsigma k)) m1 := by
      rw [divE, if_neg hn0]
      rfl
    have hn : negK k (zeroVec (w * h)) = .ok (-(k : Int)) (zeroVec (w * h)) := by
      rw [negK, if_pos (by omega)]
      rfl
    rw [GetGaussianKernel, hthr, throwIf_false, pure_bind', bind_ok hr, ht]
    refine (bind_ok hd).trans ((bind_ok hst).trans ((bind_ok hn).trans ?_))
    rw [u32_of_lt htw, ← hds]
    exact (bind_ok h1).trans ((bind_ok hd2).trans h2)
  · refine w1.trans ⟨w2.size_eq, fun x y c hx hy hc => ?_, w2.outside⟩
    rw [w2.inside x y c hx hy hc, w1.inside x y c hx hy hc]

end PV
