/-
  Core of the model: outcomes of a C++ call, sequential composition, C++ `for`
  loops and 32-bit arithmetic.  Nothing in this file is specific to penguinV.
-/
namespace PV

/-- Outcome of running C++ code on a state `μ` (usually the memory).
    * `ok a m`   : returned `a`, final state `m`;
    * `throw m`  : a C++ exception left the call, `m` is the state at that moment;
    * `ub`       : undefined behaviour (access outside a block, null dereference)
                   or a loop that does not end within 2^64 rounds. -/
inductive Res (μ α : Type) where
  | ok (a : α) (m : μ)
  | throw (m : μ)
  | ub

/-- A C++ statement or call. Not in the code: machinery of the model. -/
def M (μ α : Type) : Type := μ → Res μ α

namespace M

variable {μ α β : Type}

/-- Return without touching the state. Not in the code: machinery of the model. -/
@[inline] def pure (a : α) : M μ α := fun m => .ok a m

/-- Sequential composition; exceptions and undefined behaviour end the run. Not in the code: machinery of the model. -/
@[inline] def bind (x : M μ α) (f : α → M μ β) : M μ β := fun m =>
  match x m with
  | .ok a m' => f a m'
  | .throw m' => .throw m'
  | .ub => .ub

end M

instance {μ : Type} : Monad (M μ) where
  pure := M.pure
  bind := M.bind

variable {μ α β γ A S ι κ : Type}

@[simp] theorem pure_run (a : α) (m : μ) : (pure a : M μ α) m = .ok a m := rfl

theorem bind_run (x : M μ α) (f : α → M μ β) (m : μ) :
    (x >>= f) m = match x m with
      | .ok a m' => f a m'
      | .throw m' => .throw m'
      | .ub => .ub := rfl

theorem bind_ok {x : M μ α} {f : α → M μ β} {m m' : μ} {a : α} (h : x m = .ok a m') :
    (x >>= f) m = f a m' := by rw [bind_run, h]

theorem bind_throw {x : M μ α} {f : α → M μ β} {m m' : μ} (h : x m = .throw m') :
    (x >>= f) m = .throw m' := by rw [bind_run, h]

theorem bind_ub {x : M μ α} {f : α → M μ β} {m : μ} (h : x m = .ub) :
    (x >>= f) m = .ub := by rw [bind_run, h]

theorem bind_eq_ok {x : M μ α} {f : α → M μ β} {m m'' : μ} {b : β} :
    (x >>= f) m = .ok b m'' ↔ ∃ a m', x m = .ok a m' ∧ f a m' = .ok b m'' := by
  rw [bind_run]
  cases h : x m with
  | ok a m' =>
    constructor
    · intro hf
      exact ⟨a, m', rfl, hf⟩
    · rintro ⟨a', m1, h1, hf⟩
      cases h1
      exact hf
  | throw m' => simp
  | ub => simp

@[simp] theorem pure_bind' (a : α) (f : α → M μ β) : (pure a >>= f) = f a := rfl

theorem bind_assoc' (x : M μ α) (f : α → M μ β) (g : β → M μ γ) :
    (x >>= f) >>= g = x >>= fun a => f a >>= g := by
  funext m
  simp only [bind_run]
  cases x m <;> rfl

@[simp] theorem bind_pure' (x : M μ α) : (x >>= fun a => pure a) = x := by
  funext m
  simp only [bind_run]
  cases x m <;> rfl

@[simp] theorem bind_pure_unit (x : M μ Unit) : (x >>= fun _ => pure ()) = x :=
  bind_pure' x

/-- `throw penguinVException( ... )`. src/penguinv_exception.h 27-71. -/
def throwE : M μ α := fun m => .throw m

/-- undefined behaviour. Not in the code: machinery of the model. -/
def ubE : M μ α := fun _ => .ub

@[simp] theorem throwE_run (m : μ) : (throwE : M μ α) m = .throw m := rfl
@[simp] theorem ubE_run (m : μ) : (ubE : M μ α) m = .ub := rfl
@[simp] theorem throwE_bind (f : α → M μ β) : ((throwE : M μ α) >>= f) = throwE := rfl
@[simp] theorem ubE_bind (f : α → M μ β) : ((ubE : M μ α) >>= f) = ubE := rfl

/-- `if ( bad ) throw ...;`. For example src/parameter_validation.h 55-56, 62-63, 76-77. -/
def throwIf (bad : Bool) : M μ Unit := if bad then throwE else pure ()

theorem throwIf_true (m : μ) : (throwIf true : M μ Unit) m = .throw m := rfl
theorem throwIf_false : (throwIf false : M μ Unit) = pure () := rfl

/-- An access that is undefined behaviour when there is no such element, for example
    `vector[i]` with `i >= vector.size()`. Not in the code: machinery of the model. -/
def orUb : Option α → M μ α
  | some a => pure a
  | none => ubE

@[simp] theorem orUb_some (a : α) : (orUb (some a) : M μ α) = pure a := rfl
@[simp] theorem orUb_none : (orUb none : M μ α) = ubE := rfl

/-- Reduction of an arithmetic result to `uint32_t`. -/
def u32 (n : Nat) : Nat := n % 4294967296

theorem u32_of_lt {n : Nat} (h : n < 4294967296) : u32 n = n := Nat.mod_eq_of_lt h
theorem u32_lt (n : Nat) : u32 n < 4294967296 := Nat.mod_lt _ (by decide)
theorem u32_le (n : Nat) : u32 n ≤ n := Nat.mod_le _ _

/-! ### Sequences of steps -/

/-- Perform `body p` for the members `p` of a list in order, threading a local
    value (for example an accumulator variable) through. Not in the code: machinery of the model. -/
def fold (body : ι → A → M μ A) : List ι → A → M μ A
  | [], a => pure a
  | p :: ps, a => body p a >>= fun a' => fold body ps a'

@[simp] theorem fold_nil (body : ι → A → M μ A) (a : A) : fold body [] a = pure a := rfl

theorem fold_cons (body : ι → A → M μ A) (p : ι) (ps : List ι) (a : A) :
    fold body (p :: ps) a = body p a >>= fun a' => fold body ps a' := rfl

theorem fold_append (body : ι → A → M μ A) (L₁ L₂ : List ι) (a : A) :
    fold body (L₁ ++ L₂) a = fold body L₁ a >>= fun a' => fold body L₂ a' := by
  induction L₁ generalizing a with
  | nil => rfl
  | cons p ps ih =>
    rw [List.cons_append, fold_cons, fold_cons, bind_assoc']
    congr 1
    funext a'
    exact ih a'

theorem fold_map (body : ι → A → M μ A) (g : κ → ι) (L : List κ) (a : A) :
    fold body (L.map g) a = fold (fun k => body (g k)) L a := by
  induction L generalizing a with
  | nil => rfl
  | cons p ps ih =>
    rw [List.map_cons, fold_cons, fold_cons]
    congr 1
    funext a'
    exact ih a'

theorem fold_flatMap (body : ι → A → M μ A) (g : κ → List ι) (L : List κ) (a : A) :
    fold body (L.flatMap g) a = fold (fun k => fold body (g k)) L a := by
  induction L generalizing a with
  | nil => rfl
  | cons p ps ih =>
    rw [List.flatMap_cons, fold_append, fold_cons]
    congr 1
    funext a'
    exact ih a'

theorem fold_congr {body body' : ι → A → M μ A} {L : List ι} (a : A)
    (h : ∀ p ∈ L, body p = body' p) : fold body L a = fold body' L a := by
  induction L generalizing a with
  | nil => rfl
  | cons p ps ih =>
    rw [fold_cons, fold_cons, h p (List.mem_cons_self ..)]
    congr 1
    funext a'
    exact ih a' fun q hq => h q (List.mem_cons_of_mem _ hq)

/-- Rows times columns, in the order in which nested loops visit them. Not in the code: machinery of the model. -/
def grid (h w : Nat) : List (Nat × Nat) :=
  (List.range h).flatMap fun j => (List.range w).map fun i => (j, i)

theorem mem_grid {h w : Nat} {p : Nat × Nat} : p ∈ grid h w ↔ p.1 < h ∧ p.2 < w := by
  simp only [grid, List.mem_flatMap, List.mem_map, List.mem_range]
  constructor
  · rintro ⟨j, hj, i, hi, rfl⟩
    exact ⟨hj, hi⟩
  · intro ⟨hj, hi⟩
    exact ⟨p.1, hj, p.2, hi, rfl⟩

theorem nodup_flatMap_key {f : ι → List κ} {L : List ι} (key : κ → ι) (hL : L.Nodup)
    (hf : ∀ j ∈ L, (f j).Nodup) (hk : ∀ j ∈ L, ∀ x ∈ f j, key x = j) :
    (L.flatMap f).Nodup := by
  induction L with
  | nil => simp
  | cons a as ih =>
    rw [List.nodup_cons] at hL
    rw [List.flatMap_cons, List.nodup_append]
    refine ⟨hf a (List.mem_cons_self ..), ?_, ?_⟩
    · exact ih hL.2 (fun j hj => hf j (List.mem_cons_of_mem _ hj))
        (fun j hj => hk j (List.mem_cons_of_mem _ hj))
    · intro x hx y hy hxy
      subst hxy
      rw [List.mem_flatMap] at hy
      obtain ⟨j, hj, hxj⟩ := hy
      have h1 := hk a (List.mem_cons_self ..) x hx
      have h2 := hk j (List.mem_cons_of_mem _ hj) x hxj
      apply hL.1
      rw [← h1, h2]
      exact hj

theorem nodup_map_inj {f : ι → κ} {L : List ι} (hL : L.Nodup)
    (hf : ∀ a ∈ L, ∀ b ∈ L, f a = f b → a = b) : (L.map f).Nodup := by
  induction L with
  | nil => simp
  | cons a as ih =>
    rw [List.nodup_cons] at hL
    rw [List.map_cons, List.nodup_cons]
    refine ⟨?_, ih hL.2 fun x hx y hy => hf x (List.mem_cons_of_mem _ hx) y (List.mem_cons_of_mem _ hy)⟩
    intro hmem
    rw [List.mem_map] at hmem
    obtain ⟨b, hb, hab⟩ := hmem
    have := hf b (List.mem_cons_of_mem _ hb) a (List.mem_cons_self ..) hab
    exact hL.1 (this ▸ hb)

theorem nodup_grid (h w : Nat) : (grid h w).Nodup := by
  refine nodup_flatMap_key Prod.fst List.nodup_range ?_ ?_
  · intro j _
    refine nodup_map_inj List.nodup_range ?_
    intro a _ b _ hab
    exact (Prod.mk.inj hab).2
  · intro j _ x hx
    rw [List.mem_map] at hx
    obtain ⟨i, _, rfl⟩ := hx
    rfl

theorem fold_grid (body : Nat × Nat → A → M μ A) (h w : Nat) (a : A) :
    fold body (grid h w) a
      = fold (fun j => fold (fun i => body (j, i)) (List.range w)) (List.range h) a := by
  rw [grid, fold_flatMap]
  refine fold_congr a fun j _ => ?_
  funext a'
  rw [fold_map]

/-- One row of `w*h` columns visits the same positions in the same order as `h`
    rows of `w` columns. -/
theorem range_mul_eq_grid (h w : Nat) :
    List.range (h * w) = (grid h w).map fun p => p.1 * w + p.2 := by
  induction h with
  | zero => simp [grid]
  | succ h ih =>
    rw [Nat.succ_mul, List.range_add, ih]
    simp only [grid, List.range_succ, List.flatMap_append, List.map_append, List.flatMap_cons,
      List.flatMap_nil, List.append_nil, List.map_map]
    rfl

/-! ### C++ loops -/

/-- The number of rounds after which a loop counts as non-terminating. Not in the code: machinery of the model. -/
def fuelMax : Nat := 18446744073709551616

/-- `for ( ; cond( s ); s = next( s ) ) a = body( s, a );`
    where `s` are the loop pointers and `a` variables changed by the body.
    The loop is not assumed to end: after `fuel` rounds the outcome is `ub`. For example src/image_function.cpp 227-236. -/
def loop (cond : S → Bool) (next : S → S) (body : S → A → M μ A) : Nat → S → A → M μ A
  | 0, _, _ => ubE
  | f + 1, s, a =>
    if cond s then body s a >>= fun a' => loop cond next body f (next s) a' else pure a

/-- A loop whose exit test fails at once does nothing. -/
theorem loop_stop {cond : S → Bool} {next : S → S} {body : S → A → M μ A} {s : S} {a : A} {m : μ}
    (h : cond s = false) : loop cond next body fuelMax s a m = .ok a m := by
  have : fuelMax = 18446744073709551615 + 1 := rfl
  rw [this, loop, h]
  rfl

/-- A loop whose pointers run through `st 0, st 1, ..., st n` and whose exit test
    fails exactly at `st n` performs the body `n` times. -/
theorem loop_eq_fold {cond : S → Bool} {next : S → S} {body : S → A → M μ A} (st : Nat → S)
    (n : Nat) (fuel : Nat) (a : A) (hf : n < fuel)
    (hc : ∀ k, k < n → cond (st k) = true) (hn : cond (st n) = false)
    (hs : ∀ k, k < n → next (st k) = st (k + 1)) :
    loop cond next body fuel (st 0) a = fold (fun k => body (st k)) (List.range n) a := by
  suffices h : ∀ d k fuel a, k + d = n → d < fuel →
      loop cond next body fuel (st k) a = fold (fun k => body (st k)) (List.range' k d) a by
    rw [List.range_eq_range']
    exact h n 0 fuel a (Nat.zero_add n) hf
  intro d
  induction d with
  | zero =>
    intro k fuel a hk hfu
    obtain ⟨f, rfl⟩ : ∃ f, fuel = f + 1 := ⟨fuel - 1, by omega⟩
    have hk' : k = n := by omega
    subst hk'
    rw [loop, hn]
    rfl
  | succ d ih =>
    intro k fuel a hk hfu
    obtain ⟨f, rfl⟩ : ∃ f, fuel = f + 1 := ⟨fuel - 1, by omega⟩
    rw [loop, hc k (by omega), List.range'_succ, fold_cons, if_pos rfl]
    congr 1
    funext a'
    rw [hs k (by omega)]
    exact ih (k + 1) f a' (by omega) (by omega)

end PV
