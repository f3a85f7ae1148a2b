import Verif.Mem
/-
  Tasks that run at the same time on one memory.

  A task is a program of single-cell accesses; the scheduler picks after every access which
  task continues.  Nothing in this file is specific to penguinV.
-/
namespace PV

variable {α A B ι κ : Type}

/-- A task: local computation between single accesses to the shared memory. Not in the code: machinery of the model. -/
inductive Prog (α A : Type) where
  | ret (a : A)
  | read (b i : Nat) (k : α → Prog α A)
  | write (b i : Nat) (v : α) (k : Prog α A)
  | throw
  | ub

namespace Prog

/-- Sequential composition. Not in the code: machinery of the model. -/
def bind : Prog α A → (A → Prog α B) → Prog α B
  | ret a, f => f a
  | read b i k, f => read b i fun v => bind (k v) f
  | write b i v k, f => write b i v (bind k f)
  | throw, _ => throw
  | ub, _ => ub

instance : Monad (Prog α) where
  pure := ret
  bind := bind

/-- Load one cell. Not in the code: machinery of the model. -/
def load (b i : Nat) : Prog α α := read b i ret
/-- Store one cell. Not in the code: machinery of the model. -/
def store (b i : Nat) (v : α) : Prog α Unit := write b i v (ret ())

/-- Perform steps in order. Not in the code: machinery of the model. -/
def fold (body : ι → A → Prog α A) : List ι → A → Prog α A
  | [], a => ret a
  | p :: ps, a => bind (body p a) fun a' => fold body ps a'

/-- The task running alone. Not in the code: machinery of the model. -/
def run : Prog α A → M (Mem α) A
  | ret a => pure a
  | read b i k => readC b i >>= fun v => run (k v)
  | write b i v k => writeC b i v >>= fun _ => run k
  | throw => throwE
  | ub => ubE

theorem run_bind (p : Prog α A) (f : A → Prog α B) : run (p >>= f) = run p >>= fun a => run (f a) := by
  show run (bind p f) = _
  induction p with
  | ret a => rfl
  | read b i k ih =>
    simp only [bind, run]
    rw [bind_assoc']
    congr 1
    funext v
    exact ih v
  | write b i v k ih =>
    simp only [bind, run]
    rw [bind_assoc']
    congr 1
    funext _
    exact ih
  | throw => rfl
  | ub => rfl

@[simp] theorem run_load (b i : Nat) : run (load b i : Prog α α) = readC b i := by
  simp only [load, run]
  exact bind_pure' _

@[simp] theorem run_store (b i : Nat) (v : α) : run (store b i v) = writeC b i v := by
  simp only [store, run]
  exact bind_pure' _

theorem run_pure (a : A) : run (pure a : Prog α A) = pure a := rfl

theorem run_fold (body : ι → A → Prog α A) (L : List ι) (a : A) :
    run (fold body L a) = PV.fold (fun p a => run (body p a)) L a := by
  induction L generalizing a with
  | nil => rfl
  | cons p ps ih =>
    rw [fold, PV.fold_cons]
    have := run_bind (body p a) fun a' => fold body ps a'
    refine this.trans ?_
    congr 1
    funext a'
    exact ih a'

/-- One access.  A finished task does nothing. Not in the code: machinery of the model. -/
def step : Prog α A → Mem α → Prog α A × Mem α
  | read b i k, m => if m.Valid b i then (k (m.byte b i), m) else (ub, m)
  | write b i v k, m => if m.Valid b i then (k, m.set b i v) else (ub, m)
  | p, m => (p, m)

/-- An access does not change what the rest of the run will give. -/
theorem run_step (p : Prog α A) (m : Mem α) : run (p.step m).1 (p.step m).2 = run p m := by
  cases p with
  | read b i k =>
    simp only [step, run, bind_run, readC]
    split <;> rfl
  | write b i v k =>
    simp only [step, run, bind_run, writeC]
    split <;> rfl
  | ret a => rfl
  | throw => rfl
  | ub => rfl

/-- All accesses that the task can make: it reads cells of `R` and writes cells of `W`.
    Not in the code: for statements and proofs. -/
def Foot (R W : Nat × Nat → Prop) : Prog α A → Prop
  | ret _ => True
  | read b i k => R (b, i) ∧ ∀ v, Foot R W (k v)
  | write b i _ k => W (b, i) ∧ Foot R W k
  | throw => True
  | ub => True

theorem foot_bind {R W : Nat × Nat → Prop} {p : Prog α A} {f : A → Prog α B}
    (hp : p.Foot R W) (hf : ∀ a, (f a).Foot R W) : (p >>= f).Foot R W := by
  show (bind p f).Foot R W
  induction p with
  | ret a => exact hf a
  | read b i k ih => exact ⟨hp.1, fun v => ih v (hp.2 v)⟩
  | write b i v k ih => exact ⟨hp.1, ih hp.2⟩
  | throw => trivial
  | ub => trivial

theorem foot_load {R W : Nat × Nat → Prop} {b i : Nat} (h : R (b, i)) : (load b i : Prog α α).Foot R W :=
  ⟨h, fun _ => trivial⟩

theorem foot_store {R W : Nat × Nat → Prop} {b i : Nat} (v : α) (h : W (b, i)) :
    (store b i v).Foot R W := ⟨h, trivial⟩

theorem foot_fold {R W : Nat × Nat → Prop} {body : ι → A → Prog α A} {L : List ι} (a : A)
    (h : ∀ p ∈ L, ∀ a, (body p a).Foot R W) : (fold body L a).Foot R W := by
  induction L generalizing a with
  | nil => trivial
  | cons p ps ih =>
    exact foot_bind (h p (List.mem_cons_self ..) a) fun a' => ih a' fun q hq => h q (List.mem_cons_of_mem _ hq)

theorem foot_step {R W : Nat × Nat → Prop} {p : Prog α A} (h : p.Foot R W) (m : Mem α) :
    (p.step m).1.Foot R W := by
  cases p with
  | read b i k =>
    simp only [step]
    split
    · exact h.2 _
    · trivial
  | write b i v k =>
    simp only [step]
    split
    · exact h.2
    · trivial
  | ret a => trivial
  | throw => trivial
  | ub => trivial

end Prog

/-- Tasks working on a shared memory. Not in the code: machinery of the model. -/
structure Sys (α A ι : Type) where
  mem : Mem α
  task : ι → Prog α A

variable [DecidableEq ι]

/-- Task `t` makes one access. Not in the code: machinery of the model. -/
def Sys.step (s : Sys α A ι) (t : ι) : Sys α A ι :=
  { mem := ((s.task t).step s.mem).2,
    task := fun i => if i = t then ((s.task t).step s.mem).1 else s.task i }

/-- The tasks make accesses in the order given by the schedule. Not in the code: machinery of the model. -/
def Sys.exec (s : Sys α A ι) (σ : List ι) : Sys α A ι := σ.foldl Sys.step s

/-- All tasks have returned, with the values given. Not in the code: for statements and proofs. -/
def Sys.Returned (s : Sys α A ι) (v : ι → A) : Prop := ∀ i, s.task i = .ret (v i)

/-- No task has thrown an exception or run into undefined behaviour. Not in the code: for statements and proofs. -/
def Sys.NoError (s : Sys α A ι) : Prop := ∀ i, s.task i ≠ .throw ∧ s.task i ≠ .ub

/-- What is known at any moment of the common run, started in memory `m` with tasks `P`:
    each task `i` has behaved as if it had been running alone, in its own memory `own i`.
    Not in the code: for statements and proofs. -/
structure Sys.Inv (s : Sys α A ι) (m : Mem α) (P : ι → Prog α A) (R W : ι → Nat × Nat → Prop)
    (own : ι → Mem α) : Prop where
  size : s.mem.size = m.size
  ownSize : ∀ i, (own i).size = m.size
  run : ∀ i, (s.task i).run (own i) = (P i).run m
  foot : ∀ i, (s.task i).Foot (R i) (W i)
  agree : ∀ i b k, R i (b, k) ∨ W i (b, k) → s.mem.byte b k = (own i).byte b k
  ownFrame : ∀ i b k, ¬ W i (b, k) → (own i).byte b k = m.byte b k
  frame : ∀ b k, (∀ i, ¬ W i (b, k)) → s.mem.byte b k = m.byte b k

theorem Sys.Inv.step {s : Sys α A ι} {m : Mem α} {P : ι → Prog α A} {R W : ι → Nat × Nat → Prop}
    {own : ι → Mem α} (h : s.Inv m P R W own)
    (hdis : ∀ i j, i ≠ j → ∀ c, W i c → ¬ (R j c ∨ W j c)) (t : ι) :
    ∃ own', (s.step t).Inv m P R W own' := by
  have hstay : ∀ p : Prog α A, (p.step s.mem = (p, s.mem)) → s.task t = p → (s.step t).Inv m P R W own := by
    intro p hp he
    have : s.step t = s := by
      unfold Sys.step
      rw [he, hp]
      cases s with
      | mk mem task =>
        simp only [Sys.mk.injEq, true_and]
        funext i
        by_cases hi : i = t
        · subst hi; rw [if_pos rfl]; exact he.symm
        · rw [if_neg hi]
    rw [this]
    exact h
  cases ht : s.task t with
  | ret a => exact ⟨own, hstay _ rfl ht⟩
  | throw => exact ⟨own, hstay _ rfl ht⟩
  | ub => exact ⟨own, hstay _ rfl ht⟩
  | read b i k =>
    have hf := h.foot t
    rw [ht] at hf
    refine ⟨own, ?_⟩
    have hmem : (s.step t).mem = s.mem := by
      simp only [Sys.step, ht, Prog.step]
      split <;> rfl
    have hval : s.mem.byte b i = (own t).byte b i := h.agree t b i (Or.inl hf.1)
    have hvalid : s.mem.Valid b i ↔ (own t).Valid b i := by
      unfold Mem.Valid
      rw [h.size, h.ownSize]
    refine ⟨by rw [hmem]; exact h.size, h.ownSize, ?_, ?_, ?_, h.ownFrame, ?_⟩
    · intro j
      by_cases hj : j = t
      · subst hj
        simp only [Sys.step, ↓reduceIte]
        rw [← h.run j, ht]
        have := Prog.run_step (Prog.read b i k) (own j)
        rw [← this]
        simp only [Prog.step]
        by_cases hv : s.mem.Valid b i
        · rw [if_pos hv, if_pos (hvalid.1 hv), hval]
        · rw [if_neg hv, if_neg (fun hc => hv (hvalid.2 hc))]
      · simp only [Sys.step, if_neg hj]
        exact h.run j
    · intro j
      by_cases hj : j = t
      · subst hj
        simp only [Sys.step, ↓reduceIte]
        exact Prog.foot_step (h.foot j) _
      · simp only [Sys.step, if_neg hj]
        exact h.foot j
    · rw [hmem]; exact h.agree
    · rw [hmem]; exact h.frame
  | write b i v k =>
    have hf := h.foot t
    rw [ht] at hf
    have hvalid : s.mem.Valid b i ↔ (own t).Valid b i := by
      unfold Mem.Valid
      rw [h.size, h.ownSize]
    by_cases hv : s.mem.Valid b i
    · have hmem : (s.step t).mem = s.mem.set b i v := by
        simp only [Sys.step, ht, Prog.step, if_pos hv]
      refine ⟨fun j => if j = t then (own t).set b i v else own j, ?_⟩
      refine ⟨by rw [hmem]; exact h.size, ?_, ?_, ?_, ?_, ?_, ?_⟩
      · intro j
        by_cases hj : j = t
        · simp only [if_pos hj]; exact h.ownSize t
        · simp only [if_neg hj]; exact h.ownSize j
      · intro j
        by_cases hj : j = t
        · subst hj
          simp only [Sys.step, ↓reduceIte]
          rw [← h.run j, ht, ← Prog.run_step (Prog.write b i v k) (own j)]
          simp only [Prog.step]
          rw [if_pos hv, if_pos (hvalid.1 hv)]
        · simp only [Sys.step, if_neg hj]
          exact h.run j
      · intro j
        by_cases hj : j = t
        · subst hj
          simp only [Sys.step, ↓reduceIte]
          exact Prog.foot_step (h.foot j) _
        · simp only [Sys.step, if_neg hj]
          exact h.foot j
      · intro j b' k' hRW
        rw [hmem]
        by_cases hj : j = t
        · subst hj
          simp only [↓reduceIte]
          by_cases he : b' = b ∧ k' = i
          · obtain ⟨rfl, rfl⟩ := he
            rw [Mem.set_same, Mem.set_same]
          · rw [Mem.set_other _ _ he, Mem.set_other _ _ he]
            exact h.agree j b' k' hRW
        · simp only [if_neg hj]
          rw [Mem.set_other]
          · exact h.agree j b' k' hRW
          · rintro ⟨rfl, rfl⟩
            exact hdis t j (fun e => hj e.symm) _ hf.1 hRW
      · intro j b' k' hW
        by_cases hj : j = t
        · subst hj
          simp only [↓reduceIte]
          rw [Mem.set_other]
          · exact h.ownFrame j b' k' hW
          · rintro ⟨rfl, rfl⟩
            exact hW hf.1
        · simp only [if_neg hj]
          exact h.ownFrame j b' k' hW
      · intro b' k' hW
        rw [hmem, Mem.set_other]
        · exact h.frame b' k' hW
        · rintro ⟨rfl, rfl⟩
          exact hW t hf.1
    · have hmem : (s.step t).mem = s.mem := by
        simp only [Sys.step, ht, Prog.step, if_neg hv]
      refine ⟨own, ?_⟩
      refine ⟨by rw [hmem]; exact h.size, h.ownSize, ?_, ?_, ?_, h.ownFrame, ?_⟩
      · intro j
        by_cases hj : j = t
        · subst hj
          simp only [Sys.step, ↓reduceIte]
          rw [← h.run j, ht, ← Prog.run_step (Prog.write b i v k) (own j)]
          simp only [Prog.step]
          rw [if_neg hv, if_neg (fun hc => hv (hvalid.2 hc))]
        · simp only [Sys.step, if_neg hj]
          exact h.run j
      · intro j
        by_cases hj : j = t
        · subst hj
          simp only [Sys.step, ↓reduceIte]
          exact Prog.foot_step (h.foot j) _
        · simp only [Sys.step, if_neg hj]
          exact h.foot j
      · rw [hmem]; exact h.agree
      · rw [hmem]; exact h.frame

theorem Sys.Inv.exec {s : Sys α A ι} {m : Mem α} {P : ι → Prog α A} {R W : ι → Nat × Nat → Prop}
    {own : ι → Mem α} (h : s.Inv m P R W own)
    (hdis : ∀ i j, i ≠ j → ∀ c, W i c → ¬ (R j c ∨ W j c)) (σ : List ι) :
    ∃ own', (s.exec σ).Inv m P R W own' := by
  induction σ generalizing s own with
  | nil => exact ⟨own, h⟩
  | cons t ts ih =>
    obtain ⟨own', h'⟩ := h.step hdis t
    exact ih h'

/-- Tasks that do not touch what another one writes: in every schedule each task behaves as
    if it were alone, and the common memory is put together from what each one wrote. -/
theorem interleave {m : Mem α} {P : ι → Prog α A} {R W : ι → Nat × Nat → Prop}
    (hfoot : ∀ i, (P i).Foot (R i) (W i))
    (hdis : ∀ i j, i ≠ j → ∀ c, W i c → ¬ (R j c ∨ W j c))
    {v : ι → A} {res : ι → Mem α} (hok : ∀ i, (P i).run m = .ok (v i) (res i)) (σ : List ι) :
    ((⟨m, P⟩ : Sys α A ι).exec σ).NoError ∧
    (∀ i a, ((⟨m, P⟩ : Sys α A ι).exec σ).task i = .ret a → a = v i) ∧
    ((∃ u, ((⟨m, P⟩ : Sys α A ι).exec σ).Returned u) →
      ((⟨m, P⟩ : Sys α A ι).exec σ).mem.size = m.size ∧
      (∀ i b k, W i (b, k) → ((⟨m, P⟩ : Sys α A ι).exec σ).mem.byte b k = (res i).byte b k) ∧
      (∀ b k, (∀ i, ¬ W i (b, k)) → ((⟨m, P⟩ : Sys α A ι).exec σ).mem.byte b k = m.byte b k)) := by
  have h0 : (⟨m, P⟩ : Sys α A ι).Inv m P R W fun _ => m :=
    ⟨rfl, fun _ => rfl, fun _ => rfl, hfoot, fun _ _ _ _ => rfl, fun _ _ _ _ => rfl, fun _ _ _ => rfl⟩
  obtain ⟨own, h⟩ := h0.exec hdis σ
  refine ⟨?_, ?_, ?_⟩
  · intro i
    have := h.run i
    rw [hok i] at this
    constructor
    · intro he
      rw [he] at this
      cases this
    · intro he
      rw [he] at this
      cases this
  · intro i a he
    have := h.run i
    rw [hok i, he] at this
    exact (Res.ok.inj (show Res.ok a (own i) = Res.ok (v i) (res i) from this)).1
  · rintro ⟨u, hu⟩
    refine ⟨h.size, ?_, h.frame⟩
    intro i b k hW
    rw [h.agree i b k (Or.inr hW)]
    have := h.run i
    rw [hok i, hu i] at this
    rw [(Res.ok.inj (show Res.ok (u i) (own i) = Res.ok (v i) (res i) from this)).2]

/-- The task has come to an end. Not in the code: for statements and proofs. -/
def Prog.Done : Prog α A → Prop
  | .ret _ => True
  | .throw => True
  | .ub => True
  | _ => False

theorem Sys.exec_append (s : Sys α A ι) (σ τ : List ι) : s.exec (σ ++ τ) = (s.exec σ).exec τ :=
  List.foldl_append

theorem Sys.step_done {s : Sys α A ι} {t i : ι} (h : (s.task i).Done) : ((s.step t).task i).Done := by
  by_cases hi : i = t
  · subst hi
    simp only [Sys.step, ↓reduceIte]
    cases hp : s.task i with
    | ret a => trivial
    | throw => trivial
    | ub => trivial
    | read b k c => rw [hp] at h; exact h.elim
    | write b k v c => rw [hp] at h; exact h.elim
  · simp only [Sys.step, if_neg hi]
    exact h

theorem Sys.exec_done {s : Sys α A ι} {i : ι} (h : (s.task i).Done) (σ : List ι) :
    ((s.exec σ).task i).Done := by
  induction σ generalizing s with
  | nil => exact h
  | cons t ts ih => exact ih (Sys.step_done h)

/-- Enough turns finish a task, whatever has happened before. -/
theorem Sys.finish_one (s : Sys α A ι) (t : ι) : ∃ σ, ((s.exec σ).task t).Done := by
  suffices h : ∀ (q : Prog α A) (s : Sys α A ι), s.task t = q → ∃ σ, ((s.exec σ).task t).Done from
    h _ s rfl
  have hub : ∀ s : Sys α A ι, (s.step t).task t = .ub → ∃ σ, ((s.exec σ).task t).Done := by
    intro s hs
    refine ⟨[t], ?_⟩
    show ((s.step t).task t).Done
    rw [hs]
    trivial
  intro q
  induction q with
  | ret a => exact fun s hs => ⟨[], by show (s.task t).Done; rw [hs]; trivial⟩
  | throw => exact fun s hs => ⟨[], by show (s.task t).Done; rw [hs]; trivial⟩
  | ub => exact fun s hs => ⟨[], by show (s.task t).Done; rw [hs]; trivial⟩
  | read b i k ih =>
    intro s hs
    by_cases hv : s.mem.Valid b i
    · obtain ⟨σ, hn⟩ := ih (s.mem.byte b i) (s.step t) (by
        simp only [Sys.step, ↓reduceIte, hs, Prog.step, if_pos hv])
      exact ⟨t :: σ, hn⟩
    · exact hub s (by simp only [Sys.step, ↓reduceIte, hs, Prog.step, if_neg hv])
  | write b i v k ih =>
    intro s hs
    by_cases hv : s.mem.Valid b i
    · obtain ⟨σ, hn⟩ := ih (s.step t) (by
        simp only [Sys.step, ↓reduceIte, hs, Prog.step, if_pos hv])
      exact ⟨t :: σ, hn⟩
    · exact hub s (by simp only [Sys.step, ↓reduceIte, hs, Prog.step, if_neg hv])

theorem Sys.finish_list (s : Sys α A ι) (L : List ι) :
    ∃ σ, ∀ i ∈ L, ((s.exec σ).task i).Done := by
  induction L generalizing s with
  | nil => exact ⟨[], fun i hi => absurd hi List.not_mem_nil⟩
  | cons t ts ih =>
    obtain ⟨σ, hσ⟩ := s.finish_one t
    obtain ⟨τ, hτ⟩ := ih (s.exec σ)
    refine ⟨σ ++ τ, fun i hi => ?_⟩
    rw [Sys.exec_append]
    rcases List.mem_cons.1 hi with rfl | h
    · exact Sys.exec_done hσ τ
    · exact hτ i h

/-- From every state that was reached, all tasks can be run to the end. -/
theorem Sys.finish {n : Nat} (s : Sys α A (Fin n)) : ∃ σ, ∀ i, ((s.exec σ).task i).Done := by
  obtain ⟨σ, h⟩ := s.finish_list (List.finRange n)
  exact ⟨σ, fun i => h i (List.mem_finRange i)⟩

end PV
