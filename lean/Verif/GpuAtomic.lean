import Verif.GpuSeq
import Mathlib.Data.List.Perm.Basic
import Mathlib.Data.List.Nodup
/-
  Kernels whose only effect are atomic updates of an array of 32-bit numbers on the device.

  The bytes of the images are only read, so that the order of reads does not matter.  The order of the atomic updates is
  free; an update itself is one step (that is what atomic means).  The value returned by an update is not used.
-/
namespace PV

/-- `atomicAdd`/`atomic_add`, `atomicAnd`, `atomic_min`, `atomic_max` on unsigned 32-bit numbers. -/
inductive AtomicOp where
  | add
  | and
  | min
  | max
deriving DecidableEq

/-- Not in the code: machinery of the model. -/
def AtomicOp.apply : AtomicOp → UInt32 → UInt32 → UInt32
  | add, c, v => c + v
  | and, c, v => c &&& v
  | min, c, v => if v < c then v else c
  | max, c, v => if v > c then v else c

/-- One update: which operation, which entry, which operand. Not in the code: machinery of the model. -/
structure Update where
  op : AtomicOp
  idx : Nat
  arg : UInt32

/-- The array after an update. Not in the code: machinery of the model. -/
def Update.on (u : Update) (vec : List UInt32) : List UInt32 := vec.modify u.idx fun c => u.op.apply c u.arg

/-- The task of a thread. Not in the code: machinery of the model. -/
inductive AProg where
  | ret
  | read (b i : Nat) (k : UInt8 → AProg)
  | atomic (u : Update) (k : AProg)
  | ub

namespace AProg

/-- One access. Not in the code: machinery of the model. -/
def step (m : BMem) : AProg → List UInt32 → AProg × List UInt32
  | ret, vec => (ret, vec)
  | read b i k, vec => if m.Valid b i then (k (m.byte b i), vec) else (ub, vec)
  | atomic u k, vec => if u.idx < vec.length then (k, u.on vec) else (ub, vec)
  | ub, vec => (ub, vec)

/-- Not in the code: machinery of the model. -/
def Done : AProg → Prop
  | ret => True
  | ub => True
  | _ => False

/-- The updates that the task will make, if it makes no access outside the memory or outside an array of `n` entries.
    Not in the code: machinery of the model. -/
def acts (m : BMem) (n : Nat) : AProg → Option (List Update)
  | ret => some []
  | read b i k => if m.Valid b i then acts m n (k (m.byte b i)) else none
  | atomic u k => if u.idx < n then (acts m n k).map (u :: ·) else none
  | ub => none

end AProg

/-- The threads and the array. Not in the code: machinery of the model. -/
structure ASys (ι : Type) where
  vec : List UInt32
  task : ι → AProg

variable {ι : Type} [DecidableEq ι]

/-- Thread `t` makes one access. Not in the code: machinery of the model. -/
def ASys.step (m : BMem) (s : ASys ι) (t : ι) : ASys ι :=
  { vec := ((s.task t).step m s.vec).2,
    task := fun i => if i = t then ((s.task t).step m s.vec).1 else s.task i }

/-- The threads make accesses in the order given by the schedule. Not in the code: machinery of the model. -/
def ASys.exec (m : BMem) (s : ASys ι) (σ : List ι) : ASys ι := σ.foldl (ASys.step m) s

/-- A launch of such a kernel: the size, the task of the thread at position (x, y), the array before the launch, and what the
    caller makes of the array afterwards. Not in the code: machinery of the model. -/
structure ALaunch (β : Type) extends Geometry where
  kernel : Nat → Nat → AProg
  vec : List UInt32
  result : List UInt32 → β

/-- Not in the code: machinery of the model. -/
def ALaunch.sys {β : Type} (L : ALaunch β) : ASys L.Thread := ⟨L.vec, fun t => L.kernel (L.posX t) (L.posY t)⟩

/-- In every order of the accesses no thread goes wrong, all threads can always be brought to their end, and when they
    have ended the caller gets a value that satisfies `Q`. Not in the code: for statements and proofs. -/
structure ALaunch.Always {β : Type} (L : ALaunch β) (m : BMem) (Q : β → Prop) : Prop where
  safe : ∀ σ t, (L.sys.exec m σ).task t ≠ .ub
  ends : ∀ σ, ∃ τ, ∀ t, ((L.sys.exec m (σ ++ τ)).task t).Done
  result : ∀ σ, (∀ t, ((L.sys.exec m σ).task t).Done) → Q (L.result (L.sys.exec m σ).vec)

/-- The call returns a launch, and the launch leads to `Q` in every order of the accesses.
    Not in the code: for statements and proofs. -/
def ARuns {β : Type} (call : M BMem (ALaunch β)) (m : BMem) (Q : β → Prop) : Prop := ∃ L, call m = .ok L m ∧ L.Always m Q

/-! ### Termination -/

theorem ASys.exec_append (m : BMem) (s : ASys ι) (σ τ : List ι) : s.exec m (σ ++ τ) = (s.exec m σ).exec m τ := by
  rw [exec, List.foldl_append]; rfl

theorem ASys.done_step {m : BMem} {s : ASys ι} {i : ι} (h : (s.task i).Done) (t : ι) : ((s.step m t).task i) = s.task i := by
  show (if i = t then _ else _) = _
  by_cases e : i = t
  · rw [if_pos e]
    subst e
    revert h
    cases s.task i <;> intro h <;> first | rfl | exact h.elim
  · rw [if_neg e]

theorem ASys.done_exec {m : BMem} {s : ASys ι} {i : ι} (h : (s.task i).Done) (σ : List ι) : ((s.exec m σ).task i).Done := by
  induction σ generalizing s with
  | nil => exact h
  | cons t σ ih => exact ih (by rw [done_step h]; exact h)

theorem ASys.finish_one (m : BMem) (t : ι) (p : AProg) (s : ASys ι) (hp : s.task t = p) : ∃ τ, ((s.exec m τ).task t).Done := by
  induction p generalizing s with
  | ret => exact ⟨[], by show (s.task t).Done; rw [hp]; trivial⟩
  | ub => exact ⟨[], by show (s.task t).Done; rw [hp]; trivial⟩
  | read b i k ih =>
    by_cases hv : m.Valid b i
    · obtain ⟨τ, hτ⟩ := ih (m.byte b i) (s.step m t) (by
        show (if t = t then _ else _) = _
        rw [if_pos rfl, hp, AProg.step, if_pos hv])
      exact ⟨t :: τ, hτ⟩
    · refine ⟨[t], ?_⟩
      show (if t = t then _ else _ : AProg).Done
      rw [if_pos rfl, hp, AProg.step, if_neg hv]
      trivial
  | atomic u k ih =>
    by_cases hv : u.idx < s.vec.length
    · obtain ⟨τ, hτ⟩ := ih (s.step m t) (by
        show (if t = t then _ else _) = _
        rw [if_pos rfl, hp, AProg.step, if_pos hv])
      exact ⟨t :: τ, hτ⟩
    · refine ⟨[t], ?_⟩
      show (if t = t then _ else _ : AProg).Done
      rw [if_pos rfl, hp, AProg.step, if_neg hv]
      trivial

theorem ASys.finish_list (m : BMem) (s : ASys ι) (l : List ι) : ∃ τ, ∀ t ∈ l, ((s.exec m τ).task t).Done := by
  induction l generalizing s with
  | nil => exact ⟨[], fun t ht => absurd ht (List.not_mem_nil)⟩
  | cons a l ih =>
    obtain ⟨τ, h⟩ := ASys.finish_one m a _ s rfl
    obtain ⟨τ', h'⟩ := ih (s.exec m τ)
    refine ⟨τ ++ τ', fun t ht => ?_⟩
    rw [ASys.exec_append]
    rcases List.mem_cons.1 ht with rfl | ht
    · exact ASys.done_exec h _
    · exact h' t ht

/-! ### Atomic updates commute -/

theorem AtomicOp.comm (op : AtomicOp) (c v w : UInt32) : op.apply (op.apply c v) w = op.apply (op.apply c w) v := by
  cases op with
  | add =>
    show c + v + w = c + w + v
    rw [UInt32.add_assoc, UInt32.add_comm v, ← UInt32.add_assoc]
  | and =>
    show c &&& v &&& w = c &&& w &&& v
    rw [UInt32.and_assoc, UInt32.and_comm v, ← UInt32.and_assoc]
  | min =>
    simp only [apply, UInt32.lt_iff_toNat_lt]
    apply UInt32.toNat_inj.1
    repeat' split
    all_goals first | rfl | omega
  | max =>
    simp only [apply, gt_iff_lt, UInt32.lt_iff_toNat_lt]
    apply UInt32.toNat_inj.1
    repeat' split
    all_goals first | rfl | omega

theorem Update.on_comm {u v : Update} (h : u.idx = v.idx → u.op = v.op) (vec : List UInt32) : v.on (u.on vec) = u.on (v.on vec) := by
  apply List.ext_getElem?
  intro k
  simp only [on, List.getElem?_modify]
  by_cases hu : u.idx = k
  · by_cases hv : v.idx = k
    · cases hk : vec[k]? with
      | none => rfl
      | some c =>
        have e := h (hu.trans hv.symm)
        show some (if v.idx = k then _ else _) = some (if u.idx = k then _ else _)
        simp only [hu, hv, ↓reduceIte]
        rw [e, AtomicOp.comm]
    · simp [hu, hv]
  · by_cases hv : v.idx = k <;> simp [hu, hv]

theorem Update.on_length (u : Update) (vec : List UInt32) : (u.on vec).length = vec.length := List.length_modify ..

/-- The array after a list of updates. Not in the code: for statements and proofs. -/
def Update.all (l : List Update) (vec : List UInt32) : List UInt32 := l.foldl (fun a u => u.on a) vec

theorem Update.all_perm {l l' : List Update} (p : l.Perm l') {ops : Nat → AtomicOp} (h : ∀ u ∈ l, u.op = ops u.idx)
    (vec : List UInt32) : Update.all l vec = Update.all l' vec :=
  List.Perm.foldl_eq' p (fun u hu v hv a => Update.on_comm (u := u) (v := v) (fun e => by rw [h u hu, h v hv, e]) a) _

/-! ### Every order gives the result of one fixed order -/

/-- Not in the code: for statements and proofs. -/
structure ASys.Inv (m : BMem) (T : List ι) (ops : Nat → AtomicOp) (n : Nat) (fin : List UInt32) (s : ASys ι) : Prop where
  len : s.vec.length = n
  acts : ∀ t, ∃ l, (s.task t).acts m n = some l ∧ ∀ u ∈ l, u.op = ops u.idx
  fin : Update.all (T.flatMap fun t => ((s.task t).acts m n).getD []) s.vec = fin

theorem ASys.Inv.step {m : BMem} {T : List ι} {ops : Nat → AtomicOp} {n : Nat} {fin : List UInt32} {s : ASys ι}
    (hT : T.Nodup) (hall : ∀ t, t ∈ T) (h : s.Inv m T ops n fin) (t : ι) : (s.step m t).Inv m T ops n fin := by
  have other : ∀ i, i ≠ t → (s.step m t).task i = s.task i := fun i hi => if_neg hi
  have self : (s.step m t).task t = ((s.task t).step m s.vec).1 := if_pos rfl
  have quiet : ((s.task t).step m s.vec).2 = s.vec → ((s.task t).step m s.vec).1.acts m n = (s.task t).acts m n →
      (s.step m t).Inv m T ops n fin := by
    intro e1 e2
    have ea : ∀ i, ((s.step m t).task i).acts m n = (s.task i).acts m n := by
      intro i
      by_cases hi : i = t
      · rw [hi, self, e2]
      · rw [other i hi]
    refine ⟨by show ((s.task t).step m s.vec).2.length = n; rw [e1]; exact h.len, fun i => by rw [ea]; exact h.acts i, ?_⟩
    have ev : (s.step m t).vec = s.vec := e1
    rw [ev]
    have : (fun i => (((s.step m t).task i).acts m n).getD []) = fun i => ((s.task i).acts m n).getD [] := by
      funext i; rw [ea]
    rw [this]
    exact h.fin
  obtain ⟨l, hl, hop⟩ := h.acts t
  cases hp : s.task t with
  | ret => exact quiet (by rw [hp]; rfl) (by rw [hp]; rfl)
  | ub => exact quiet (by rw [hp]; rfl) (by rw [hp]; rfl)
  | read b i k =>
    rw [hp, AProg.acts] at hl
    split at hl
    · rename_i hv
      exact quiet (by rw [hp, AProg.step, if_pos hv]) (by rw [hp, AProg.step, if_pos hv, AProg.acts, if_pos hv])
    · cases hl
  | atomic u k =>
    rw [hp, AProg.acts] at hl
    split at hl
    · rename_i hv
      cases hk : k.acts m n with
      | none => rw [hk] at hl; cases hl
      | some l' =>
        rw [hk] at hl
        cases hl
        have hv' : u.idx < s.vec.length := by rw [h.len]; exact hv
        have est : (s.task t).step m s.vec = (k, u.on s.vec) := by rw [hp, AProg.step, if_pos hv']
        have self' : (s.step m t).task t = k := by rw [self, est]
        have ev : (s.step m t).vec = u.on s.vec := by show ((s.task t).step m s.vec).2 = _; rw [est]
        refine ⟨by rw [ev, Update.on_length, h.len], fun i => ?_, ?_⟩
        · by_cases hi : i = t
          · rw [hi, self', hk]
            exact ⟨l', rfl, fun v hv => hop v (List.mem_cons_of_mem _ hv)⟩
          · rw [other i hi]
            exact h.acts i
        · rw [ev, ← h.fin]
          show Update.all (u :: T.flatMap fun i => (((s.step m t).task i).acts m n).getD []) s.vec = _
          have p := List.perm_cons_erase (hall t)
          have e1 : (T.flatMap fun i => ((s.task i).acts m n).getD []).Perm
              (u :: T.flatMap fun i => (((s.step m t).task i).acts m n).getD []) := by
            refine (p.flatMap_right _).trans ?_
            refine List.Perm.trans ?_ ((p.flatMap_right _).symm.cons u)
            simp only [List.flatMap_cons]
            have e2 : ((s.task t).acts m n).getD [] = u :: l' := by rw [hp, AProg.acts, if_pos hv, hk]; rfl
            have e3 : (((s.step m t).task t).acts m n).getD [] = l' := by rw [self', hk]; rfl
            have e4 : ((T.erase t).flatMap fun i => (((s.step m t).task i).acts m n).getD [])
                = (T.erase t).flatMap fun i => ((s.task i).acts m n).getD [] := by
              refine List.flatMap_congr fun i hi => ?_
              rw [other i fun e => by rw [e] at hi; exact hT.not_mem_erase hi]
            rw [e2, e3, e4]
            exact List.Perm.refl _
          refine (Update.all_perm e1 (ops := ops) (fun v hv => ?_) s.vec).symm
          obtain ⟨i, _, hi⟩ := List.mem_flatMap.1 hv
          obtain ⟨l, h1, h2⟩ := h.acts i
          rw [h1] at hi
          exact h2 v hi
    · cases hl

theorem ASys.Inv.exec {m : BMem} {T : List ι} {ops : Nat → AtomicOp} {n : Nat} {fin : List UInt32} {s : ASys ι}
    (hT : T.Nodup) (hall : ∀ t, t ∈ T) (h : s.Inv m T ops n fin) (σ : List ι) : (s.exec m σ).Inv m T ops n fin := by
  induction σ generalizing s with
  | nil => exact h
  | cons t σ ih => exact ih (h.step hT hall t)

theorem ASys.Inv.done {m : BMem} {T : List ι} {ops : Nat → AtomicOp} {n : Nat} {fin : List UInt32} {s : ASys ι}
    (h : s.Inv m T ops n fin) (hd : ∀ t, (s.task t).Done) : s.vec = fin := by
  rw [← h.fin]
  have : (fun t => ((s.task t).acts m n).getD []) = fun _ => [] := by
    funext t
    have := hd t
    revert this
    cases s.task t <;> intro h <;> first | rfl | exact h.elim
  have e : ∀ T : List ι, (T.flatMap fun _ => ([] : List Update)) = [] := fun T => by simp
  rw [this, e]
  rfl

/-- The positions of the threads that lie below `W` by `H` are the positions of the grid. -/
theorem Geometry.Covers.perm {L : Geometry} {W H : Nat} (h : L.Covers W H) {α : Type} (f : Nat × Nat → List α)
    (hf : ∀ p, ¬ (p.2 < W ∧ p.1 < H) → f p = []) :
    (L.threads.flatMap fun t => f (L.posY t, L.posX t)).Perm ((grid H W).flatMap f) := by
  have e1 : (L.threads.flatMap fun t => f (L.posY t, L.posX t)) = (L.threads.map fun t => (L.posY t, L.posX t)).flatMap f := by
    rw [List.flatMap_map]
  have e2 : ∀ l : List (Nat × Nat), l.flatMap f = (l.filter fun p => decide (p.2 < W ∧ p.1 < H)).flatMap f := by
    intro l
    induction l with
    | nil => rfl
    | cons a l ih =>
      by_cases ha : a.2 < W ∧ a.1 < H
      · rw [List.filter_cons_of_pos (by simpa using ha), List.flatMap_cons, List.flatMap_cons, ih]
      · rw [List.filter_cons_of_neg (by simpa using ha), List.flatMap_cons, hf a ha, List.nil_append, ih]
  rw [e1, e2]
  refine List.Perm.flatMap_right _ ((List.perm_ext_iff_of_nodup ?_ ?_).2 fun p => ?_)
  · refine List.Nodup.filter _ (List.Nodup.map ?_ L.threads_nodup)
    intro t t' e
    exact h.once t t' (Prod.mk.inj e).2 (Prod.mk.inj e).1
  · exact nodup_grid H W
  · rw [List.mem_filter, mem_grid, List.mem_map]
    constructor
    · rintro ⟨_, hp⟩
      have := of_decide_eq_true hp
      exact ⟨this.2, this.1⟩
    · intro hp
      obtain ⟨t, h1, h2⟩ := h.cover p.2 p.1 hp.2 hp.1
      exact ⟨⟨t, L.mem_threads t, by rw [h1, h2]⟩, decide_eq_true ⟨hp.2, hp.1⟩⟩

/-- A kernel over `W` by `H` positions whose updates are `A x y`, always with the same operation on one entry: every order
    of the accesses gives what the updates give row by row. -/
theorem ALaunch.always {β : Type} {L : ALaunch β} {m : BMem} {W H : Nat} (hL : L.Covers W H) {A : Nat → Nat → List Update} (ops : Nat → AtomicOp)
    (hout : ∀ X Y, ¬ (X < W ∧ Y < H) → L.kernel X Y = .ret)
    (hin : ∀ X Y, X < W → Y < H → (L.kernel X Y).acts m L.vec.length = some (A X Y))
    (hop : ∀ X Y, X < W → Y < H → ∀ u ∈ A X Y, u.op = ops u.idx) :
    L.Always m fun r => r = L.result (Update.all ((grid H W).flatMap fun p => A p.2 p.1) L.vec) := by
  let f : Nat × Nat → List Update := fun p => if p.2 < W ∧ p.1 < H then A p.2 p.1 else []
  have hacts : ∀ X Y, (L.kernel X Y).acts m L.vec.length = some (f (Y, X)) := by
    intro X Y
    by_cases hp : X < W ∧ Y < H
    · rw [hin X Y hp.1 hp.2]
      show _ = some (if X < W ∧ Y < H then _ else _)
      rw [if_pos hp]
    · rw [hout X Y hp]
      show some [] = some (if X < W ∧ Y < H then _ else _)
      rw [if_neg hp]
  have hfop : ∀ p, ∀ u ∈ f p, u.op = ops u.idx := by
    intro p u hu
    by_cases hp : p.2 < W ∧ p.1 < H
    · have : f p = A p.2 p.1 := if_pos hp
      rw [this] at hu
      exact hop _ _ hp.1 hp.2 u hu
    · have : f p = [] := if_neg hp
      rw [this] at hu
      exact absurd hu List.not_mem_nil
  have e : (fun t : L.Thread => ((L.kernel (L.posX t) (L.posY t)).acts m L.vec.length).getD []) = fun t => f (L.posY t, L.posX t) := by
    funext t
    rw [hacts]
    rfl
  have inv : L.sys.Inv m L.threads ops L.vec.length (Update.all ((grid H W).flatMap fun p => A p.2 p.1) L.vec) := by
    refine ⟨rfl, fun t => ⟨f (L.posY t, L.posX t), hacts _ _, hfop _⟩, ?_⟩
    show Update.all (L.threads.flatMap fun t => ((L.kernel (L.posX t) (L.posY t)).acts m L.vec.length).getD []) L.vec = _
    rw [e]
    have p := hL.perm f fun p hp => if_neg hp
    have e' : ((grid H W).flatMap f) = (grid H W).flatMap fun p => A p.2 p.1 := by
      refine List.flatMap_congr fun p hp => ?_
      have hp := mem_grid.1 hp
      exact if_pos ⟨hp.2, hp.1⟩
    rw [e'] at p
    refine Update.all_perm p (ops := ops) (fun u hu => ?_) _
    obtain ⟨t, _, ht⟩ := List.mem_flatMap.1 hu
    exact hfop _ u ht
  have key := fun σ => inv.exec L.threads_nodup L.mem_threads σ
  refine ⟨fun σ t => ?_, fun σ => ?_, fun σ hd => ?_⟩
  · obtain ⟨l, h1, _⟩ := (key σ).acts t
    intro hu
    rw [hu] at h1
    cases h1
  · obtain ⟨τ, hτ⟩ := ASys.finish_list m (L.sys.exec m σ) L.threads
    exact ⟨τ, fun t => by rw [ASys.exec_append]; exact hτ t (L.mem_threads t)⟩
  · rw [(key σ).done hd]

theorem ALaunch.Always.mono {β : Type} {L : ALaunch β} {m : BMem} {Q Q' : β → Prop} (h : L.Always m Q) (hq : ∀ r, Q r → Q' r) :
    L.Always m Q' := ⟨h.safe, h.ends, fun σ hd => hq _ (h.result σ hd)⟩

end PV
