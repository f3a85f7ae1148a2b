import Verif.ThreadsHang
/-
  C42-C47, C68, C69: the thread pool.
-/
namespace PV.Props
open PV.Thr

/-! ### Vocabulary of the statements -/

/-- An execution: events that can happen one after the other.  `Good` restricts them to
    providers whose number of tasks does not decrease from one run to the next, and to calls of
    `clear` and `remove` which find nothing to throw away. -/
inductive Runs : State → List Ev → State → Prop where
  | nil (s) : Runs s [] s
  | cons {s s' s'' e es} (hg : Good s e) (hs : step s e = some s') (hr : Runs s' es s'') :
      Runs s (e :: es) s''

/-- The task body executed by an event: provider, task id, whether it threw. -/
def bodyOf (s : State) : Ev → List (Nat × Nat × Bool)
  | .worker i t =>
    match s.workers[i]? with
    | some (.body p id) => [(p, id, t)]
    | _ => []
  | .clear => s.queue.map fun p => (p, 1, false)
  | _ => []

/-- The task bodies executed during a sequence of events, in order. -/
def bodies : State → List Ev → List (Nat × Nat × Bool)
  | _, [] => []
  | s, e :: es =>
    bodyOf s e ++
      match step s e with
      | some s' => bodies s' es
      | none => []

/-- The ids of the bodies of provider `p`. -/
def idsOf (p : Nat) (l : List (Nat × Nat × Bool)) : List Nat :=
  (l.filter fun x => x.1 == p).map fun x => x.2.1

/-- Whether a body of provider `p` threw. -/
def someThrew (p : Nat) (l : List (Nat × Nat × Bool)) : Bool :=
  l.any fun x => x.1 == p && x.2.2

/-- The user of `p` waits for its run. -/
def Waiting (s : State) (p : Nat) : Prop := (s.prov p).pc = .waitPred ∨ (s.prov p).pc = .asleep

/-- Some worker has not been told to end. -/
def HasWorker (s : State) : Prop := ∃ i, i < s.workers.length ∧ s.exit[i]? = some false

/-! ### The specification values in the model agree with what was executed -/

theorem log_step {s s' : State} {e : Ev} {p : Nat} (hs : step s e = some s')
    (hns : ∀ m, e ≠ .start p m) :
    (s'.prov p).log = (idsOf p (bodyOf s e)).reverse ++ (s.prov p).log ∧
    (s'.prov p).threw = ((s.prov p).threw || someThrew p (bodyOf s e)) ∧
    (s'.prov p).want = (s.prov p).want := by
  cases e with
  | worker i t =>
    have h := workerStep_cases hs
    cases h with
    | body q id hw =>
      simp only [bodyOf, hw, State.setW]
      by_cases e : p = q
      · subst e
        rw [setProv_same]
        simp [idsOf, someThrew]
      · rw [setProv_ne _ _ e]
        have e1 : (q == p) = false := by simpa using Ne.symm e
        simp [idsOf, someThrew, e1]
    | give q hw =>
      simp only [bodyOf, hw, State.setW]
      by_cases e : p = q
      · subst e; rw [setProv_same]; simp [idsOf, someThrew]
      · rw [setProv_ne _ _ e]; simp [idsOf, someThrew]
    | done q hw =>
      simp only [bodyOf, hw, State.setW]
      by_cases e : p = q
      · subst e; rw [setProv_same]; simp [idsOf, someThrew]
      · rw [setProv_ne _ _ e]; simp [idsOf, someThrew]
    | fin q hw =>
      simp only [bodyOf, hw, State.setW]
      by_cases e : p = q
      · subst e; rw [setProv_same]; simp [idsOf, someThrew]
      · rw [setProv_ne _ _ e]; simp [idsOf, someThrew]
    | leave w hw hw' he =>
      rcases hw' with e | e <;> subst e <;> simp [bodyOf, hw, State.setW, idsOf, someThrew]
    | stay hw => simp [bodyOf, hw, State.setW, idsOf, someThrew]
    | pass hw => simp [bodyOf, hw, State.setW, idsOf, someThrew]
    | sleep hw => simp [bodyOf, hw, State.setW, idsOf, someThrew]
    | go hw => simp [bodyOf, hw, State.setW, idsOf, someThrew]
    | pop _ _ hw => simp [bodyOf, hw, State.setW, idsOf, someThrew]
    | empty hw => simp [bodyOf, hw, State.setW, idsOf, someThrew]
    | cmp _ _ hw => simp [bodyOf, hw, State.setW, idsOf, someThrew]
  | user r =>
    have hset : ∀ (t : State) (f : Prov → Prov), t.prov = s.prov →
        (∀ P : Prov, (f P).log = P.log ∧ (f P).threw = P.threw ∧ (f P).want = P.want) →
        ((t.setProv r f).prov p).log = (s.prov p).log ∧
        ((t.setProv r f).prov p).threw = (s.prov p).threw ∧
        ((t.setProv r f).prov p).want = (s.prov p).want := by
      intro t f ht hf
      by_cases e : p = r
      · subst e; rw [setProv_same, ht]; exact hf _
      · rw [setProv_ne _ _ e, ht]; exact ⟨rfl, rfl, rfl⟩
    simp only [bodyOf, idsOf, someThrew, List.filter_nil, List.map_nil, List.reverse_nil,
      List.nil_append, List.any_nil, Bool.or_false]
    simp only [step, userStep] at hs
    split at hs
    all_goals first
      | (cases hs; exact hset _ _ rfl fun P => ⟨rfl, rfl, rfl⟩)
      | (split at hs <;> cases hs <;> exact hset _ _ rfl fun P => ⟨rfl, rfl, rfl⟩)
      | cases hs
  | spurious i =>
    simp only [step] at hs
    split at hs <;> cases hs
    simp [bodyOf, State.setW, idsOf, someThrew]
  | spuriousUser r =>
    simp only [step] at hs
    split at hs <;> cases hs
    by_cases e : p = r
    · subst e; rw [setProv_same]; simp [bodyOf, idsOf, someThrew]
    · rw [setProv_ne _ _ e]; simp [bodyOf, idsOf, someThrew]
  | start r n =>
    have e : p ≠ r := fun e => hns n (by rw [e])
    simp only [step] at hs
    split at hs
    all_goals first | cases hs | skip
    all_goals (split at hs <;> cases hs <;> rw [setProv_ne _ _ e] <;>
      simp [bodyOf, idsOf, someThrew])
  | clear =>
    simp only [step] at hs
    cases hs
    refine ⟨?_, ?_, rfl⟩
    · have : ∀ l : List Nat, ((l.map fun p => (p, 1, false)).filter fun x : Nat × Nat × Bool =>
          x.1 == p).map (fun x => x.2.1) = List.replicate (l.count p) 1 := by
        intro l
        induction l with
        | nil => rfl
        | cons a l ih =>
          by_cases e : a = p
          · subst e
            simp only [List.map_cons, List.filter_cons, beq_self_eq_true, if_true, ih,
              List.count_cons_self, List.replicate_succ]
          · rw [List.count_cons_of_ne e, ← ih]
            simp [e]
      simp only [clearProv, bodyOf, idsOf, this, List.reverse_replicate]
    · simp [bodyOf, someThrew, clearProv]
  | remove r => simp only [step] at hs; cases hs; simp [bodyOf, idsOf, someThrew]
  | tellExit k => simp only [step] at hs; cases hs; simp [bodyOf, idsOf, someThrew]
  | popWorker =>
    simp only [step] at hs
    split at hs <;> cases hs
    simp [bodyOf, idsOf, someThrew]
  | joinAll =>
    simp only [step] at hs
    split at hs <;> cases hs
    simp [bodyOf, idsOf, someThrew]
  | grow k =>
    simp only [step] at hs
    split at hs <;> cases hs
    simp [bodyOf, idsOf, someThrew]

theorem idsOf_append (p : Nat) (l l' : List (Nat × Nat × Bool)) :
    idsOf p (l ++ l') = idsOf p l ++ idsOf p l' := by simp [idsOf]

theorem someThrew_append (p : Nat) (l l' : List (Nat × Nat × Bool)) :
    someThrew p (l ++ l') = (someThrew p l || someThrew p l') := by simp [someThrew]

theorem log_runs {s s' : State} {es : List Ev} {p : Nat} (h : Runs s es s')
    (hns : ∀ m, .start p m ∉ es) :
    (s'.prov p).log = (idsOf p (bodies s es)).reverse ++ (s.prov p).log ∧
    (s'.prov p).threw = ((s.prov p).threw || someThrew p (bodies s es)) ∧
    (s'.prov p).want = (s.prov p).want := by
  induction h with
  | nil s => simp [bodies, idsOf, someThrew]
  | @cons s s1 s2 e es hg hs hr ih =>
    have h1 := log_step (p := p) hs (fun m e => hns m (by rw [e]; exact List.mem_cons_self))
    have h2 := ih fun m hm => hns m (List.mem_cons_of_mem _ hm)
    simp only [bodies, hs, idsOf_append, someThrew_append]
    rw [h2.1, h1.1, h2.2.1, h1.2.1, h2.2.2, h1.2.2]
    simp [Bool.or_assoc]

theorem inv_runs {s s' : State} {es : List Ev} (h : Runs s es s')
    (hp : ∀ p, PInv s p) (hG : GInv s) : (∀ p, PInv s' p) ∧ GInv s' := by
  induction h with
  | nil s => exact ⟨hp, hG⟩
  | cons hg hs hr ih => exact ih (fun p => pinv_step (hp p) hg hs) (ginv_step hG hs)

theorem inv_init (n : Nat) : (∀ p, PInv (State.init n) p) ∧ GInv (State.init n) := by
  have hget : ∀ {α} (a b : α) (i : Nat), (List.replicate n a)[i]? = some b → b = a := by
    intro α a b i h
    have := (List.getElem?_eq_some_iff.1 h).2
    simp only [List.getElem_replicate] at this
    exact this.symm
  constructor
  · intro p
    refine ⟨⟨?_, ?_, ?_, ?_, ?_, rfl⟩, rfl, rfl⟩
    · simp [State.init, List.count_replicate]
    · simp [State.init, List.count_replicate, List.countP_replicate, isBody]
    · intro k hk
      have := (List.mem_replicate.1 hk).2
      cases this
    · right; right
      simp [State.init, List.count_replicate]
    · intro id
      simp [State.init, List.count_replicate]
  · refine ⟨by simp [State.init], Or.inr (by simp [State.init]), ?_, ?_, ?_, ?_⟩
    · intro i h; cases hget _ _ _ h
    · intro i h; cases hget _ _ _ h
    · intro i w h hx
      have := hget _ _ _ h
      subst this
      simp at hx
    · intro i h; cases hget _ _ _ h

/-- The state right after `start`. -/
theorem start_state {s0 s1 : State} {p n : Nat} (hp : PInv s0 p) (hn : 0 < n)
    (hs : step s0 (.start p n) = some s1) :
    (s1.prov p).log = [] ∧ (s1.prov p).threw = false ∧ (s1.prov p).want = n := by
  simp only [step] at hs
  unfold PInv at hp
  cases hpc : (s0.prov p).pc <;> rw [hpc] at hs hp <;> simp only [PAt] at hp <;>
    simp only [reduceCtorEq] at hs
  case idle =>
    rw [if_pos ⟨hp.2.2, hn⟩] at hs; cases hs; rw [setProv_same]; exact ⟨rfl, rfl, rfl⟩
  case failed =>
    rw [if_pos ⟨hp.2, hn⟩] at hs; cases hs; rw [setProv_same]; exact ⟨rfl, rfl, rfl⟩
  case returned ok =>
    rw [if_pos ⟨hp.2.2.1, hn⟩] at hs; cases hs; rw [setProv_same]; exact ⟨rfl, rfl, rfl⟩

/-- A run of provider `p` with `n` tasks, after any earlier history `es0` of a pool with `w`
    threads, and everything (`es`) that happened since `_run( n )` was called. -/
structure Run (w p n : Nat) (s1 : State) (es : List Ev) (s2 : State) : Prop where
  mk ::
  ex : ∃ es0 s0, Runs (State.init w) es0 s0 ∧ Good s0 (.start p n) ∧
    step s0 (.start p n) = some s1
  run : Runs s1 es s2
  /-- `es` is about this run only -/
  same : ∀ m, .start p m ∉ es

theorem Run.facts {w p n : Nat} {s1 s2 : State} {es : List Ev} (h : Run w p n s1 es s2) :
    (s2.prov p).log = (idsOf p (bodies s1 es)).reverse ∧
    (s2.prov p).threw = someThrew p (bodies s1 es) ∧ (s2.prov p).want = n ∧
    (∀ q, PInv s2 q) ∧ GInv s2 := by
  obtain ⟨es0, s0, h0, hg, hs⟩ := h.ex
  obtain ⟨hi0, hG0⟩ := inv_init w
  obtain ⟨hi1, hG1⟩ := inv_runs h0 hi0 hG0
  obtain ⟨e1, e2, e3⟩ := start_state (hi1 p) hg.2 hs
  obtain ⟨f1, f2, f3⟩ := log_runs h.run h.same
  obtain ⟨hi2, hG2⟩ := inv_runs h.run (fun q => pinv_step (hi1 q) hg hs) (ginv_step hG1 hs)
  refine ⟨by rw [f1, e1, List.append_nil], by rw [f2, e2, Bool.false_or], by rw [f3, e3], hi2, hG2⟩

/-! ### C42 -/

/-- C42: when `_wait` has returned, the bodies executed since `_run( n )` are those of the ids
    0, ..., n-1, each exactly once; for every number of workers, providers and tasks and every
    schedule. -/
theorem C42_exactly_once {w p n : Nat} {s1 s2 : State} {es : List Ev} {ok : Bool}
    (h : Run w p n s1 es s2) (hr : (s2.prov p).pc = .returned ok) :
    (idsOf p (bodies s1 es)).Perm (List.range n) := by
  obtain ⟨f1, _, f3, hi, _⟩ := h.facts
  have hp := hi p
  unfold PInv at hp
  rw [hr] at hp
  obtain ⟨ha, _, hrun, _⟩ := hp
  obtain ⟨_, _, hb, _, _, _, _, hgiven⟩ := ha.quiet hrun
  refine List.perm_iff_count.2 fun id => ?_
  have h1 := ha.log id
  have h2 : s2.workers.count (.body p id) = 0 := List.count_eq_zero.2 fun hx => by
    have := List.countP_eq_zero.1 hb _ hx
    simp [isBody] at this
  rw [h2, f1, hgiven, ha.want, f3, Nat.add_zero, List.count_reverse] at h1
  rw [h1, List.nodup_range.count]
  simp only [List.mem_range]

/-- C42: at no time has a body been executed twice in a run, or with an id outside 0, ..., n-1. -/
theorem C42_at_most_once {w p n : Nat} {s1 s2 : State} {es : List Ev}
    (h : Run w p n s1 es s2) :
    (idsOf p (bodies s1 es)).Nodup ∧ ∀ id ∈ idsOf p (bodies s1 es), id < n := by
  obtain ⟨f1, _, f3, hi, _⟩ := h.facts
  have hp := hi p
  have key : (s2.prov p).log = [] ∨ (Active s2 p) := by
    unfold PInv at hp
    cases hpc : (s2.prov p).pc <;> rw [hpc] at hp <;> simp only [PAt] at hp <;>
      first
      | exact Or.inr hp.1
      | exact Or.inl hp.1.log
  rcases key with e | ha
  · rw [f1] at e
    have : idsOf p (bodies s1 es) = [] := by simpa using e
    rw [this]
    simp
  · have hc : ∀ id, (idsOf p (bodies s1 es)).count id ≤ 1 := by
      intro id
      have := ha.log id
      rw [f1, List.count_reverse] at this
      split at this <;> omega
    refine ⟨List.nodup_iff_count.2 hc, fun id hid => ?_⟩
    have h1 := List.count_pos_iff.2 hid
    have h2 := ha.log id
    rw [f1, List.count_reverse] at h2
    have h3 := ha.give
    rw [ha.want, f3] at h3
    by_cases hlt : id < (s2.prov p).given
    · omega
    · rw [if_neg hlt] at h2; omega

/-! ### C43 -/

/-- C43: `_wait` returns `false` exactly if a body of this run threw, and then all of the
    bodies have been executed (C42_exactly_once) and no worker is inside of one. -/
theorem C43_wait_result {w p n : Nat} {s1 s2 : State} {es : List Ev} {ok : Bool}
    (h : Run w p n s1 es s2) (hr : (s2.prov p).pc = .returned ok) :
    (ok = false ↔ ∃ id, (p, id, true) ∈ bodies s1 es) ∧
    (∀ id, .body p id ∉ s2.workers) ∧ (idsOf p (bodies s1 es)).length = n := by
  have hperm := C42_exactly_once h hr
  obtain ⟨f1, f2, f3, hi, _⟩ := h.facts
  have hp := hi p
  unfold PInv at hp
  rw [hr] at hp
  obtain ⟨ha, _, hrun, hok⟩ := hp
  obtain ⟨_, _, hb, _⟩ := ha.quiet hrun
  refine ⟨?_, ?_, by rw [hperm.length_eq, List.length_range]⟩
  · rw [hok, f2]
    simp only [Bool.not_eq_eq_eq_not, Bool.not_false, someThrew, List.any_eq_true, Bool.and_eq_true,
      beq_iff_eq]
    constructor
    · rintro ⟨⟨a, b, c⟩, hm, h1, h2⟩
      simp only at h1 h2
      subst h1; subst h2
      exact ⟨b, hm⟩
    · rintro ⟨id, hm⟩
      exact ⟨_, hm, rfl, rfl⟩
  · intro id hx
    have := List.countP_eq_zero.1 hb _ hx
    simp [isBody] at this

/-! ### C44 -/

/-- C44: the workers of a pool can make only a bounded number of steps on their own
    (`work s` is computed from the state), whatever the order of their steps. -/
theorem C44_bounded {w : Nat} {es0 : List Ev} {s s' : State} (h : Runs (State.init w) es0 s)
    {ws : List Ev} (hws : ∀ e ∈ ws, ∃ i t, e = .worker i t) (hr : Runs s ws s') :
    ws.length ≤ work s := by
  obtain ⟨hi0, hG0⟩ := inv_init w
  obtain ⟨_, hG⟩ := inv_runs h hi0 hG0
  clear h hi0 hG0
  have key : ∀ {ws s s'}, Runs s ws s' → GInv s → (∀ e ∈ ws, ∃ i t, e = .worker i t) →
      ws.length + work s' ≤ work s := by
    intro ws s s' hr
    induction hr with
    | nil s => intro _ _; simp
    | cons hg hs hr ih =>
      intro hG hws
      obtain ⟨i, t, e⟩ := hws _ List.mem_cons_self
      have h1 := ih (ginv_step hG hs) fun e he => hws e (List.mem_cons_of_mem _ he)
      subst e
      have h2 := work_lt hG (workerStep_cases hs)
      simp only [List.length_cons]
      omega
  have := key hr hG hws
  omega

/-- C44: no deadlock.  In every reachable state of a pool with a worker: when no worker can
    move, every waiting provider's run is complete and its `_wait` returns in the next step (no
    wake-up was lost: it is not asleep). -/
theorem C44_no_deadlock {w : Nat} {es0 : List Ev} {s : State} (h : Runs (State.init w) es0 s)
    (hw : HasWorker s) (hst : ∀ i, step s (.worker i false) = none) {p : Nat}
    (hp : Waiting s p) :
    ∃ s' ok, step s (.user p) = some s' ∧ (s'.prov p).pc = .returned ok := by
  obtain ⟨hi0, hG0⟩ := inv_init w
  obtain ⟨hi, hG⟩ := inv_runs h hi0 hG0
  obtain ⟨i, hlt, he⟩ := hw
  have hpi := hi p
  unfold PInv at hpi
  rcases hp with e | e
  · rw [e] at hpi
    have hrun := stuck_done hG hst hlt he hpi.1
    refine ⟨s.setProv p fun P => { P with exc := false, pc := .returned (!P.exc) },
      !(s.prov p).exc, ?_, ?_⟩
    · simp [step, userStep, e, hrun]
    · rw [setProv_same]
  · rw [e] at hpi
    have hrun := stuck_done hG hst hlt he hpi.1
    rw [hpi.2.2] at hrun
    cases hrun

/-- C44: the same said in one piece: let the workers run in any order until none of them can
    move; this happens after at most `work s` steps, and then `_wait` of every provider that
    was waiting returns. -/
theorem C44_wait_returns {w : Nat} {es0 : List Ev} {s s' : State}
    (h : Runs (State.init w) es0 s) {ws : List Ev} (hws : ∀ e ∈ ws, ∃ i t, e = .worker i t)
    (hr : Runs s ws s') (hw : HasWorker s') (hst : ∀ i, step s' (.worker i false) = none)
    {p : Nat} (hp : Waiting s' p) :
    ws.length ≤ work s ∧
    ∃ s'' ok, step s' (.user p) = some s'' ∧ (s''.prov p).pc = .returned ok := by
  refine ⟨C44_bounded h hws hr, ?_⟩
  have happ : ∀ {a b c es es'}, Runs a es b → Runs b es' c → Runs a (es ++ es') c := by
    intro a b c es es' h1 h2
    induction h1 with
    | nil => exact h2
    | cons hg hs _ ih => exact .cons hg hs (ih h2)
  exact C44_no_deadlock (happ h hr) hw hst hp

/-! ### Concrete executions -/

def goodB (s : State) : Ev → Bool
  | .start p n => (s.prov p).taskCount ≤ n && decide (0 < n)
  | .clear => s.queue.isEmpty
  | .remove p => s.queue.count p == 0
  | _ => true

theorem goodB_iff {s : State} {e : Ev} (h : goodB s e = true) : Good s e := by
  cases e <;> simp only [goodB, Good, Bool.and_eq_true, decide_eq_true_eq, List.isEmpty_iff,
    beq_iff_eq] at h ⊢ <;> first | exact h | exact List.isEmpty_iff.1 h | trivial

def goodExec : State → List Ev → Option State
  | s, [] => some s
  | s, e :: es =>
    match goodB s e, step s e with
    | true, some s' => goodExec s' es
    | _, _ => none

theorem goodExec_runs {es : List Ev} : ∀ {s s' : State}, goodExec s es = some s' → Runs s es s' := by
  induction es with
  | nil => intro s s' h; cases h; exact .nil _
  | cons e es ih =>
    intro s s' h
    simp only [goodExec] at h
    split at h
    · rename_i hg hs
      exact .cons (goodB_iff hg) hs (ih h)
    · cases h

/-- The five steps of `_run` after the call. -/
def fiveSteps (p : Nat) : List Ev := List.replicate 5 (.user p)

/-- Two workers, provider 0 with two tasks: worker 0 executes the first one and stops before
    line 69; worker 1 executes the second one, which throws, and completes the run. -/
def exSched : List Ev :=
  fiveSteps 0 ++ [.user 0] ++ List.replicate 7 (.worker 0 false) ++ List.replicate 9 (.worker 1 true) ++
  [.user 0]

/-- The state in which `_run( 2 )` of provider 0 has been called in a fresh pool. -/
def exStart : State := (step (State.init 2) (.start 0 2)).getD (State.init 0)

def exEnd : State := (goodExec exStart exSched).getD (State.init 0)

theorem exRun : Run 2 0 2 exStart exSched exEnd := by
  refine ⟨⟨[], State.init 2, .nil _, ⟨Nat.zero_le _, by decide⟩, rfl⟩, ?_, ?_⟩
  · exact goodExec_runs (s' := exEnd) rfl
  · intro m h
    have : ∀ e ∈ exSched, (match e with | .start _ _ => false | _ => true) = true := by decide
    have := this _ h
    simp at this

/-- The hypotheses of C42 and C43 are met: `_wait` has returned `false`. -/
example : (exEnd.prov 0).pc = .returned false ∧ idsOf 0 (bodies exStart exSched) = [0, 1] := by
  decide

/-- Before the workers start in this execution the provider waits and work is left (C44). -/
example : (Option.map (fun s => ((s.prov 0).pc, decide (0 < work s)))
    (goodExec exStart (fiveSteps 0 ++ [.user 0]))) = some (.asleep, true) := by decide

/-! ### C45 -/

/-- C45 is false: when `clear` (also called by `stop`) finds pending tasks of a provider that
    waits for them, `_wait` never returns, whatever happens afterwards. -/
theorem C45_clear_hangs_wrong {w p : Nat} {es0 : List Ev} {s s' : State}
    (h : Runs (State.init w) es0 s) (hp : Waiting s p) (hq : p ∈ s.queue)
    (hs : step s .clear = some s') {es : List Ev} {s'' : State} (he : exec s' es = some s'') :
    Waiting s'' p := by
  obtain ⟨hi0, hG0⟩ := inv_init w
  obtain ⟨hi, _⟩ := inv_runs h hi0 hG0
  have ha : Active s p := by
    have := hi p
    unfold PInv at this
    rcases hp with e | e <;> rw [e] at this <;> exact this.1
  simp only [step] at hs
  cases hs
  refine (hang_exec ?_ he).pc
  exact ha.hang hp (List.count_pos_iff.2 hq) ⟨rfl, rfl, rfl, rfl⟩ rfl rfl

/-- The situation of C45_clear_hangs_wrong occurs: one worker, a provider with one task. -/
example : (Option.map (fun s => ((s.prov 0).pc, s.queue))
    (goodExec (State.init 1) (.start 0 1 :: fiveSteps 0))) = some (.waitPred, [0]) := by decide

/-- C45 is false: `clear` runs task bodies, all with the id 1, here for a provider with one task
    whose only id is 0. -/
theorem C45_clear_runs_bodies_wrong :
    bodies (State.init 1) (.start 0 1 :: fiveSteps 0 ++ [.clear]) = [(0, 1, false)] ∧
    Option.map (fun s => (s.prov 0).log)
      (exec (State.init 1) (.start 0 1 :: fiveSteps 0 ++ [.clear])) = some [1] := by decide

/-- C45, the part that is true: if no task is pending, `clear` or `stop` do no harm; the workers
    finish what they have begun and `_wait` returns for every waiting provider, even if all
    workers have been told to end. -/
theorem C45_nothing_pending_partial {w : Nat} {es0 : List Ev} {s : State}
    (h : Runs (State.init w) es0 s) (hq : s.queue = []) (hst : ∀ i, step s (.worker i false) = none)
    {p : Nat} (hp : Waiting s p) :
    ∃ s' ok, step s (.user p) = some s' ∧ (s'.prov p).pc = .returned ok := by
  obtain ⟨hi0, hG0⟩ := inv_init w
  obtain ⟨hi, hG⟩ := inv_runs h hi0 hG0
  have hpi := hi p
  have ha : Active s p := by
    unfold PInv at hpi
    rcases hp with e | e <;> rw [e] at hpi <;> exact hpi.1
  have hrun := stuck_done' hG hst hq ha
  unfold PInv at hpi
  rcases hp with e | e
  · refine ⟨s.setProv p fun P => { P with exc := false, pc := .returned (!P.exc) },
      !(s.prov p).exc, ?_, ?_⟩
    · simp [step, userStep, e, hrun]
    · rw [setProv_same]
  · rw [e] at hpi
    rw [hpi.2.2] at hrun
    cases hrun

/-- A pool stopped while a task is being executed: the task is completed, the worker ends, the
    provider can return. -/
example : (Option.map (fun s => ((s.prov 0).pc, s.queue, s.workers))
    (goodExec (State.init 1) (.start 0 1 :: fiveSteps 0 ++ List.replicate 5 (.worker 0 false) ++
      [.clear, .tellExit 0] ++ List.replicate 5 (.worker 0 false)))) =
    some (.waitPred, [], [.gone]) := by decide

/-! ### C46 -/

/-- C46 is false: after a run with two tasks (`exSched` above) a second run with one task is
    started; worker 0, still at line 69 of the first run, takes the 1 it has read for the end of
    the second run, and `_wait` returns `true` while no body of the second run has been executed. -/
theorem C46_rerun_wrong :
    (Option.map (fun s => (s.prov 0).pc)
      (exec exEnd (.start 0 1 :: fiveSteps 0 ++ [.worker 0 false, .worker 0 false, .user 0]))) =
      some (.returned true) ∧
    bodies exEnd (.start 0 1 :: fiveSteps 0 ++ [.worker 0 false, .worker 0 false, .user 0]) = [] := by
  decide

/-- C46, the part that is true: in a history of any number of runs whose task counts do not
    decrease, `_wait` of a later run with `n` tasks returns only after all tasks of that run
    were executed, once each, and reports exactly their failures. -/
theorem C46_rerun_partial {w p n m : Nat} {es0 es es' : List Ev} {s0 s1 s2 s3 s4 : State}
    {ok ok' : Bool} (h0 : Runs (State.init w) es0 s0)
    (hs1 : step s0 (.start p m) = some s1) (h1 : Runs s1 es s2) (hn1 : ∀ k, .start p k ∉ es)
    (hr1 : (s2.prov p).pc = .returned ok)
    (hs3 : step s2 (.start p n) = some s3) (h3 : Runs s3 es' s4) (hn3 : ∀ k, .start p k ∉ es')
    (hr3 : (s4.prov p).pc = .returned ok')
    (hm : (s0.prov p).taskCount ≤ m) (hpos : 0 < m) (hmn : m ≤ n) :
    (idsOf p (bodies s1 es)).Perm (List.range m) ∧ (ok = false ↔ ∃ id, (p, id, true) ∈ bodies s1 es) ∧
    (idsOf p (bodies s3 es')).Perm (List.range n) ∧
    (ok' = false ↔ ∃ id, (p, id, true) ∈ bodies s3 es') := by
  have r1 : Run w p m s1 es s2 := ⟨⟨es0, s0, h0, ⟨hm, hpos⟩, hs1⟩, h1, hn1⟩
  have happ : ∀ {a b c es es'}, Runs a es b → Runs b es' c → Runs a (es ++ es') c := by
    intro a b c es es' h1 h2
    induction h1 with
    | nil => exact h2
    | cons hg hs _ ih => exact .cons hg hs (ih h2)
  have hcount : (s2.prov p).taskCount = m := by
    obtain ⟨_, _, f3, hi, _⟩ := r1.facts
    have hp := hi p
    unfold PInv at hp
    rw [hr1] at hp
    rw [hp.1.want, f3]
  have r3 : Run w p n s3 es' s4 :=
    ⟨⟨es0 ++ (.start p m :: es), s2, happ h0 (.cons ⟨hm, hpos⟩ hs1 h1),
      ⟨by rw [hcount]; exact hmn, by omega⟩, hs3⟩, h3, hn3⟩
  exact ⟨C42_exactly_once r1 hr1, (C43_wait_result r1 hr1).1, C42_exactly_once r3 hr3,
    (C43_wait_result r3 hr3).1⟩

/-- Two runs of two tasks each, as in C46_rerun_partial, with worker 0 late by one run. -/
example :
    (Option.map (fun s => ((s.prov 0).pc, (s.prov 0).log))
      (goodExec exEnd (.start 0 2 :: fiveSteps 0 ++ List.replicate 18 (.worker 1 false) ++
        [.worker 0 false, .user 0]))) = some (.returned true, [1, 0]) := by decide

/-! ### C47 -/

/-- C47 is false: in a pool that was stopped (its `_exit` flags are set and stay so) and resized
    to at most the previous number of threads, no task body is ever executed again, in whatever
    order things happen, until the pool is resized once more. -/
theorem C47_restart_wrong {s s1 : State} {k : Nat} (hw : s.workers = [])
    (hx : ∀ b ∈ s.exit, b = true) (hk : k ≤ s.exit.length) (hs : step s (.grow k) = some s1) :
    ∀ (es : List Ev) (s2 : State), (∀ m, .grow m ∉ es) → .clear ∉ es → exec s1 es = some s2 →
      bodies s1 es = [] := by
  have hd : Dead s1 := by
    simp only [step] at hs
    split at hs <;> cases hs
    refine ⟨?_, ?_⟩
    · intro i b hb
      have hm := List.mem_of_getElem? hb
      simp only [resizeV] at hm
      rw [Nat.sub_eq_zero_of_le hk, List.replicate_zero, List.append_nil] at hm
      exact hx b (List.mem_of_mem_take hm)
    · intro w hw'
      simp only [hw, List.nil_append] at hw'
      exact Or.inl (List.mem_replicate.1 hw').2
  clear hs hk hx hw
  intro es
  induction es generalizing s1 with
  | nil => intro _ _ _ _; rfl
  | cons e es ih =>
    intro s2 hg hc he
    simp only [exec] at he
    split at he
    · rename_i s' hs'
      have hb : bodyOf s1 e = [] := by
        cases e with
        | worker i t =>
          simp only [bodyOf]
          split
          · rename_i p id hw
            have := hd.place _ (List.mem_of_getElem? hw)
            simp at this
          · rfl
        | clear => exact absurd List.mem_cons_self hc
        | _ => rfl
      have hd' := dead_step hd (fun m e' => hg m (by rw [e']; exact List.mem_cons_self)) hs'
      simp only [bodies, hs', hb, List.nil_append]
      exact ih hd' s2 (fun m hm => hg m (List.mem_cons_of_mem _ hm))
        (fun hm => hc (List.mem_cons_of_mem _ hm)) he
    · cases he

/-- Such a state occurs: a pool of two threads after `stop()`. -/
example : (Option.map (fun s => (s.workers, s.exit))
    (exec (State.init 2) [.clear, .tellExit 0, .worker 0 false, .worker 1 false, .joinAll])) =
    some ([], [true, true]) := by decide

/-- ... and `_run( 1 )` in the pool resized to two threads is accepted, but both workers end. -/
example : (Option.map (fun s => (s.workers, s.queue, (s.prov 0).pc))
    (exec (State.init 2) ([.clear, .tellExit 0, .worker 0 false, .worker 1 false, .joinAll, .grow 2,
      .start 0 1] ++ fiveSteps 0 ++ [.worker 0 false, .worker 1 false, .user 0]))) =
    some ([.gone, .gone], [0], .asleep) := by decide

/-- C47, the part that is true: after a resize to more threads than the pool ever had flags for,
    there is a worker that was not told to end, and C42-C44 apply to the new pool as before. -/
theorem C47_restart_partial {w : Nat} {es0 : List Ev} {s s1 : State} {k : Nat}
    (h : Runs (State.init w) es0 s) (hk : s.exit.length < k) (hs : step s (.grow k) = some s1) :
    HasWorker s1 ∧ Runs (State.init w) (es0 ++ [.grow k]) s1 := by
  constructor
  · simp only [step] at hs
    split at hs <;> cases hs
    refine ⟨k - 1, ?_, ?_⟩
    · simp only [List.length_append, List.length_replicate]; omega
    · simp only [resizeV]
      rw [List.getElem?_append, if_neg (by rw [List.length_take]; omega), List.length_take,
        List.getElem?_replicate, if_pos (by omega)]
  · have happ : ∀ {a b c es es'}, Runs a es b → Runs b es' c → Runs a (es ++ es') c := by
      intro a b c es es' h1 h2
      induction h1 with
      | nil => exact h2
      | cons hg hs _ ih => exact .cons hg hs (ih h2)
    exact happ h (.cons trivial hs (.nil _))

example : (Option.map (fun s => (s.workers, s.exit))
    (goodExec (State.init 1) [.clear, .tellExit 0, .worker 0 false, .joinAll, .grow 2])) =
    some ([.top, .top], [true, false]) := by decide

/-! ### C68: destroying a provider with pending tasks -/

/-- C68 is false: `~TaskProvider` removes the pending tasks from the pool and then waits for
    them; it never returns. -/
theorem C68_destroy_hangs_wrong {w p : Nat} {es0 : List Ev} {s s' : State}
    (h : Runs (State.init w) es0 s) (hp : Waiting s p) (hq : p ∈ s.queue)
    (hs : step s (.remove p) = some s') {es : List Ev} {s'' : State} (he : exec s' es = some s'') :
    Waiting s'' p := by
  obtain ⟨hi0, hG0⟩ := inv_init w
  obtain ⟨hi, _⟩ := inv_runs h hi0 hG0
  have ha : Active s p := by
    have := hi p
    unfold PInv at this
    rcases hp with e | e <;> rw [e] at this <;> exact this.1
  simp only [step] at hs
  cases hs
  refine (hang_exec ?_ he).pc
  refine ha.hang hp (List.count_pos_iff.2 hq) ⟨rfl, rfl, rfl, rfl⟩ rfl ?_
  exact List.count_eq_zero.2 fun hx => by simp at hx

/-- C68, the part that is true: removing a provider none of whose tasks is pending loses
    nothing; every other statement continues to hold for the history with this event. -/
theorem C68_destroy_partial {s s' : State} {p : Nat} (hq : p ∉ s.queue)
    (hs : step s (.remove p) = some s') : s' = s ∧ Runs s [.remove p] s' := by
  have hc : s.queue.count p = 0 := List.count_eq_zero.2 hq
  refine ⟨?_, .cons hc hs (.nil _)⟩
  simp only [step] at hs
  cases hs
  have : s.queue.filter (fun q => q != p) = s.queue := by
    refine List.filter_eq_self.2 fun a ha => ?_
    simp only [bne_iff_ne, ne_eq]
    intro e
    exact hq (e ▸ ha)
  simp only [this]

/-! ### C69: a provider can be destroyed once `_wait` has returned -/

/-- The workers that still have to access a member of provider `p`. -/
def Uses (p : Nat) : WPc → Bool
  | .give q => q == p
  | .body q _ => q == p
  | .done q => q == p
  | .cmp q _ => q == p
  | .fin q => q == p
  | _ => false

/-- C69 is false: in the execution `exSched` `_wait` has returned, and worker 0 has yet to read
    `_taskCount` of the provider. -/
theorem C69_late_access_wrong :
    (exEnd.prov 0).pc = .returned false ∧ exEnd.workers.any (Uses 0) = true := by decide

/-- C69, the part that is true: a worker that still has to access the provider is at line 69, the
    comparison with `_taskCount`; it will find it different, and do nothing more to the provider.
    No worker is inside of a task body, changes a counter or locks the mutex. -/
theorem C69_late_access_partial {w p : Nat} {es : List Ev} {s : State} {ok : Bool}
    (h : Runs (State.init w) es s) (hr : (s.prov p).pc = .returned ok) :
    ∀ x ∈ s.workers, Uses p x = true → ∃ k, x = .cmp p k ∧ k ≠ (s.prov p).taskCount := by
  obtain ⟨hi0, hG0⟩ := inv_init w
  obtain ⟨hi, _⟩ := inv_runs h hi0 hG0
  have hp := hi p
  unfold PInv at hp
  rw [hr] at hp
  obtain ⟨ha, _, hrun, _⟩ := hp
  obtain ⟨_, q2, q3, q4, q5, _⟩ := ha.quiet hrun
  intro x hx hu
  cases x with
  | give q =>
    simp only [Uses, beq_iff_eq] at hu
    subst hu; exact absurd hx (List.count_eq_zero.1 q2)
  | body q id =>
    simp only [Uses, beq_iff_eq] at hu
    subst hu
    have := List.countP_eq_zero.1 q3 _ hx
    simp [isBody] at this
  | done q =>
    simp only [Uses, beq_iff_eq] at hu
    subst hu; exact absurd hx (List.count_eq_zero.1 q4)
  | cmp q k =>
    simp only [Uses, beq_iff_eq] at hu
    subst hu
    exact ⟨k, rfl, Nat.ne_of_lt (ha.lt_of_quiet hrun k hx)⟩
  | fin q =>
    simp only [Uses, beq_iff_eq] at hu
    subst hu; exact absurd hx (List.count_eq_zero.1 q5)
  | _ => simp [Uses] at hu

end PV.Props
