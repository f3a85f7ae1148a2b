import Verif.Races
import Verif.PropsThreads
/-
  C159: data races of the thread pool.
-/
namespace PV.Props
open PV.Thr

/-- The calls that change the number of threads: `resize` and `stop`. -/
def ChangesThreads : Ev → Prop
  | .tellExit _ | .popWorker | .joinAll | .grow _ => True
  | _ => False

/-- Two workers about to execute tasks of the same provider which both throw. -/
def BothThrow (s : State) (e f : Ev) : Prop :=
  ∃ i j p a b, i ≠ j ∧ e = .worker i true ∧ f = .worker j true ∧
    s.workers[i]? = some (.body p a) ∧ s.workers[j]? = some (.body p b)

/-- Where the accesses to `_running` and `_exceptionRaised` come from. -/
theorem acc_running {s : State} {e : Ev} {a : Access} {p : Nat} (ha : a ∈ acc s e)
    (hl : a.loc = .running p) (hn : ¬ChangesThreads e) :
    (∃ i t, e = .worker i t ∧ s.workers[i]? = some (.fin p) ∧ a.lock = some (.completion p)) ∨
    (e = .user p ∧ a.lock = some (.completion p)) ∨
    (∃ n, e = .start p n ∧ a.write = false) := by
  cases e with
  | worker i t =>
    simp only [acc] at ha
    cases hw : s.workers[i]? with
    | none => rw [hw] at ha; simp at ha
    | some w =>
      rw [hw] at ha
      simp only [Option.map_some, Option.getD_some] at ha
      cases w <;> simp only [workerAcc] at ha
      case fetch =>
        split at ha <;> simp at ha
        · rcases ha with rfl | rfl <;> cases hl
        · subst ha; cases hl
      case body q id =>
        split at ha <;> simp at ha
        subst ha; cases hl
      case fin q =>
        simp at ha
        subst ha
        simp only [Loc.running.injEq] at hl
        subst hl
        exact Or.inl ⟨i, t, rfl, hw, rfl⟩
      all_goals first
        | (simp at ha; done)
        | (simp at ha; subst ha; cases hl)
  | user q =>
    simp only [acc] at ha
    refine Or.inr (Or.inl ?_)
    cases hpc : (s.prov q).pc <;> rw [hpc] at ha <;> simp only [userAcc] at ha
    case addRunning n =>
      simp at ha
      rcases ha with rfl | rfl
      · cases hl
      · simp only [Loc.running.injEq] at hl
        subst hl
        exact ⟨rfl, rfl⟩
    case addTasks n =>
      simp at ha
      rcases ha with rfl | ⟨i, _, rfl⟩ <;> cases hl
    case waitPred =>
      rcases List.mem_cons.mp ha with rfl | ha
      · simp only [Loc.running.injEq] at hl
        subst hl
        exact ⟨rfl, rfl⟩
      · split at ha <;> simp at ha
        rcases ha with rfl | rfl <;> cases hl
    all_goals simp at ha
  | start q n =>
    simp [acc] at ha
    subst ha
    simp only [Loc.running.injEq] at hl
    subst hl
    exact Or.inr (Or.inr ⟨n, rfl, rfl⟩)
  | spurious i => simp [acc] at ha
  | spuriousUser q => simp [acc] at ha
  | clear => simp [acc] at ha; subst ha; cases hl
  | remove q => simp [acc] at ha; subst ha; cases hl
  | tellExit k => exact absurd trivial hn
  | popWorker => exact absurd trivial hn
  | joinAll => exact absurd trivial hn
  | grow k => exact absurd trivial hn

theorem acc_exc {s : State} {e : Ev} {a : Access} {p : Nat} (ha : a ∈ acc s e)
    (hl : a.loc = .exc p) (hn : ¬ChangesThreads e) :
    (∃ i id, e = .worker i true ∧ s.workers[i]? = some (.body p id)) ∨
    (e = .user p ∧ (s.prov p).pc = .waitPred ∧ (s.prov p).running = false ∧
      a.lock = some (.completion p)) := by
  cases e with
  | worker i t =>
    simp only [acc] at ha
    cases hw : s.workers[i]? with
    | none => rw [hw] at ha; simp at ha
    | some w =>
      rw [hw] at ha
      simp only [Option.map_some, Option.getD_some] at ha
      cases w <;> simp only [workerAcc] at ha
      case fetch =>
        split at ha <;> simp at ha
        · rcases ha with rfl | rfl <;> cases hl
        · subst ha; cases hl
      case body q id =>
        split at ha <;> simp at ha
        next ht =>
        subst ha
        subst ht
        simp only [Loc.exc.injEq] at hl
        subst hl
        exact Or.inl ⟨i, id, rfl, hw⟩
      all_goals first
        | (simp at ha; done)
        | (simp at ha; subst ha; cases hl)
  | user q =>
    simp only [acc] at ha
    refine Or.inr ?_
    cases hpc : (s.prov q).pc <;> rw [hpc] at ha <;> simp only [userAcc] at ha
    case addRunning n =>
      simp at ha
      rcases ha with rfl | rfl <;> cases hl
    case addTasks n =>
      simp at ha
      rcases ha with rfl | ⟨i, _, rfl⟩ <;> cases hl
    case waitPred =>
      rcases List.mem_cons.mp ha with rfl | ha
      · cases hl
      · split at ha <;> simp at ha
        next hr =>
        rcases ha with rfl | rfl
        all_goals
          simp only [Loc.exc.injEq] at hl
          subst hl
          exact ⟨rfl, hpc, by simpa using hr, rfl⟩
    all_goals simp at ha
  | start q n => simp [acc] at ha; subst ha; cases hl
  | spurious i => simp [acc] at ha
  | spuriousUser q => simp [acc] at ha
  | clear => simp [acc] at ha; subst ha; cases hl
  | remove q => simp [acc] at ha; subst ha; cases hl
  | tellExit k => exact absurd trivial hn
  | popWorker => exact absurd trivial hn
  | joinAll => exact absurd trivial hn
  | grow k => exact absurd trivial hn

/-- All other objects: only read, or accessed with the mutex of the pool. -/
theorem acc_pool {s : State} {e : Ev} {a : Access} (ha : a ∈ acc s e) (hn : ¬ChangesThreads e) :
    (∀ i, a.loc = .exit i → a.write = false) ∧ (a.loc = .workers → a.write = false) ∧
    (∀ i, a.loc = .run i → a.lock = some .taskInfo) ∧ (a.loc = .task → a.lock = some .taskInfo) := by
  cases e with
  | worker i t =>
    simp only [acc] at ha
    cases hw : s.workers[i]? with
    | none => rw [hw] at ha; simp at ha
    | some w =>
      rw [hw] at ha
      simp only [Option.map_some, Option.getD_some] at ha
      cases w <;> simp only [workerAcc] at ha
      case fetch =>
        split at ha <;> simp at ha
        · rcases ha with rfl | rfl <;> simp
        · subst ha; simp
      case body q id =>
        split at ha <;> simp at ha
        subst ha; simp
      all_goals first
        | (simp at ha; done)
        | (simp at ha; subst ha; simp)
  | user q =>
    simp only [acc] at ha
    cases hpc : (s.prov q).pc <;> rw [hpc] at ha <;> simp only [userAcc] at ha
    case addRunning n =>
      simp at ha
      rcases ha with rfl | rfl <;> simp
    case addTasks n =>
      simp at ha
      rcases ha with rfl | ⟨i, _, rfl⟩ <;> simp
    case waitPred =>
      rcases List.mem_cons.mp ha with rfl | ha
      · simp
      · split at ha <;> simp at ha
        rcases ha with rfl | rfl <;> simp
    all_goals simp at ha
  | start q n => simp [acc] at ha; subst ha; simp
  | spurious i => simp [acc] at ha
  | spuriousUser q => simp [acc] at ha
  | clear => simp [acc] at ha; subst ha; simp
  | remove q => simp [acc] at ha; subst ha; simp
  | tellExit k => exact absurd trivial hn
  | popWorker => exact absurd trivial hn
  | joinAll => exact absurd trivial hn
  | grow k => exact absurd trivial hn

/-- While nobody waits for provider `p` no worker is about to report its end. -/
theorem no_fin_at_start {s s' : State} {p n i : Nat} (hp : PInv s p)
    (hs : step s (.start p n) = some s') : s.workers[i]? ≠ some (.fin p) := by
  intro hw
  have hc := count_pos_of_get hw
  unfold PInv at hp
  cases hpc : (s.prov p).pc <;> rw [hpc] at hp <;> simp only [PAt] at hp <;>
    simp only [step, hpc, reduceCtorEq] at hs
  case idle => have := (hp.1.quiet hp.2.2).2.2.2.2.1; omega
  case failed => have := hp.1.f; omega
  case returned ok => have := (hp.1.quiet hp.2.2.1).2.2.2.2.1; omega

/-- When the tasks of a provider are finished no worker is inside of one. -/
theorem no_body_at_end {s : State} {p i id : Nat} (hp : PInv s p)
    (hpc : (s.prov p).pc = .waitPred) (hr : (s.prov p).running = false) :
    s.workers[i]? ≠ some (.body p id) := by
  intro hw
  have hc := countP_pos_of_get (f := isBody p) hw (by simp [isBody])
  unfold PInv at hp
  rw [hpc] at hp
  simp only [PAt] at hp
  have := (hp.1.quiet hr).2.2.1
  omega

/-- C159: at every moment of every execution with providers used as in C42 the only data race
    between threads, none of which is about to change the number of threads, is that of two tasks
    of one provider which throw at the same time. -/
theorem C159_races_partial {w : Nat} {es : List Ev} {s : State} {e f : Ev}
    (h : Runs (State.init w) es s) (he : ¬ChangesThreads e) (hf : ¬ChangesThreads f)
    (hr : Race s e f) : BothThrow s e f := by
  obtain ⟨hinv, -⟩ := inv_runs h (inv_init w).1 (inv_init w).2
  obtain ⟨a, ha, b, hb, hl, hwr, hlock⟩ := hr.clash
  obtain ⟨a1, a2, a3, a4⟩ := acc_pool ha he
  obtain ⟨b1, b2, b3, b4⟩ := acc_pool hb hf
  cases hloc : a.loc with
  | exit i =>
    have hA := a1 i hloc
    have hB := b1 i (hl ▸ hloc)
    rw [hA, hB] at hwr
    rcases hwr with h | h <;> cases h
  | workers =>
    have hA := a2 hloc
    have hB := b2 (hl ▸ hloc)
    rw [hA, hB] at hwr
    rcases hwr with h | h <;> cases h
  | run i =>
    have hA := a3 i hloc
    have hB := b3 i (hl ▸ hloc)
    exact absurd ⟨by rw [hA]; simp, by rw [hA, hB]⟩ hlock
  | task =>
    have hA := a4 hloc
    have hB := b4 (hl ▸ hloc)
    exact absurd ⟨by rw [hA]; simp, by rw [hA, hB]⟩ hlock
  | running p =>
    exfalso
    have hne := hr.other
    obtain ⟨s1, hs1⟩ := Option.isSome_iff_exists.mp hr.fst
    obtain ⟨s2, hs2⟩ := Option.isSome_iff_exists.mp hr.snd
    rcases acc_running ha hloc he with ⟨i, t, rfl, hw, hA⟩ | ⟨rfl, hA⟩ | ⟨n, rfl, hA⟩ <;>
      rcases acc_running hb (hl ▸ hloc) hf with ⟨j, u, rfl, hw', hB⟩ | ⟨rfl, hB⟩ | ⟨m, rfl, hB⟩
    · exact hlock ⟨by rw [hA]; simp, by rw [hA, hB]⟩
    · exact hlock ⟨by rw [hA]; simp, by rw [hA, hB]⟩
    · exact no_fin_at_start (hinv p) hs2 hw
    · exact hlock ⟨by rw [hA]; simp, by rw [hA, hB]⟩
    · exact hlock ⟨by rw [hA]; simp, by rw [hA, hB]⟩
    · exact hne rfl
    · exact no_fin_at_start (hinv p) hs1 hw'
    · exact hne rfl
    · exact hne rfl
  | exc p =>
    have hne := hr.other
    rcases acc_exc ha hloc he with ⟨i, id, rfl, hw⟩ | ⟨rfl, hpc, hrun, hA⟩ <;>
      rcases acc_exc hb (hl ▸ hloc) hf with ⟨j, id', rfl, hw'⟩ | ⟨rfl, hpc', hrun', hB⟩
    · exact ⟨i, j, p, id, id', fun h => hne (by rw [h]), rfl, rfl, hw, hw'⟩
    · exact absurd hw (no_body_at_end (hinv p) hpc' hrun')
    · exact absurd hw' (no_body_at_end (hinv p) hpc hrun)
    · exact absurd rfl hne

/-- C159, exact: two tasks of one provider which throw at the same time are a data race, in every
    state. -/
theorem C159_throw_exact {s : State} {e f : Ev} (h : BothThrow s e f) : Race s e f := by
  obtain ⟨i, j, p, a, b, hne, rfl, rfl, hi, hj⟩ := h
  refine ⟨by simpa [Ev.actor] using hne, by simp [step, workerStep, hi],
    by simp [step, workerStep, hj], ⟨.exc p, true, none⟩, by simp [acc, hi, workerAcc],
    ⟨.exc p, true, none⟩, by simp [acc, hj, workerAcc], rfl, Or.inl rfl, by simp⟩

/-- C159, exact: a worker that is about to look at its `_exit` flag, and every worker does so
    before and after each task, races with `resize` to fewer threads and with `stop`, as soon as
    its flag is among those they set. -/
theorem C159_exit_exact {s : State} {i k : Nat} {t b : Bool}
    (hw : s.workers[i]? = some .top ∨ s.workers[i]? = some .woken) (he : s.exit[i]? = some b)
    (hk : k ≤ i) : Race s (.worker i t) (.tellExit k) := by
  have hlen : i < s.exit.length := (List.getElem?_eq_some_iff.mp he).1
  refine ⟨by simp [Ev.actor], ?_, by simp [step], ⟨.exit i, false, none⟩, ?_,
    ⟨.exit i, true, some .taskInfo⟩, ?_, rfl, Or.inr rfl, by simp⟩
  · rcases hw with hw | hw <;> cases b <;> simp [step, workerStep, hw, he]
  · rcases hw with hw | hw <;> simp [acc, hw, workerAcc]
  · simp [acc, hlen, hk]

/-- Two workers inside of the two tasks of provider 0. -/
def raceSched : List Ev :=
  [.start 0 2] ++ List.replicate 5 (.user 0) ++
  [.worker 0 false, .worker 0 false, .worker 0 false, .worker 0 false, .worker 0 false,
   .worker 1 false, .worker 1 false, .worker 1 false, .worker 1 false, .worker 1 false]

/-- C159 is false: both tasks of a provider throw at the same time. -/
theorem C159_throw_wrong :
    ∃ s, Runs (State.init 2) raceSched s ∧ Race s (.worker 0 true) (.worker 1 true) := by
  cases h : goodExec (State.init 2) raceSched with
  | none => exact absurd h (by decide)
  | some s =>
    refine ⟨s, goodExec_runs h, C159_throw_exact ⟨0, 1, 0, 0, 1, by decide, rfl, rfl, ?_, ?_⟩⟩
    · have : (goodExec (State.init 2) raceSched).bind (fun s => s.workers[0]?) = some (.body 0 0) := by
        decide
      rw [h] at this
      exact this
    · have : (goodExec (State.init 2) raceSched).bind (fun s => s.workers[1]?) = some (.body 0 1) := by
        decide
      rw [h] at this
      exact this

/-- C159 is false: a pool of one thread that is stopped at once. -/
theorem C159_stop_wrong : Race (State.init 1) (.worker 0 false) (.tellExit 0) :=
  C159_exit_exact (Or.inl rfl) rfl (Nat.le_refl 0)

/-- C159 is false: a provider asks for the number of threads while `resize` changes it. -/
theorem C159_count_wrong :
    ((goodExec (State.init 1) [.start 0 1, .user 0, .user 0, .user 0]).map fun s =>
      (acc s (.user 0)).any fun a => (acc s (.grow 2)).any fun b => decide (Conflict a b) &&
        (step s (.user 0)).isSome && (step s (.grow 2)).isSome) = some true := by decide

/-- The hypotheses of C159_races_partial are met by states in which several threads access the
    list of tasks and the flags: here worker 0 is about to take the task provider 0 has added
    while the user of provider 1 is about to add another one. -/
example : ((goodExec (State.init 1) ([.start 0 1] ++ List.replicate 5 (.user 0) ++ [.start 1 1] ++
      List.replicate 4 (.user 1) ++ [.worker 0 false, .worker 0 false, .worker 0 false])).map fun s =>
    (acc s (.worker 0 false), acc s (.user 1))) =
    some ([⟨.task, true, some .taskInfo⟩],
      [⟨.task, true, some .taskInfo⟩, ⟨.run 0, true, some .taskInfo⟩]) := by decide

end PV.Props
