import Verif.ProvLife
/-
  C158: providers that are copied, assigned or given another pool.
-/
namespace PV.Props
open PV PV.PL

/-- What the user of providers and pools has to keep to: objects are used during their life
    only; a provider is destroyed while it has no unfinished tasks and while its pool exists; a
    pool is destroyed while its list of tasks is empty.  Changing the pool of a provider, by
    `setThreadPool` or an assignment, is allowed at any time, so is copying it. -/
def PLegal (s : State) : Op → Prop
  | .newPool k _ => (s.pool k).alive = false
  | .endPool k => (s.pool k).alive = true ∧ (s.pool k).queue = []
  | .newProv p _ => (s.prov p).life = .absent
  | .copy p q => (s.prov p).life = .absent ∧ (s.prov q).life = .alive
  | .assign p q => (s.prov p).life = .alive ∧ (s.prov q).life = .alive
  | .setThreadPool p _ => (s.prov p).life = .alive
  | .run p _ => (s.prov p).life = .alive ∧ ∀ k, (s.prov p).pool = some k → (s.pool k).alive = true
  | .wait p => (s.prov p).life = .alive
  | .destroy p => (s.prov p).life = .alive ∧ (s.prov p).running = false ∧
      ∀ k, (s.prov p).pool = some k → (s.pool k).alive = true
  | .destroyed p => (s.prov p).life = .dying
  | .work _ _ => True

/-- The state after a step that returned or threw. -/
def PNext (s : State) (op : Op) (s' : State) : Prop :=
  step s op = some (.ok () s') ∨ step s op = some (.throw s')

/-- A history of steps that keep to `L`, with the bodies executed in it. -/
inductive PRuns (L : State → Op → Prop) : State → List (Nat × Nat) → State → Prop where
  | nil (s : State) : PRuns L s [] s
  | step {s s1 s2 : State} {op : Op} {tr : List (Nat × Nat)} :
      PRuns L s tr s1 → L s1 op → PNext s1 op s2 → PRuns L s (tr ++ bodies s1 op) s2

/-- Legal, and no new run of provider `p` is begun (while the run is unfinished `_run` is ignored). -/
def PSameRun (p : Nat) (s : State) (op : Op) : Prop :=
  PLegal s op ∧ ∀ m, op = .run p m → (s.prov p).running = true

/-- The ids of the executed bodies of provider `p`, in order. -/
def pIds (p : Nat) (tr : List (Nat × Nat)) : List Nat :=
  (tr.filter fun b => b.1 == p).map Prod.snd

/-- The invariant of one provider. -/
structure PI (s : State) (p : Nat) : Prop where
  run : (s.prov p).running = true →
    (s.prov p).life = .alive ∧ (s.prov p).completed = (s.prov p).given ∧
    (s.prov p).given < (s.prov p).taskCount ∧
    ∃ h, (s.pool h).alive = true ∧
      (s.pool h).queue.count p + (s.prov p).given = (s.prov p).taskCount ∧
      ∀ k, k ≠ h → p ∉ (s.pool k).queue
  idle : (s.prov p).running = false → ∀ k, p ∉ (s.pool k).queue

structure SI (s : State) : Prop where
  prov : ∀ p, PI s p
  dead : ∀ k, (s.pool k).alive = false → (s.pool k).queue = []

theorem SI.init : SI State.init :=
  ⟨fun _ => ⟨fun h => by simp [State.init] at h, fun _ _ => by simp [State.init]⟩,
    fun _ _ => rfl⟩

/-- Only one provider changes, and neither `running` of it nor a list. -/
theorem PI.setProv {s : State} {p q : Nat} {P : Prov} (h : PI s q)
    (hr : P.running = (s.prov p).running)
    (hl : (s.prov p).running = true → P.life = (s.prov p).life ∧ P.completed = (s.prov p).completed ∧
      P.given = (s.prov p).given ∧ P.taskCount = (s.prov p).taskCount) :
    PI (s.setProv p P) q := by
  by_cases hq : q = p
  · subst hq
    constructor
    · intro h1
      have h1 : P.running = true := by simpa [State.setProv] using h1
      rw [hr] at h1
      obtain ⟨e1, e2, e3, e4⟩ := hl h1
      have := h.run h1
      simpa [State.setProv, e1, e2, e3, e4] using this
    · intro h1
      have h1 : P.running = false := by simpa [State.setProv] using h1
      rw [hr] at h1
      exact h.idle h1
  · constructor
    · intro h1
      have h1 : (s.prov q).running = true := by simpa [State.setProv, hq] using h1
      have := h.run h1
      simpa [State.setProv, hq] using this
    · intro h1
      have h1 : (s.prov q).running = false := by simpa [State.setProv, hq] using h1
      exact h.idle h1

theorem SI.setProv {s : State} {p : Nat} {P : Prov} (h : SI s)
    (hr : P.running = (s.prov p).running)
    (hl : (s.prov p).running = true → P.life = (s.prov p).life ∧ P.completed = (s.prov p).completed ∧
      P.given = (s.prov p).given ∧ P.taskCount = (s.prov p).taskCount) :
    SI (s.setProv p P) :=
  ⟨fun q => (h.prov q).setProv hr hl, h.dead⟩

/-- Only a pool with an empty list changes, and its list stays empty. -/
theorem SI.setPool {s : State} {k : Nat} {K : Pool} (h : SI s) (h0 : (s.pool k).queue = [])
    (hK : K.queue = []) : SI (s.setPool k K) := by
  have hq : ∀ j, ((s.setPool k K).pool j).queue = (s.pool j).queue := by
    intro j
    by_cases hj : j = k
    · subst hj; simp [State.setPool, hK, h0]
    · simp [State.setPool, hj]
  constructor
  · intro p
    constructor
    · intro hr
      obtain ⟨a, b, c, j, ha, hc, hn⟩ := (h.prov p).run hr
      refine ⟨a, b, c, j, ?_, ?_, ?_⟩
      · by_cases hj : j = k
        · subst hj
          have hc' := hc
          rw [h0] at hc'
          simp at hc'
          have c' := c
          omega
        · simpa [State.setPool, hj] using ha
      · rw [hq]; exact hc
      · intro i hi; rw [hq]; exact hn i hi
    · intro hr i
      rw [hq]
      exact (h.prov p).idle hr i
  · intro j hj
    rw [hq]
    by_cases hjk : j = k
    · subst hjk; exact h0
    · exact h.dead j (by simpa [State.setPool, hjk] using hj)

/-- A provider that is not alive does not run. -/
theorem SI.notRunning {s : State} (h : SI s) {p : Nat} (hp : (s.prov p).life ≠ .alive) :
    (s.prov p).running = false := by
  cases hr : (s.prov p).running
  · rfl
  · exact absurd ((h.prov p).run hr).1 hp

/-- The state after `_run( n )` has been accepted. -/
def added (s : State) (p k n : Nat) : State :=
  (s.setProv p { s.prov p with taskCount := n, given := 0, completed := 0, running := true }).setPool k
    { s.pool k with queue := (s.pool k).queue ++ List.replicate n p }

/-- `_run` keeps the invariant. -/
theorem SI.addTasks {s : State} {p k n : Nat} (h : SI s) (hp : (s.prov p).life = .alive)
    (hr : (s.prov p).running = false) (hn : 0 < n) (hk : (s.pool k).alive = true) :
    SI (added s p k n) := by
  unfold added
  constructor
  · intro q
    by_cases hq : q = p
    · subst hq
      constructor
      · intro _
        refine ⟨by simp [State.setPool, State.setProv, hp], by simp [State.setPool, State.setProv],
          by simpa [State.setPool, State.setProv] using hn, k, by simp [State.setPool, hk], ?_, ?_⟩
        · have := (h.prov q).idle hr k
          simp [State.setPool, State.setProv, List.count_eq_zero_of_not_mem this]
        · intro j hj
          simpa [State.setPool, State.setProv, hj] using (h.prov q).idle hr j
      · intro h1
        simp [State.setPool, State.setProv] at h1
    · have hmem : ∀ j, ((added s p k n).pool j).queue.count q = (s.pool j).queue.count q := by
        intro j
        unfold added
        by_cases hj : j = k
        · subst hj
          simp [State.setPool, List.count_replicate, Ne.symm hq]
        · simp [State.setPool, State.setProv, hj]
      constructor
      · intro h1
        have h1 : (s.prov q).running = true := by
          simpa [State.setPool, State.setProv, hq] using h1
        obtain ⟨a, b, c, j, ha, hc, hx⟩ := (h.prov q).run h1
        refine ⟨by simpa [State.setPool, State.setProv, hq] using a,
          by simpa [State.setPool, State.setProv, hq] using b,
          by simpa [State.setPool, State.setProv, hq] using c, j, ?_, ?_, ?_⟩
        · by_cases hj : j = k
          · subst hj; simp [State.setPool, hk]
          · simpa [State.setPool, State.setProv, hj] using ha
        · refine (congrArg (· + _) (hmem j)).trans ?_
          simpa [State.setPool, State.setProv, hq] using hc
        · intro i hi
          exact List.count_eq_zero.mp ((hmem i).trans (List.count_eq_zero.mpr (hx i hi)))
      · intro h1
        have h1 : (s.prov q).running = false := by
          simpa [State.setPool, State.setProv, hq] using h1
        intro i
        exact List.count_eq_zero.mp ((hmem i).trans
          (List.count_eq_zero.mpr ((h.prov q).idle h1 i)))
  · intro j hj
    by_cases hjk : j = k
    · subst hjk
      simp [State.setPool, hk] at hj
    · have hj' : (s.pool j).alive = false := by simpa [State.setPool, State.setProv, hjk] using hj
      simpa [State.setPool, State.setProv, hjk] using h.dead j hj'

/-- The state after a worker has executed the first task of pool `k`, that of provider `p`. -/
def worked (s : State) (k p : Nat) (l : List Nat) (throws : Bool) : State :=
  (s.setPool k { s.pool k with queue := l }).setProv p
    { s.prov p with
      given := (s.prov p).given + 1
      completed := (s.prov p).completed + 1
      exc := (s.prov p).exc || throws
      running := (s.prov p).running && !((s.prov p).completed + 1 == (s.prov p).taskCount) }

/-- The first entry of a list belongs to a living provider with an unfinished run. -/
theorem SI.head {s : State} (h : SI s) {k p : Nat} {l : List Nat} (hq : (s.pool k).queue = p :: l) :
    (s.prov p).running = true := by
  cases hr : (s.prov p).running
  · exact absurd (by rw [hq]; simp) ((h.prov p).idle hr k)
  · rfl

theorem SI.work_eq {s : State} (h : SI s) {k p : Nat} {l : List Nat} {t : Bool}
    (hq : (s.pool k).queue = p :: l) (hk : (s.pool k).alive = true)
    (ht : 0 < (s.pool k).threads) :
    step s (.work k t) = some (.ok () (worked s k p l t)) := by
  obtain ⟨a, b, c, -⟩ := (h.prov p).run (h.head hq)
  have e : step s (.work k t) =
      some (taskRun (s.setPool k { s.pool k with queue := l }) p t) := by
    show (if (s.pool k).alive = true ∧ 0 < (s.pool k).threads then _ else _) = _
    rw [if_pos ⟨hk, ht⟩, hq]
  rw [e]
  generalize hs : s.setPool k { s.pool k with queue := l } = s1
  have e1 : s1.prov p = s.prov p := by rw [← hs]; rfl
  simp only [taskRun, e1, a, c, if_true]
  simp [Props.worked, hs, a]

theorem SI.worked {s : State} (h : SI s) {k p : Nat} {l : List Nat} {t : Bool}
    (hq : (s.pool k).queue = p :: l) : SI (worked s k p l t) := by
  have hr := h.head hq
  obtain ⟨a, b, c, j, ha, hc, hx⟩ := (h.prov p).run hr
  have hjk : j = k := by
    refine Classical.byContradiction fun hne => ?_
    exact hx k (Ne.symm hne) (by rw [hq]; simp)
  subst hjk
  rw [hq] at hc
  simp only [List.count_cons_self] at hc
  have hpool : ∀ i, ((Props.worked s j p l t).pool i).queue = if i = j then l else (s.pool i).queue := by
    intro i
    by_cases hi : i = j
    · simp [Props.worked, State.setPool, State.setProv, hi]
    · simp [Props.worked, State.setPool, State.setProv, hi]
  have halive : ∀ i, ((Props.worked s j p l t).pool i).alive = (s.pool i).alive := by
    intro i
    by_cases hi : i = j
    · subst hi; simp [Props.worked, State.setPool, State.setProv]
    · simp [Props.worked, State.setPool, State.setProv, hi]
  have hother : ∀ q, q ≠ p → (Props.worked s j p l t).prov q = s.prov q := by
    intro q hqp
    simp [Props.worked, State.setPool, State.setProv, hqp]
  have hself : (Props.worked s j p l t).prov p =
      { s.prov p with
        given := (s.prov p).given + 1
        completed := (s.prov p).completed + 1
        exc := (s.prov p).exc || t
        running := (s.prov p).running && !((s.prov p).completed + 1 == (s.prov p).taskCount) } := by
    simp [Props.worked, State.setProv]
  constructor
  · intro q
    by_cases hqp : q = p
    · subst hqp
      constructor
      · intro h1
        rw [hself] at h1
        simp only [hr, Bool.true_and, Bool.not_eq_true', beq_eq_false_iff_ne] at h1
        rw [hself]
        refine ⟨a, by simp [b], ?_, j, by rw [halive]; exact ha, ?_, ?_⟩
        · show (s.prov q).given + 1 < (s.prov q).taskCount
          omega
        · rw [hpool, if_pos rfl]
          show l.count q + ((s.prov q).given + 1) = (s.prov q).taskCount
          omega
        · intro i hi
          rw [hpool, if_neg hi]
          exact hx i hi
      · intro h1
        rw [hself] at h1
        simp only [hr, Bool.true_and, Bool.not_eq_false', beq_iff_eq] at h1
        intro i
        rw [hpool]
        split
        · rw [← List.count_eq_zero]; omega
        · next hi => exact hx i hi
    · have hcount : ∀ i, ((Props.worked s j p l t).pool i).queue.count q = (s.pool i).queue.count q := by
        intro i
        rw [hpool]
        split
        · next hi =>
          subst hi
          rw [hq, List.count_cons_of_ne (Ne.symm hqp)]
        · rfl
      constructor
      · intro h1
        rw [hother q hqp] at h1 ⊢
        obtain ⟨a', b', c', i, ha', hc', hx'⟩ := (h.prov q).run h1
        refine ⟨a', b', c', i, by rw [halive]; exact ha', by rw [hcount]; exact hc', ?_⟩
        intro m hm
        rw [← List.count_eq_zero, hcount, List.count_eq_zero]
        exact hx' m hm
      · intro h1 i
        rw [hother q hqp] at h1
        rw [← List.count_eq_zero, hcount, List.count_eq_zero]
        exact (h.prov q).idle h1 i
  · intro i hi
    rw [halive] at hi
    rw [hpool]
    split
    · next h' => subst h'; rw [ha] at hi; cases hi
    · exact h.dead i hi

/-- Every legal step keeps the invariant. -/
theorem SI.next {s s' : State} {op : Op} (h : SI s) (hl : PLegal s op) (hs : PNext s op s') :
    SI s' := by
  cases op with
  | newPool k n =>
    have hl : (s.pool k).alive = false := hl
    simp only [PNext, step, hl, Bool.false_eq_true, if_false, Option.some.injEq, Res.ok.injEq,
      true_and, reduceCtorEq, or_false] at hs
    subst hs
    exact h.setPool (h.dead k hl) rfl
  | endPool k =>
    obtain ⟨h1, h2⟩ := hl
    simp only [PNext, step, h1, if_true, clear, h2, List.not_mem_nil, false_imp_iff,
      implies_true, Option.some.injEq, Res.ok.injEq, true_and, reduceCtorEq, or_false] at hs
    subst hs
    exact h.setPool h2 rfl
  | newProv p k =>
    have hl : (s.prov p).life = .absent := hl
    simp only [PNext, step, hl, if_true, Option.some.injEq, Res.ok.injEq,
      true_and, reduceCtorEq, or_false] at hs
    subst hs
    have hr := h.notRunning (p := p) (by rw [hl]; decide)
    exact h.setProv (by rw [hr]; rfl) (by rw [hr]; intro h; cases h)
  | copy p q =>
    obtain ⟨h1, h2⟩ := hl
    simp only [PNext, step, h1, h2, and_self, if_true, Option.some.injEq, Res.ok.injEq,
      true_and, reduceCtorEq, or_false] at hs
    subst hs
    have hr := h.notRunning (p := p) (by rw [h1]; decide)
    exact h.setProv (by rw [hr]; rfl) (by rw [hr]; intro h; cases h)
  | assign p q =>
    obtain ⟨h1, h2⟩ := hl
    simp only [PNext, step, h1, h2, and_self, if_true, Option.some.injEq, Res.ok.injEq,
      true_and, reduceCtorEq, or_false] at hs
    subst hs
    split
    · exact h
    · exact h.setProv rfl fun _ => ⟨h1.symm ▸ rfl, rfl, rfl, rfl⟩
  | setThreadPool p k =>
    have hl : (s.prov p).life = .alive := hl
    simp only [PNext, step, hl, if_true, Option.some.injEq, Res.ok.injEq,
      true_and, reduceCtorEq, or_false] at hs
    subst hs
    exact h.setProv rfl fun _ => ⟨hl.symm ▸ rfl, rfl, rfl, rfl⟩
  | run p n =>
    obtain ⟨h1, h2⟩ := hl
    simp only [PNext, step, h1, if_true, Option.some.injEq, run] at hs
    cases hk : (s.prov p).pool with
    | none =>
      simp only [hk, Res.ok.injEq, true_and, reduceCtorEq, or_false] at hs
      subst hs
      exact h
    | some k =>
      have ha := h2 k hk
      simp only [hk, ha, if_true] at hs
      by_cases hr : (s.prov p).running = false ∧ 0 < n
      · simp only [hr, and_self, if_true] at hs
        by_cases ht : (s.pool k).threads = 0
        · simp only [ht, if_true, reduceCtorEq, Res.throw.injEq, false_or] at hs
          subst hs
          exact h.setProv (by rw [hr.1]) (by rw [hr.1]; intro h; cases h)
        · simp only [ht, if_false, Res.ok.injEq, true_and, reduceCtorEq, or_false] at hs
          subst hs
          have := h.addTasks h1 hr.1 hr.2 ha
          simpa [added, h1, hk, ha] using this
      · simp only [hr, if_false, Res.ok.injEq, true_and, reduceCtorEq, or_false] at hs
        subst hs
        exact h
  | wait p =>
    have hl : (s.prov p).life = .alive := hl
    cases hr : (s.prov p).running with
    | true => simp [PNext, step, hl, hr] at hs
    | false =>
      simp only [PNext, step, hl, hr, if_true, Bool.false_eq_true, if_false, Option.some.injEq,
        Res.ok.injEq, true_and, reduceCtorEq, or_false] at hs
      subst hs
      exact h.setProv (by rw [hr]) (by rw [hr]; intro h; cases h)
  | destroy p =>
    obtain ⟨h1, h2, h3⟩ := hl
    cases hk : (s.prov p).pool with
    | none =>
      simp only [PNext, step, h1, if_true, hk, Option.some.injEq, Res.ok.injEq, true_and,
        reduceCtorEq, or_false] at hs
      subst hs
      exact h.setProv rfl (by rw [h2]; intro h; cases h)
    | some k =>
      have ha := h3 k hk
      have hf : ((s.pool k).queue.filter fun q => q != p) = (s.pool k).queue := by
        rw [List.filter_eq_self]
        intro a haq
        have := (h.prov p).idle h2 k
        simp only [bne_iff_ne, ne_eq]
        rintro rfl
        exact this haq
      simp only [PNext, step, h1, if_true, hk, ha, hf, Option.some.injEq, Res.ok.injEq, true_and,
        reduceCtorEq, or_false] at hs
      have h' : SI (s.setProv p { s.prov p with life := .dying }) :=
        h.setProv rfl (by rw [h2]; intro h; cases h)
      have e : s' = s.setProv p { s.prov p with life := .dying } := by
        rw [← hs]
        simp only [State.setPool, State.setProv]
        rw [State.mk.injEq]
        refine ⟨by rw [hk], ?_⟩
        funext j
        split
        · next hj => subst hj; rw [← ha]
        · rfl
      rw [e]
      exact h'
  | destroyed p =>
    have hl : (s.prov p).life = .dying := hl
    have hr := h.notRunning (p := p) (by rw [hl]; decide)
    simp only [PNext, step, hl, hr, if_true, Bool.false_eq_true, if_false, Option.some.injEq,
      Res.ok.injEq, true_and, reduceCtorEq, or_false] at hs
    subst hs
    exact h.setProv (by rw [hr]) (by rw [hr]; intro h; cases h)
  | work k t =>
    by_cases hk : (s.pool k).alive = true ∧ 0 < (s.pool k).threads
    · cases hq : (s.pool k).queue with
      | nil => simp [PNext, step, hk, hq] at hs
      | cons p l =>
        rw [PNext, h.work_eq hq hk.1 hk.2] at hs
        simp only [Option.some.injEq, Res.ok.injEq, true_and, reduceCtorEq, or_false] at hs
        subst hs
        exact h.worked hq
    · simp [PNext, step, hk] at hs

theorem SI.runs {s s' : State} {tr : List (Nat × Nat)} (h : SI s) (hr : PRuns PLegal s tr s') :
    SI s' := by
  induction hr with
  | nil => exact h
  | step _ hl hs ih => exact ih.next hl hs

/-- What a run of `n` tasks of provider `p` has done so far. -/
def PDone (s : State) (p n : Nat) (ids : List Nat) : Prop :=
  if (s.prov p).running then (s.prov p).taskCount = n ∧ ids = List.range (s.prov p).given
  else ids = List.range n

/-- Steps that execute nothing and do not touch the run of `p`. -/
theorem PDone.same {s s' : State} {p n : Nat} {ids : List Nat} (h : PDone s p n ids)
    (hr : (s'.prov p).running = (s.prov p).running)
    (hc : (s.prov p).running = true →
      (s'.prov p).taskCount = (s.prov p).taskCount ∧ (s'.prov p).given = (s.prov p).given) :
    PDone s' p n ids := by
  unfold PDone at *
  rw [hr]
  split
  · next hx =>
    rw [if_pos hx] at h
    rw [(hc hx).1, (hc hx).2]
    exact h
  · next hx =>
    rw [if_neg hx] at h
    exact h

theorem PDone.setProv {s : State} {p q n : Nat} {ids : List Nat} {P : Prov} (h : PDone s p n ids)
    (hr : P.running = (s.prov q).running)
    (hc : (s.prov q).running = true → P.taskCount = (s.prov q).taskCount ∧ P.given = (s.prov q).given) :
    PDone (s.setProv q P) p n ids := by
  by_cases hp : p = q
  · subst hp
    exact h.same (by simp [State.setProv, hr]) (by intro hx; simpa [State.setProv] using hc hx)
  · exact h.same (by simp [State.setProv, hp]) (by intro _; simp [State.setProv, hp])

/-- Every step of the same run. -/
theorem PDone.next {s s' : State} {op : Op} {p n : Nat} {ids : List Nat} (h : SI s)
    (hd : PDone s p n ids) (hl : PSameRun p s op) (hs : PNext s op s') :
    PDone s' p n (ids ++ pIds p (bodies s op)) := by
  obtain ⟨hl, hrun⟩ := hl
  cases op with
  | newPool k m =>
    have hl : (s.pool k).alive = false := hl
    simp only [PNext, step, hl, Bool.false_eq_true, if_false, Option.some.injEq, Res.ok.injEq,
      true_and, reduceCtorEq, or_false] at hs
    subst hs
    have e : pIds p (bodies s (.newPool k m)) = [] := rfl
    rw [e, List.append_nil]
    exact hd.same rfl fun _ => ⟨rfl, rfl⟩
  | endPool k =>
    obtain ⟨h1, h2⟩ := hl
    simp only [PNext, step, h1, if_true, clear, h2, List.not_mem_nil, false_imp_iff,
      implies_true, Option.some.injEq, Res.ok.injEq, true_and, reduceCtorEq, or_false] at hs
    subst hs
    have e : pIds p (bodies s (.endPool k)) = [] := by simp [bodies, pIds, h2]
    rw [e, List.append_nil]
    exact hd.same rfl fun _ => ⟨rfl, rfl⟩
  | newProv q k =>
    have hl : (s.prov q).life = .absent := hl
    simp only [PNext, step, hl, if_true, Option.some.injEq, Res.ok.injEq,
      true_and, reduceCtorEq, or_false] at hs
    subst hs
    have hr := h.notRunning (p := q) (by rw [hl]; decide)
    simpa [bodies, pIds] using hd.setProv (P := fresh k) (by rw [hr]; rfl) (by rw [hr]; intro h; cases h)
  | copy q q' =>
    obtain ⟨h1, h2⟩ := hl
    simp only [PNext, step, h1, h2, and_self, if_true, Option.some.injEq, Res.ok.injEq,
      true_and, reduceCtorEq, or_false] at hs
    subst hs
    have hr := h.notRunning (p := q) (by rw [h1]; decide)
    simpa [bodies, pIds] using
      hd.setProv (P := fresh (s.prov q').pool) (by rw [hr]; rfl) (by rw [hr]; intro h; cases h)
  | assign q q' =>
    obtain ⟨h1, h2⟩ := hl
    simp only [PNext, step, h1, h2, and_self, if_true, Option.some.injEq, Res.ok.injEq,
      true_and, reduceCtorEq, or_false] at hs
    subst hs
    have e : pIds p (bodies s (.assign q q')) = [] := rfl
    rw [e, List.append_nil]
    split
    · exact hd
    · exact hd.setProv rfl fun _ => ⟨rfl, rfl⟩
  | setThreadPool q k =>
    have hl : (s.prov q).life = .alive := hl
    simp only [PNext, step, hl, if_true, Option.some.injEq, Res.ok.injEq,
      true_and, reduceCtorEq, or_false] at hs
    subst hs
    have e : pIds p (bodies s (.setThreadPool q k)) = [] := rfl
    rw [e, List.append_nil]
    exact hd.setProv rfl fun _ => ⟨rfl, rfl⟩
  | run q m =>
    obtain ⟨h1, h2⟩ := hl
    have e : pIds p (bodies s (.run q m)) = [] := rfl
    rw [e, List.append_nil]
    simp only [PNext, step, h1, if_true, Option.some.injEq, run] at hs
    cases hk : (s.prov q).pool with
    | none =>
      simp only [hk, Res.ok.injEq, true_and, reduceCtorEq, or_false] at hs
      subst hs
      exact hd
    | some k =>
      have ha := h2 k hk
      simp only [hk, ha, if_true] at hs
      by_cases hr : (s.prov q).running = false ∧ 0 < m
      · have hqp : p ≠ q := by
          rintro rfl
          have := hrun m rfl
          rw [hr.1] at this
          cases this
        simp only [hr, and_self, if_true] at hs
        by_cases ht : (s.pool k).threads = 0
        · simp only [ht, if_true, reduceCtorEq, Res.throw.injEq, false_or] at hs
          subst hs
          exact hd.setProv (by rw [hr.1]) (by rw [hr.1]; intro h; cases h)
        · simp only [ht, if_false, Res.ok.injEq, true_and, reduceCtorEq, or_false] at hs
          subst hs
          exact hd.same (by simp [State.setPool, State.setProv, hqp])
            (by intro _; simp [State.setPool, State.setProv, hqp])
      · simp only [hr, if_false, Res.ok.injEq, true_and, reduceCtorEq, or_false] at hs
        subst hs
        exact hd
  | wait q =>
    have hl : (s.prov q).life = .alive := hl
    have e : pIds p (bodies s (.wait q)) = [] := rfl
    rw [e, List.append_nil]
    cases hr : (s.prov q).running with
    | true => simp [PNext, step, hl, hr] at hs
    | false =>
      simp only [PNext, step, hl, hr, if_true, Bool.false_eq_true, if_false, Option.some.injEq,
        Res.ok.injEq, true_and, reduceCtorEq, or_false] at hs
      subst hs
      exact hd.setProv (by rw [hr]) (by rw [hr]; intro h; cases h)
  | destroy q =>
    obtain ⟨h1, h2, h3⟩ := hl
    have e : pIds p (bodies s (.destroy q)) = [] := rfl
    rw [e, List.append_nil]
    cases hk : (s.prov q).pool with
    | none =>
      simp only [PNext, step, h1, if_true, hk, Option.some.injEq, Res.ok.injEq, true_and,
        reduceCtorEq, or_false] at hs
      subst hs
      exact hd.setProv rfl (by rw [h2]; intro h; cases h)
    | some k =>
      simp only [PNext, step, h1, if_true, hk, h3 k hk, Option.some.injEq, Res.ok.injEq, true_and,
        reduceCtorEq, or_false] at hs
      subst hs
      have := hd.setProv (q := q) (P := { s.prov q with life := .dying }) rfl
        (by rw [h2]; intro h; cases h)
      refine this.same ?_ ?_
      · by_cases hp : p = q
        · simp [State.setPool, State.setProv, hp]
        · simp [State.setPool, State.setProv, hp]
      · intro _
        by_cases hp : p = q
        · simp [State.setPool, State.setProv, hp]
        · simp [State.setPool, State.setProv, hp]
  | destroyed q =>
    have hl : (s.prov q).life = .dying := hl
    have hr := h.notRunning (p := q) (by rw [hl]; decide)
    have e : pIds p (bodies s (.destroyed q)) = [] := rfl
    rw [e, List.append_nil]
    simp only [PNext, step, hl, hr, if_true, Bool.false_eq_true, if_false, Option.some.injEq,
      Res.ok.injEq, true_and, reduceCtorEq, or_false] at hs
    subst hs
    exact hd.setProv (by rw [hr]) (by rw [hr]; intro h; cases h)
  | work k t =>
    by_cases hk : (s.pool k).alive = true ∧ 0 < (s.pool k).threads
    · cases hq : (s.pool k).queue with
      | nil => simp [PNext, step, hk, hq] at hs
      | cons q l =>
        rw [PNext, h.work_eq hq hk.1 hk.2] at hs
        simp only [Option.some.injEq, Res.ok.injEq, true_and, reduceCtorEq, or_false] at hs
        subst hs
        have hr := h.head hq
        obtain ⟨a, b, c, -⟩ := (h.prov q).run hr
        have e : bodies s (.work k t) = [(q, (s.prov q).given)] := by
          simp [bodies, hk, hq, c]
        rw [e]
        by_cases hp : p = q
        · subst hp
          have e1 : pIds p [(p, (s.prov p).given)] = [(s.prov p).given] := by simp [pIds]
          unfold PDone at hd
          rw [if_pos hr] at hd
          rw [e1, hd.2, ← List.range_succ]
          have ep : (Props.worked s k p l t).prov p =
            { s.prov p with
              given := (s.prov p).given + 1
              completed := (s.prov p).completed + 1
              exc := (s.prov p).exc || t
              running := (s.prov p).running && !((s.prov p).completed + 1 == (s.prov p).taskCount) } := by
            simp [Props.worked, State.setProv]
          unfold PDone
          rw [ep]
          by_cases hx : (s.prov p).completed + 1 = (s.prov p).taskCount
          · have : (s.prov p).given + 1 = n := by rw [← hd.1]; omega
            simp [hx, this]
          · have hx' : ((s.prov p).completed + 1 == (s.prov p).taskCount) = false := by simpa using hx
            simp only [hx', hr, Bool.not_false, Bool.and_self, if_true]
            exact ⟨hd.1, trivial⟩
        · have e1 : pIds p [(q, (s.prov q).given)] = [] := by
            simp [pIds, Ne.symm hp]
          rw [e1, List.append_nil]
          exact hd.same (by simp [Props.worked, State.setPool, State.setProv, hp])
            (by intro _; simp [Props.worked, State.setPool, State.setProv, hp])
    · simp [PNext, step, hk] at hs

theorem pIds_append (p : Nat) (a b : List (Nat × Nat)) : pIds p (a ++ b) = pIds p a ++ pIds p b := by
  simp [pIds]

theorem PDone.runs {s s' : State} {tr : List (Nat × Nat)} {p n : Nat} (h : SI s)
    (hd : PDone s p n []) (hr : PRuns (PSameRun p) s tr s') : SI s' ∧ PDone s' p n (pIds p tr) := by
  induction hr with
  | nil => exact ⟨h, hd⟩
  | step _ hl hs ih =>
    refine ⟨ih.1.next hl.1 hs, ?_⟩
    rw [pIds_append]
    exact PDone.next ih.1 ih.2 hl hs

/-- C158: in a history in which every provider is destroyed after its tasks are finished and
    while its pool exists, and every pool while it holds no tasks, nothing undefined happens,
    however providers are copied, assigned and moved to other pools in between: in particular no
    worker ever touches a provider that does not exist or is being destroyed. -/
theorem C158_defined_partial {s : State} {tr : List (Nat × Nat)} {op : Op}
    (h : PRuns PLegal State.init tr s) (hl : PLegal s op) : step s op ≠ some .ub := by
  have hi := SI.init.runs h
  cases op with
  | newPool k m =>
    have hl : (s.pool k).alive = false := hl
    simp [step, hl]
  | endPool k =>
    obtain ⟨h1, h2⟩ := hl
    simp [step, h1, h2, clear]
  | newProv q k =>
    have hl : (s.prov q).life = .absent := hl
    simp [step, hl]
  | copy q q' =>
    obtain ⟨h1, h2⟩ := hl
    simp [step, h1, h2]
  | assign q q' =>
    obtain ⟨h1, h2⟩ := hl
    simp [step, h1, h2]
  | setThreadPool q k =>
    have hl : (s.prov q).life = .alive := hl
    simp [step, hl]
  | run q m =>
    obtain ⟨h1, h2⟩ := hl
    cases hk : (s.prov q).pool with
    | none => simp [step, h1, run, hk]
    | some k =>
      simp only [step, h1, if_true, run, hk, h2 k hk]
      split
      · split <;> simp
      · simp
  | wait q =>
    have hl : (s.prov q).life = .alive := hl
    simp only [step, hl, if_true]
    split <;> simp
  | destroy q =>
    obtain ⟨h1, h2, h3⟩ := hl
    cases hk : (s.prov q).pool with
    | none => simp [step, h1, hk]
    | some k => simp [step, h1, hk, h3 k hk]
  | destroyed q =>
    have hl : (s.prov q).life = .dying := hl
    simp only [step, hl, if_true]
    split <;> simp
  | work k t =>
    by_cases hk : (s.pool k).alive = true ∧ 0 < (s.pool k).threads
    · cases hq : (s.pool k).queue with
      | nil => simp [step, hk, hq]
      | cons q l => rw [hi.work_eq hq hk.1 hk.2]; simp
    · simp [step, hk]

/-- C158: the tasks of an accepted `_run( n )` are executed exactly once each, also if the provider
    is given another pool, assigned to or copied meanwhile: when the run has ended the executed
    bodies are those of 0, ..., n-1, before that they are the first ones of them. -/
theorem C158_exactly_once_partial {s0 s1 s2 : State} {tr0 tr : List (Nat × Nat)} {p n k : Nat}
    (h : PRuns PLegal State.init tr0 s0) (hp : (s0.prov p).life = .alive)
    (hr : (s0.prov p).running = false) (hn : 0 < n) (hk : (s0.prov p).pool = some k)
    (hs : step s0 (.run p n) = some (.ok () s1)) (h2 : PRuns (PSameRun p) s1 tr s2) :
    ((s2.prov p).running = false → pIds p tr = List.range n) ∧
    ((s2.prov p).running = true → ∃ m, m < n ∧ pIds p tr = List.range m) := by
  have hi := SI.init.runs h
  have hx := hs
  simp only [step, hp, if_true, run, hk, hr, hn, and_self] at hx
  have ha : (s0.pool k).alive = true := by
    cases e : (s0.pool k).alive
    · simp [e] at hx
    · rfl
  have hl : PLegal s0 (.run p n) := ⟨hp, fun j hj => by
    rw [hk] at hj; cases hj; exact ha⟩
  have hi1 := hi.next hl (Or.inl hs)
  have ht : (s0.pool k).threads ≠ 0 := by
    intro e
    simp [ha, e] at hx
  simp only [ha, if_true, ht, if_false, Option.some.injEq, Res.ok.injEq, true_and] at hx
  have hd : PDone s1 p n [] := by
    subst hx
    simp [PDone, State.setPool, State.setProv]
  obtain ⟨hi2, hd2⟩ := PDone.runs hi1 hd h2
  unfold PDone at hd2
  constructor
  · intro hr2
    rw [hr2] at hd2
    simpa using hd2
  · intro hr2
    rw [if_pos hr2] at hd2
    obtain ⟨-, -, c, -⟩ := (hi2.prov p).run hr2
    exact ⟨_, hd2.1 ▸ c, hd2.2⟩

/-- C158: an unfinished run is never lost: some existing pool holds tasks of it. -/
theorem C158_not_lost_partial {s : State} {tr : List (Nat × Nat)} {p : Nat}
    (h : PRuns PLegal State.init tr s) (hr : (s.prov p).running = true) :
    ∃ k, (s.pool k).alive = true ∧ p ∈ (s.pool k).queue := by
  obtain ⟨-, -, c, k, ha, hc, -⟩ := ((SI.init.runs h).prov p).run hr
  exact ⟨k, ha, List.count_pos_iff.mp (by omega)⟩

/-- `m` tasks executed by the workers of pool `k`. -/
def workN (k : Nat) : Nat → State → Option State
  | 0, s => some s
  | m + 1, s =>
    match step s (.work k false) with
    | some (.ok () s') => workN k m s'
    | _ => none

theorem workN_ok {k : Nat} : ∀ (m : Nat) (s : State), SI s → (s.pool k).alive = true →
    0 < (s.pool k).threads → (s.pool k).queue.length = m →
    ∃ s', workN k m s = some s' ∧ SI s' ∧ (s'.pool k).queue = [] ∧ ∀ j, j ≠ k → s'.pool j = s.pool j
  | 0, s, hi, _, _, hm => ⟨s, rfl, hi, List.length_eq_zero_iff.mp hm, fun _ _ => rfl⟩
  | m + 1, s, hi, ha, ht, hm => by
    cases hq : (s.pool k).queue with
    | nil => rw [hq] at hm; cases hm
    | cons p l =>
      rw [hq] at hm
      have e := hi.work_eq (t := false) hq ha ht
      have ep : ∀ j, j ≠ k → (Props.worked s k p l false).pool j = s.pool j := by
        intro j hj
        simp [Props.worked, State.setPool, State.setProv, hj]
      have ek : (Props.worked s k p l false).pool k = { s.pool k with queue := l } := by
        simp [Props.worked, State.setPool, State.setProv]
      obtain ⟨s', h1, h2, h3, h4⟩ := workN_ok m (Props.worked s k p l false) (hi.worked hq)
        (by rw [ek]; exact ha) (by rw [ek]; exact ht) (by rw [ek]; simpa using hm)
      refine ⟨s', ?_, h2, h3, fun j hj => (h4 j hj).trans (ep j hj)⟩
      show (match step s (.work k false) with
        | some (.ok () s') => workN k m s'
        | _ => none) = _
      rw [e]
      exact h1

/-- C158: the workers of the pool that holds tasks of a provider, if it has any, end the run,
    whatever pool the provider has been given since; then waiting for it returns. -/
theorem C158_returns_partial {s : State} {tr : List (Nat × Nat)} {p k : Nat}
    (h : PRuns PLegal State.init tr s) (hp : p ∈ (s.pool k).queue) (ht : 0 < (s.pool k).threads) :
    ∃ s', workN k (s.pool k).queue.length s = some s' ∧ (s'.prov p).running = false := by
  have hi := SI.init.runs h
  have hr : (s.prov p).running = true := by
    cases hr : (s.prov p).running
    · exact absurd hp ((hi.prov p).idle hr k)
    · rfl
  obtain ⟨-, -, c, j, ha, hc, hx⟩ := (hi.prov p).run hr
  have hjk : j = k := Classical.byContradiction fun hne => hx k (Ne.symm hne) hp
  subst hjk
  obtain ⟨s', h1, h2, h3, h4⟩ := workN_ok _ s hi ha ht rfl
  refine ⟨s', h1, ?_⟩
  cases hr' : (s'.prov p).running
  · rfl
  · obtain ⟨-, -, c', i, ha', hc', hx'⟩ := (h2.prov p).run hr'
    exfalso
    by_cases hij : i = j
    · subst hij
      rw [h3] at hc'
      simp at hc'
      omega
    · have : p ∈ (s'.pool i).queue := List.count_pos_iff.mp (by omega)
      rw [h4 i hij] at this
      exact hx i hij this

/-- C158: a copy has the pool of the original and no tasks, and making it changes nothing else;
    an assignment takes over the pool and nothing else. -/
theorem C158_copy {s : State} {p q : Nat} (hp : (s.prov p).life = .absent)
    (hq : (s.prov q).life = .alive) :
    ∃ s', step s (.copy p q) = some (.ok () s') ∧ (s'.prov p).pool = (s.prov q).pool ∧
      (s'.prov p).running = false ∧ (s'.prov p).taskCount = 0 ∧ (s'.prov p).exc = false ∧
      (∀ r, r ≠ p → s'.prov r = s.prov r) ∧ s'.pool = s.pool :=
  ⟨s.setProv p (fresh (s.prov q).pool), by simp [step, hp, hq], by simp [State.setProv, fresh],
    by simp [State.setProv, fresh], by simp [State.setProv, fresh], by simp [State.setProv, fresh],
    fun r hr => by simp [State.setProv, hr], rfl⟩

theorem C158_assign {s : State} {p q : Nat} (hp : (s.prov p).life = .alive)
    (hq : (s.prov q).life = .alive) :
    ∃ s', step s (.assign p q) = some (.ok () s') ∧
      s'.prov p = { s.prov p with pool := (s.prov q).pool } ∧
      (∀ r, r ≠ p → s'.prov r = s.prov r) ∧ s'.pool = s.pool := by
  by_cases h : p = q
  · subst h
    exact ⟨s, by simp [step, hp], rfl, fun _ _ => rfl, rfl⟩
  · exact ⟨s.setProv p { s.prov p with pool := (s.prov q).pool }, by simp [step, hp, hq, h],
      by simp [State.setProv], fun r hr => by simp [State.setProv, hr], rfl⟩

/-- Execute steps that return. -/
def pExec : List Op → State → Option State
  | [], s => some s
  | op :: l, s =>
    match step s op with
    | some (.ok () s') => pExec l s'
    | _ => none

/-- Two pools of one thread, a provider of the first one with two tasks. -/
def pStart : List Op := [.newPool 0 1, .newPool 1 1, .newProv 0 (some 0), .run 0 2]

/-- C158 is false: a provider with unfinished tasks that has been given another pool is removed
    from the list of the new pool only; the worker of the old one calls `_task` of an object
    whose derived part is gone. -/
theorem C158_moved_wrong :
    ((pExec (pStart ++ [.setThreadPool 0 (some 1), .destroy 0]) .init).map fun s =>
      match step s (.work 0 false) with
      | some .ub => true
      | _ => false) = some true ∧
    ((pExec (pStart ++ [.newProv 1 (some 1), .assign 0 1, .destroy 0]) .init).map fun s =>
      match step s (.work 0 false) with
      | some .ub => true
      | _ => false) = some true ∧
    ((pExec (pStart ++ [.setThreadPool 0 none, .destroy 0]) .init).map fun s =>
      match step s (.work 0 false) with
      | some .ub => true
      | _ => false) = some true := by decide

/-- C158 is false: without the change of the pool the destructor waits for ever instead, for its
    tasks have been removed (see C68). -/
theorem C158_destroy_wrong :
    ((pExec (pStart ++ [.destroy 0]) .init).map fun s =>
      (step s (.destroyed 0)).isNone && (s.pool 0).queue.isEmpty && (s.pool 1).queue.isEmpty) =
      some true := by decide

/-- C158 is false: a provider that outlives its pool, without any task, uses the pool once more
    in its destructor. -/
theorem C158_pool_first_wrong :
    ((pExec [.newPool 0 1, .newProv 0 (some 0), .endPool 0] .init).map fun s =>
      match step s (.destroy 0) with
      | some .ub => true
      | _ => false) = some true := by decide

/-- In general: whenever a living provider has tasks in the list of a pool that is not the one it
    points to, the destructor leaves them there, and the worker that meets one of them while the
    destructor waits goes wrong. -/
theorem C158_moved_exact {s s' : State} {tr : List (Nat × Nat)} {p k : Nat} {l : List Nat} {t : Bool}
    (h : PRuns PLegal State.init tr s) (hq : (s.pool k).queue = p :: l)
    (hne : (s.prov p).pool ≠ some k) (hs : step s (.destroy p) = some (.ok () s'))
    (ht : 0 < (s.pool k).threads) :
    step s' (.work k t) = some .ub ∧ step s' (.destroyed p) = none := by
  have hi := SI.init.runs h
  obtain ⟨a, b, c, j, ha, hc, hx⟩ := (hi.prov p).run (hi.head hq)
  have hjk : j = k := Classical.byContradiction fun hne => hx k (Ne.symm hne) (by rw [hq]; simp)
  subst hjk
  have key : (s'.pool j) = s.pool j ∧ s'.prov p = { s.prov p with life := .dying } := by
    simp only [step, a, if_true] at hs
    cases hk : (s.prov p).pool with
    | none =>
      simp only [hk, Option.some.injEq, Res.ok.injEq, true_and] at hs
      subst hs
      exact ⟨rfl, by simp [State.setProv, hk]⟩
    | some i =>
      have hij : j ≠ i := fun e => hne (by rw [hk, e])
      cases hai : (s.pool i).alive with
      | false => simp [hk, hai] at hs
      | true =>
        simp only [hk, hai, if_true, Option.some.injEq, Res.ok.injEq, true_and] at hs
        subst hs
        exact ⟨by simp [State.setPool, State.setProv, hij],
          by simp [State.setPool, State.setProv, hk]⟩
  constructor
  · have e : step s' (.work j t) =
        some (taskRun (s'.setPool j { s'.pool j with queue := l }) p t) := by
      show (if (s'.pool j).alive = true ∧ 0 < (s'.pool j).threads then _ else _) = _
      rw [key.1, if_pos ⟨ha, ht⟩, hq]
    rw [e]
    generalize hs2 : s'.setPool j { s'.pool j with queue := l } = s1
    have e1 : s1.prov p = { s.prov p with life := .dying } := by rw [← hs2]; exact key.2
    simp [taskRun, e1, c]
  · simp [step, key.2, hi.head hq]

/-- `pExec` of legal steps is a history. -/
theorem pRuns_of {L : State → Op → Prop} {s s1 s2 : State} {tr : List (Nat × Nat)} {op : Op}
    (h : PRuns L s tr s1) (hl : L s1 op) (hs : step s1 op = some (.ok () s2)) :
    PRuns L s (tr ++ bodies s1 op) s2 := .step h hl (Or.inl hs)

theorem pRuns_from {L L' : State → Op → Prop} {s s1 : State} {tr : List (Nat × Nat)}
    (_ : PRuns L s tr s1) : PRuns L' s1 [] s1 := .nil s1

/-- The hypotheses of the theorems above are met: two pools, a provider with two tasks in the first
    one, which is then given the second pool; the first task is executed, a copy is made, the
    second task is executed by the old pool, and the provider is destroyed. -/
example : ∃ s s', PRuns PLegal State.init [] s ∧ PRuns (PSameRun 0) s [(0, 0), (0, 1)] s' ∧
    (s.prov 0).running = true ∧ (s'.prov 0).life = .absent ∧ (s'.prov 1).pool = some 1 := by
  have e0 := PRuns.nil (L := PLegal) State.init
  have e1 := pRuns_of (op := .newPool 0 1) e0 rfl rfl
  have e2 := pRuns_of (op := .newPool 1 1) e1 rfl rfl
  have e3 := pRuns_of (op := .newProv 0 (some 0)) e2 rfl rfl
  have e4 := pRuns_of (op := .run 0 2) e3 ⟨rfl, fun k hk => by cases hk; rfl⟩ rfl
  have f0 := pRuns_from (L' := PSameRun 0) e4
  have f1 := pRuns_of (op := .setThreadPool 0 (some 1)) f0 ⟨rfl, fun m hm => by cases hm⟩ rfl
  have f2 := pRuns_of (op := .work 0 false) f1 ⟨trivial, fun m hm => by cases hm⟩ rfl
  have f3 := pRuns_of (op := .copy 1 0) f2 ⟨⟨rfl, rfl⟩, fun m hm => by cases hm⟩ rfl
  have f4 := pRuns_of (op := .work 0 true) f3 ⟨trivial, fun m hm => by cases hm⟩ rfl
  have f5 := pRuns_of (op := .destroy 0) f4
    ⟨⟨rfl, rfl, fun k hk => by cases hk; rfl⟩, fun m hm => by cases hm⟩ rfl
  have f6 := pRuns_of (op := .destroyed 0) f5 ⟨rfl, fun m hm => by cases hm⟩ rfl
  exact ⟨_, _, e4, f6, rfl, rfl, rfl⟩

end PV.Props
