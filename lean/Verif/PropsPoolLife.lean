import Verif.PoolLifeInv
/-
  C153: changing the number of threads of a pool.
-/
namespace PV.Props

open PV.Life

/-! ## Specification: what was asked for -/

/-- The number of threads asked for by the calls of a history: that of the last `resize` (which
    throws for zero and then changes nothing) or zero after `stop`. -/
def threadsAsked (es : List Ev) : Nat :=
  es.foldl (fun w e => match e with | .resize n => if n = 0 then w else n | .stop => 0 | _ => w) 0

/-- The largest number of threads ever asked for. -/
def largestAsked (es : List Ev) : Nat :=
  es.foldl (fun w e => match e with | .resize n => max w n | _ => w) 0

/-- No call for more threads than ever before while there are threads. -/
def Calm (es : List Ev) (s : State) (e : Ev) : Prop := ∀ n, e = .resize n → s.workers = [] ∨ n ≤ largestAsked es

/-- The states that a new pool can be in after the events `es`. -/
inductive PoolRuns : List Ev → State → Prop where
  | nil : PoolRuns [] fresh
  | snoc {es : List Ev} {s s' : State} {e : Ev} :
      PoolRuns es s → Calm es s e → step s e = some (.ok s') → PoolRuns (es ++ [e]) s'

/-- Nothing but steps of the threads: no calls, no wake-ups without reason. -/
def isStep : Ev → Bool
  | .worker _ | .mgr _ => true
  | _ => false

def isCall : Ev → Bool
  | .resize _ | .stop => true
  | _ => false

/-! ## Proofs -/

theorem asked_snoc (es : List Ev) (e : Ev) : threadsAsked (es ++ [e]) = askedBy (threadsAsked es) e := by
  unfold threadsAsked
  rw [List.foldl_append]
  cases e <;> rfl

theorem largest_snoc (es : List Ev) (e : Ev) : largestAsked (es ++ [e]) =
    (match e with | .resize n => max (largestAsked es) n | _ => largestAsked es) := by
  unfold largestAsked
  rw [List.foldl_append]
  cases e <;> rfl

/-- The capacity is enough for all former sizes. -/
structure CapOk (l : Nat) (s : State) : Prop where
  room : Room s
  cap : l ≤ s.cap ∨ ∃ n, s.mgr = .growFlags n ∧ l ≤ max s.cap n

theorem worker_keeps {s s' : State} {i : Nat} (e : workerStep s i = some (.ok s')) :
    s'.cap = s.cap ∧ s'.exit = s.exit ∧ (s'.mgr = s.mgr ∨ s'.mgr = wakeM s.mgr) ∧ s'.workers.length = s.workers.length := by
  unfold workerStep at e
  split at e <;> first | cases e; done | skip
  all_goals (try split at e) <;> (try split at e) <;> cases e <;> simp [State.setW]

theorem wakeM_grow {m : MPc} {n : Nat} : wakeM m = .growFlags n ↔ m = .growFlags n := by
  cases m <;> simp [wakeM]

theorem capOk_step {w : Nat} {es : List Ev} {s s' : State} {e : Ev} (hi : Inv w s) (h : CapOk (largestAsked es) s)
    (hc : Calm es s e) (hs : step s e = some (.ok s')) : CapOk (largestAsked (es ++ [e])) s' := by
  rw [largest_snoc]
  obtain ⟨hr, hcap⟩ := h
  cases e with
  | worker i =>
    obtain ⟨a, _, b, c⟩ := worker_keeps hs
    have g : ∀ n, s'.mgr = .growFlags n ↔ s.mgr = .growFlags n := fun n => by
      rcases b with b | b
      · rw [b]
      · rw [b, wakeM_grow]
    refine ⟨fun n hm lt => ?_, ?_⟩
    · have := hr n ((g n).1 hm) (a ▸ lt)
      rw [← List.length_eq_zero_iff, c, this]
      rfl
    · rw [a]
      rcases hcap with x | ⟨n, x, y⟩
      · exact .inl x
      · exact .inr ⟨n, (g n).2 x, y⟩
  | mgr c =>
    simp only [step, Option.map_eq_some_iff, Out.ok.injEq] at hs
    obtain ⟨_, hs, rfl⟩ := hs
    have other : (∀ n, s.mgr ≠ .growFlags n) → largestAsked es ≤ s.cap := fun ne => by
      rcases hcap with x | ⟨n, x, _⟩
      · exact x
      · exact absurd x (ne n)
    unfold mgrStep at hs
    split at hs <;> rename_i em
    · cases hs
    · rename_i n
      cases hs
      refine ⟨fun m hm => by simp at hm, .inl ?_⟩
      show largestAsked es ≤ if s.cap < n then max n c else s.cap
      rcases hcap with x | ⟨k, x, y⟩
      · split <;> omega
      · rw [em] at x
        cases x
        split <;> omega
    all_goals
      have o := other (by rw [em]; nofun)
      (try split at hs) <;> (try split at hs) <;> (try cases hs) <;>
        first
          | done
          | exact ⟨fun m hm => by simp [em] at hm, .inl o⟩
          | exact ⟨fun m hm => by (first | (split at hm <;> cases hm) | (simp [em] at hm)), .inl o⟩
  | spurious i =>
    simp only [step] at hs
    split at hs
    · cases hs
      refine ⟨fun n hm lt => ?_, hcap⟩
      have := hr n hm lt
      rw [State.setW, this]
      rfl
    · cases hs
  | spuriousMgr =>
    simp only [step] at hs
    split at hs <;> rename_i em
    · cases hs
      refine ⟨fun n hm => by simp at hm, .inl ?_⟩
      rcases hcap with x | ⟨k, x, _⟩
      · exact x
      · rw [em] at x; cases x
    · cases hs
  | add k =>
    simp only [step] at hs
    split at hs <;> rename_i em
    · cases hs
    · cases hs
      refine ⟨fun n hm lt => ?_, hcap⟩
      exact absurd (hr n hm lt) em
  | resize n =>
    simp only [step] at hs
    by_cases em : s.mgr ≠ .idle
    · rw [if_pos em] at hs
      cases hs
    rw [if_neg em] at hs
    have em : s.mgr = .idle := Decidable.byContradiction em
    have o : largestAsked es ≤ s.cap := by
      rcases hcap with x | ⟨k, x, _⟩
      · exact x
      · rw [em] at x; cases x
    by_cases n0 : n = 0
    · rw [if_pos n0] at hs
      cases hs
      exact ⟨fun m hm => (by rw [em] at hm; cases hm), .inl (by simp only []; omega)⟩
    rw [if_neg n0] at hs
    split at hs
    · cases hs
      refine ⟨fun m hm lt => ?_, .inr ⟨n, rfl, by simp only []; omega⟩⟩
      cases hm
      have lt : s.cap < n := lt
      rcases hc n rfl with a | a
      · exact a
      · omega
    · rename_i notmore
      -- not more threads than there are: the capacity is enough already
      have hl : n ≤ largestAsked es := by
        rcases hc n rfl with a | a
        · rw [a] at notmore
          simp at notmore
          omega
        · exact a
      split at hs
      · cases hs
        exact ⟨fun m hm => (by simp at hm), .inl (by simp only []; omega)⟩
      · cases hs
        exact ⟨fun m hm => (by rw [em] at hm; cases hm), .inl (by simp only []; omega)⟩
  | stop =>
    simp only [step] at hs
    by_cases em : s.mgr ≠ .idle
    · rw [if_pos em] at hs
      cases hs
    rw [if_neg em] at hs
    have em : s.mgr = .idle := Decidable.byContradiction em
    have o : largestAsked es ≤ s.cap := by
      rcases hcap with x | ⟨k, x, _⟩
      · exact x
      · rw [em] at x; cases x
    split at hs
    · cases hs
      exact ⟨fun m hm => (by simp [em] at hm), .inl o⟩
    · cases hs
      exact ⟨fun m hm => (by simp at hm), .inl o⟩

theorem runs_inv {es : List Ev} {s : State} (h : PoolRuns es s) : Inv (threadsAsked es) s ∧ CapOk (largestAsked es) s := by
  induction h with
  | nil => exact ⟨inv_fresh, fun n hm => (by cases hm), .inl (Nat.zero_le _)⟩
  | snoc _ hc hs ih =>
    obtain ⟨s'', e, i⟩ := ih.1.step ih.2.room hs
    cases e
    rw [asked_snoc]
    exact ⟨i, capOk_step ih.1 ih.2 hc hs⟩

/-- The flags of the threads that stay are not set as long as `stop` is not called. -/
def Keeps (s : State) : Prop :=
  match s.mgr with
  | .join n | .pop n => ∀ i, i < n → s.exit[i]? ≠ some true
  | .stopFlags | .stopJoin _ => False
  | _ => ∀ i : Nat, s.exit[i]? ≠ some true

theorem keeps_step {w : Nat} {s s' : State} {e : Ev} (hi : Inv w s) (h : Keeps s) (hne : e ≠ .stop)
    (hs : step s e = some (.ok s')) : Keeps s' := by
  have p := hi.place
  cases e with
  | worker i =>
    obtain ⟨_, a, b, _⟩ := worker_keeps hs
    unfold Keeps at h ⊢
    rw [a]
    rcases b with b | b
    · rw [b]; exact h
    · rw [b]
      cases em : s.mgr <;> simp only [em, wakeM] at h ⊢ <;> exact h
  | mgr c =>
    simp only [step, Option.map_eq_some_iff, Out.ok.injEq] at hs
    obtain ⟨_, hs, rfl⟩ := hs
    unfold mgrStep at hs
    split at hs <;> rename_i em <;> simp only [Keeps, em] at h <;> simp only [MgrOk, em] at p
    · cases hs
    · rename_i n
      cases hs
      show ∀ i : Nat, (resizeV s.exit n false)[i]? ≠ some true
      intro i
      rw [resize_get]
      split
      · split
        · exact h i
        · nofun
      · nofun
    · cases hs
      exact h
    · split at hs <;> cases hs
      · simp only [Keeps, em]; exact h
      · exact h
    · cases hs
      unfold Keeps
      split <;> rename_i x <;> (try (split at x <;> cases x)) <;> exact h
    · cases hs
    · rename_i n
      cases hs
      show ∀ i, i < n → (fillFrom s.exit n)[i]? ≠ some true
      intro i lt
      rw [fill_get, if_pos lt]
      exact h i
    · rename_i n
      split at hs
      · split at hs
        · cases hs
          exact h
        · cases hs
      · cases hs
        show ∀ i : Nat, s.exit[i]? ≠ some true
        intro i
        by_cases lt : i < n
        · exact h i lt
        · rw [List.getElem?_eq_none (by omega)]
          nofun
    · rename_i n
      cases hs
      show ∀ i, i < n → s.exit.dropLast[i]? ≠ some true
      intro i lt
      rw [List.dropLast_eq_take, List.getElem?_take, if_pos (by omega)]
      exact h i lt
  | spurious i =>
    simp only [step] at hs
    split at hs <;> cases hs
    exact h
  | spuriousMgr =>
    simp only [step] at hs
    split at hs <;> rename_i em <;> cases hs
    simp only [Keeps, em] at h
    exact h
  | add k =>
    simp only [step] at hs
    split at hs <;> cases hs
    exact h
  | resize n =>
    simp only [step] at hs
    by_cases em : s.mgr ≠ .idle
    · rw [if_pos em] at hs
      cases hs
    rw [if_neg em] at hs
    have em : s.mgr = .idle := Decidable.byContradiction em
    have h' := h
    simp only [Keeps, em] at h'
    split at hs
    · cases hs
      exact h
    · split at hs
      · cases hs
        exact h'
      · split at hs
        · cases hs
          exact h'
        · cases hs
          exact h
  | stop => exact absurd rfl hne

theorem runs_keeps {es : List Ev} {s : State} (h : PoolRuns es s) (hne : .stop ∉ es) : Keeps s := by
  induction h with
  | nil => intro i; simp [fresh]
  | snoc hr hc hs ih =>
    rw [List.mem_append] at hne
    exact keeps_step (runs_inv hr).1 (ih fun a => hne (.inl a)) (fun a => hne (.inr (by rw [a]; simp))) hs

/-- C153: after any calls of `resize` and `stop` and in every order of the steps of the threads no
    memory that was released is read, and when the last call has returned the pool has exactly the
    threads asked for; all others have ended.

    Full statement: for all calls, and the threads have started.  Missing: calls for more threads
    than ever before while there are threads (`C153_grow_wrong`); only the first call waits until
    the threads have started (`C153_first_start`, `C153_early_wrong`); threads started after `stop`
    may end at once (C47). -/
theorem C153_history_partial {es : List Ev} {s : State} (h : PoolRuns es s) :
    (∀ e, Calm es s e → step s e ≠ some .ub) ∧
    (s.mgr = .idle → s.workers.length = threadsAsked es ∧ s.running ≤ threadsAsked es) := by
  obtain ⟨i, c⟩ := runs_inv h
  refine ⟨fun e _ hu => ?_, fun hm => ?_⟩
  · obtain ⟨_, x, _⟩ := i.step c.room hu
    cases x
  · have p := i.place
    simp only [MgrOk, hm] at p
    exact ⟨p.1, by rw [i.count, ← p.1]; exact List.countP_le_length⟩

/-- C153: as long as `stop` is not called none of the threads asked for ends. -/
theorem C153_usable {es : List Ev} {s : State} (h : PoolRuns es s) (hne : .stop ∉ es) (hm : s.mgr = .idle) :
    s.workers.length = threadsAsked es ∧ ∀ pc ∈ s.workers, pc ≠ .leave ∧ pc ≠ .gone := by
  refine ⟨((C153_history_partial h).2 hm).1, fun pc hp => ?_⟩
  obtain ⟨i, hi⟩ := List.mem_iff_getElem?.1 hp
  have l := (runs_inv h).1.loc i pc hi
  have k := runs_keeps h hne
  simp only [Keeps, hm] at k
  exact ⟨fun e => k i (l.ends (.inl e)), fun e => k i (l.ends (.inr e))⟩

theorem steps_bound {es : List Ev} {s : State} (h : PoolRuns es s) (more : List Ev) (hm : ∀ e ∈ more, isStep e = true)
    {o : Out} (he : exec s more = some o) : more.length ≤ work s := by
  induction more generalizing es s with
  | nil => exact Nat.zero_le _
  | cons e more ih =>
    simp only [exec] at he
    have hs := hm e (List.mem_cons_self ..)
    have calm : Calm es s e := fun n a => by subst a; cases hs
    obtain ⟨i, c⟩ := runs_inv h
    cases x : step s e with
    | none => rw [x] at he; cases he
    | some r =>
      cases r with
      | ub => exact absurd x ((C153_history_partial h).1 e calm)
      | ok s' =>
        rw [x] at he
        have := ih (h.snoc calm x) (fun e a => hm e (List.mem_cons_of_mem _ a)) he
        have lt : work s' < work s := by
          cases e with
          | worker j => exact work_worker i x
          | mgr c =>
            simp only [step, Option.map_eq_some_iff, Out.ok.injEq] at x
            obtain ⟨_, x, rfl⟩ := x
            exact work_mgr i x
          | _ => cases hs
        rw [List.length_cons]
        omega

/-- C153: every call returns: while it has not returned some thread can move, and there is a bound
    on the number of steps of all threads, whatever order they take.  (Without further tasks and
    wake-ups without reason; each of these adds a bounded number of steps.) -/
theorem C153_returns {es : List Ev} {s : State} (h : PoolRuns es s) :
    (s.mgr ≠ .idle → ∃ e, isStep e = true ∧ ∃ s', step s e = some (.ok s')) ∧
    ∃ bound, ∀ more, (∀ e ∈ more, isStep e = true) → ∀ o, exec s more = some o → more.length ≤ bound := by
  obtain ⟨i, c⟩ := runs_inv h
  refine ⟨fun hm => ?_, work s, fun more a o e => steps_bound h more a e⟩
  rcases i.progress hm with ⟨j, o, e⟩ | ⟨s', e⟩
  · obtain ⟨s', x, _⟩ := i.workerStep e
    exact ⟨.worker j, rfl, s', by rw [← x]; exact e⟩
  · exact ⟨.mgr 0, rfl, s', by simp only [step, e, Option.map_some]⟩

/-! ### The first start -/

/-- What holds after `resize( n )` on a new pool. -/
structure Starts (n : Nat) (s : State) : Prop where
  place : s.mgr = .growFlags n ∨ s.mgr = .growCount n ∨ s.mgr = .spawn n ∨ s.mgr = .waitCreated n ∨
    s.mgr = .asleep n ∨ s.mgr = .idle
  back : s.mgr = .idle → s.created = true
  all : s.created = true ∨ WPc.signal ∈ s.workers → s.workers.length = n ∧ WPc.born ∉ s.workers
  none : s.mgr = .growFlags n ∨ s.mgr = .growCount n → s.workers = [] ∧ s.created = false

theorem worker_shape {s s' : State} {i : Nat} (e : workerStep s i = some (.ok s')) :
    ∃ pc, s'.workers = s.workers.set i pc ∧ pc ≠ .born ∧
      (pc = .signal → s.workers[i]? = some (.compare s.threadCount)) ∧
      (s'.created = true → s.created = true ∨ WPc.signal ∈ s.workers) ∧ (s.created = true → s'.created = true) := by
  unfold workerStep at e
  split at e
  · cases e
  · cases e; exact ⟨_, rfl, nofun, nofun, .inl, id⟩
  · rename_i k hi
    cases e
    refine ⟨_, rfl, ?_, fun h => ?_, .inl, id⟩
    · split <;> nofun
    · split at h
      · rename_i ek; rw [hi, ek]
      · cases h
  · rename_i hi
    cases e; exact ⟨_, rfl, nofun, nofun, fun _ => .inr (List.mem_of_getElem? hi), fun _ => rfl⟩
  · cases e; exact ⟨_, rfl, nofun, nofun, .inl, id⟩
  · split at e
    · cases e
    · split at e <;> cases e <;> exact ⟨_, rfl, nofun, nofun, .inl, id⟩
  · split at e <;> cases e <;> exact ⟨_, rfl, nofun, nofun, .inl, id⟩
  · cases e
  · cases e; exact ⟨_, rfl, nofun, nofun, .inl, id⟩
  · split at e
    · cases e
    · split at e <;> cases e <;> exact ⟨_, rfl, nofun, nofun, .inl, id⟩
  · split at e
    · cases e; exact ⟨_, rfl, nofun, nofun, .inl, id⟩
    · split at e <;> cases e; exact ⟨_, rfl, nofun, nofun, .inl, id⟩
  · cases e; exact ⟨_, rfl, nofun, nofun, .inl, id⟩
  · cases e

theorem wake_mem {ws : List WPc} {pc : WPc} (h : pc ∈ ws.map wakeW) (hw : pc ≠ .wait) : pc ∈ ws := by
  obtain ⟨o, a, b⟩ := List.mem_map.1 h
  cases o <;> simp only [wakeW] at b <;> subst b <;> first | exact a | exact absurd rfl hw

theorem starts_step {n : Nat} {s s' : State} {e : Ev} (i : Inv n s) (h : Starts n s) (hc : isCall e = false)
    (hs : step s e = some (.ok s')) : Starts n s' := by
  have p := i.place
  cases e with
  | worker j =>
    obtain ⟨pc, hw, nb, sg, cr, cr'⟩ := worker_shape hs
    obtain ⟨_, _, hm, len⟩ := worker_keeps hs
    have full : pc = .signal → s.workers.length = n ∧ WPc.born ∉ s.workers := fun e => by
      have hj := sg e
      cases c : s.created
      · have f := i.first c
        have le := f.less j _ hj
        have pos : 0 < s.workers.length := Nat.lt_of_le_of_lt (Nat.zero_le _) (set_same hj)
        have tc : s.threadCount = n ∧ s.workers.length ≤ n := by
          rcases h.place with m | m | m | m | m | m <;> simp only [MgrOk, m] at p
          · rw [(h.none (.inl m)).1] at pos; cases pos
          · rw [(h.none (.inr m)).1] at pos; cases pos
          · exact ⟨p.2.2.2.2, p.2.2.1⟩
          · exact ⟨p.2.2.2.2, by omega⟩
          · exact ⟨p.2.2.2.2.1, by omega⟩
          · exact absurd (h.back m) (by rw [c]; nofun)
        have cnt := i.count
        have cl := List.countP_le_length (p := alive) (l := s.workers)
        have eq : s.workers.countP alive = s.workers.length := by omega
        refine ⟨by omega, fun b => ?_⟩
        have := List.countP_eq_length.1 eq _ b
        cases this
      · exact h.all (.inl c)
    refine ⟨?_, fun m => ?_, fun a => ?_, fun a => ?_⟩
    · rcases hm with m | m <;> rw [m]
      · exact h.place
      · rcases h.place with x | x | x | x | x | x <;> rw [x] <;> simp [wakeM]
    · have : s.mgr = .idle := by
        rcases hm with x | x
        · rw [← x, m]
        · rw [m] at x
          cases y : s.mgr <;> rw [y] at x <;> first | rfl | cases x
      exact cr' (h.back this)
    · have b : s.workers.length = n ∧ WPc.born ∉ s.workers := by
        rcases a with a | a
        · exact h.all (cr a)
        · rw [hw] at a
          rcases List.mem_or_eq_of_mem_set a with a | a
          · exact h.all (.inr a)
          · exact full a.symm
      refine ⟨len.trans b.1, fun c => ?_⟩
      rw [hw] at c
      rcases List.mem_or_eq_of_mem_set c with c | c
      · exact b.2 c
      · exact nb c.symm
    · have g : s.mgr = .growFlags n ∨ s.mgr = .growCount n := by
        rcases hm with x | x
        · rw [← x]; exact a
        · rw [x] at a
          cases y : s.mgr <;> rw [y] at a <;> simp [wakeM] at a ⊢ <;> exact a
      have w0 := (h.none g).1
      have hs : workerStep s j = some (.ok s') := hs
      rw [workerStep, w0] at hs
      simp at hs
  | mgr c =>
    simp only [step, Option.map_eq_some_iff, Out.ok.injEq] at hs
    obtain ⟨_, hs, rfl⟩ := hs
    unfold mgrStep at hs
    rcases h.place with m | m | m | m | m | m <;> rw [m] at hs <;> simp only [MgrOk, m] at p <;> simp only [] at hs
    · cases hs
      have x := h.none (.inl m)
      exact ⟨by simp, by simp, h.all, fun _ => x⟩
    · cases hs
      exact ⟨by simp, by simp, h.all, by simp⟩
    · split at hs <;> rename_i lt <;> cases hs
      · refine ⟨by simp, by simp, fun a => ?_, by simp⟩
        have b := h.all (by
          rcases a with a | a
          · exact .inl a
          · exact .inr (by simpa using a))
        omega
      · exact ⟨by simp, by simp, h.all, by simp⟩
    · cases hs
      cases c : s.created
      · exact ⟨by simp, by simp, fun a => h.all (by simpa [c] using a), by simp⟩
      · exact ⟨by simp, fun _ => rfl, fun a => h.all (.inl c), by simp⟩
    · cases hs
    · cases hs
  | spurious j =>
    simp only [step] at hs
    split at hs <;> rename_i hj <;> cases hs
    refine ⟨h.place, h.back, fun a => ?_, fun a => ?_⟩
    · have b := h.all (by
        rcases a with a | a
        · exact .inl a
        · rcases List.mem_or_eq_of_mem_set a with a | a
          · exact .inr a
          · cases a)
      refine ⟨by simp [State.setW, b.1], fun c => ?_⟩
      rcases List.mem_or_eq_of_mem_set c with c | c
      · exact b.2 c
      · cases c
    · rw [(h.none a).1] at hj
      simp at hj
  | spuriousMgr =>
    simp only [step] at hs
    rcases h.place with m | m | m | m | m | m <;> rw [m] at hs <;> simp only [] at hs <;> cases hs
    exact ⟨by simp, by simp, h.all, by simp⟩
  | add k =>
    simp only [step] at hs
    split at hs <;> rename_i w0 <;> cases hs
    refine ⟨h.place, h.back, fun a => ?_, fun a => absurd (h.none a).1 w0⟩
    have b := h.all (by
      rcases a with a | a
      · exact .inl a
      · exact .inr (wake_mem a nofun))
    exact ⟨by simp [b.1], fun c => b.2 (wake_mem c nofun)⟩
  | resize n => cases hc
  | stop => cases hc

theorem runs_nil {l : List Ev} {s : State} (h : PoolRuns l s) (hl : l = []) : s = fresh := by
  cases h with
  | nil => rfl
  | snoc _ _ _ => simp at hl

/-- C153: the first call of `resize` on a new pool (the constructor with a number of threads) returns
    only after all threads have started; none of them has ended. -/
theorem C153_first_start {n : Nat} (hn : 0 < n) {es : List Ev} (hes : ∀ e ∈ es, isCall e = false) {s : State}
    (h : PoolRuns (.resize n :: es) s) (hm : s.mgr = .idle) :
    s.workers.length = n ∧ ∀ pc ∈ s.workers, pc ≠ .born ∧ pc ≠ .leave ∧ pc ≠ .gone := by
  have key : ∀ (l : List Ev) (s : State), PoolRuns l s → ∀ es, l = .resize n :: es → (∀ e ∈ es, isCall e = false) →
      Starts n s ∧ threadsAsked l = n ∧ .stop ∉ l := by
    intro l s h
    induction h with
    | nil => nofun
    | @snoc es0 s0 s1 e hr hc hs ih =>
      intro es hl hes
      cases es0 with
      | nil =>
        rw [List.nil_append] at hl
        cases hl
        rw [runs_nil hr rfl] at hs
        simp only [step] at hs
        rw [if_neg (by simp [fresh]), if_neg (by omega), if_pos (by exact hn)] at hs
        cases hs
        exact ⟨⟨by simp, by simp, by simp [fresh], by simp [fresh]⟩, by simp [threadsAsked]; omega, by simp⟩
      | cons e0 es0 =>
        rw [List.cons_append] at hl
        cases hl
        have a := ih es0 rfl (fun e he => hes e (by simp [he]))
        have ce := hes e (by simp)
        refine ⟨starts_step (a.2.1 ▸ (runs_inv hr).1) a.1 ce hs, ?_, ?_⟩
        · rw [asked_snoc, a.2.1]
          cases e <;> first | rfl | cases ce
        · rw [List.mem_append]
          intro x
          rcases x with x | x
          · exact a.2.2 x
          · simp at x; rw [← x] at ce; cases ce
  obtain ⟨st, asked, ns⟩ := key _ s h es rfl hes
  have u := C153_usable h ns hm
  refine ⟨by rw [u.1, asked], fun pc hp => ⟨fun e => ?_, u.2 pc hp⟩⟩
  subst e
  exact (st.all (.inl (st.back hm))).2 hp

/-! ### Where it fails -/

/-- A schedule: the calls and steps up to a sleeping pool of one thread. -/
def oneThread : List Ev :=
  [.resize 1, .mgr 0, .mgr 0, .mgr 0, .mgr 0, .worker 0, .worker 0, .worker 0, .mgr 0]

/-- C153 fails: the thread has loaded the address of its flag; `resize( 2 )` moves the flags to a
    larger block; the thread reads the released block. -/
theorem C153_grow_wrong : exec fresh (oneThread ++ [.worker 0, .resize 2, .mgr 0, .worker 0]) = some .ub := by decide

/-- C153 fails for all later calls: `resize( 2 )` returns although the second thread has not started. -/
theorem C153_early_wrong :
    (exec fresh (oneThread ++ [.resize 2, .mgr 0, .mgr 0, .mgr 0, .mgr 0, .mgr 0])).map
      (fun o => match o with | .ok s => (s.mgr, s.workers) | .ub => (.idle, [])) =
    some (.idle, [.top, .born]) := by decide

theorem runs_exec {es : List Ev} {s s' : State} (h : PoolRuns es s) : ∀ (more : List Ev),
    (∀ n, .resize n ∉ more) → exec s more = some (.ok s') → PoolRuns (es ++ more) s' := by
  intro more
  induction more generalizing es s with
  | nil => intro _ e; cases e; rw [List.append_nil]; exact h
  | cons e more ih =>
    intro hn he
    simp only [exec] at he
    cases x : step s e with
    | none => rw [x] at he; cases he
    | some r =>
      cases r with
      | ub => rw [x] at he; cases he
      | ok s1 =>
        rw [x] at he
        have := ih (h.snoc (fun n a => absurd (List.mem_cons.2 (.inl a.symm)) (hn n)) x)
          (fun n a => hn n (List.mem_cons_of_mem _ a)) he
        rw [List.append_assoc] at this
        exact this

/-- Two threads are started, tasks are added, one thread is removed; the other one stays. -/
example : ∃ es s, PoolRuns es s ∧ .stop ∉ es ∧ s.mgr = .idle ∧ threadsAsked es = 1 ∧ s.workers = [.top] := by
  let more : List Ev := [.mgr 0, .mgr 0, .mgr 0, .mgr 0, .mgr 0, .worker 1, .worker 0, .worker 0, .worker 1, .worker 0, .mgr 0]
  let less : List Ev := [.mgr 0, .worker 1, .worker 1, .worker 1, .mgr 0, .mgr 0, .mgr 0]
  have h0 : PoolRuns [.resize 2] { fresh with mgr := .growFlags 2 } := PoolRuns.nil.snoc (fun _ _ => .inl rfl) rfl
  have h1 := runs_exec (s' := ⟨[.top, .top], [true, true], [false, false], 1, 2, 2, 2, true, 0, .idle⟩) h0 more (by simp [more]) (by decide)
  have h2 := runs_exec h1 [.add 3] (by simp) rfl
  have h3 := h2.snoc (e := .resize 1) (fun n e => by cases e; exact .inr (by decide)) rfl
  have h4 := runs_exec (s' := ⟨[.top], [true], [false], 1, 2, 1, 2, true, 3, .idle⟩) h3 less (by simp [less]) (by decide)
  exact ⟨_, _, h4, by decide, rfl, by decide, rfl⟩

end PV.Props
