import Verif.PoolLife
/-
  Invariant of the life of the threads of a pool, for `PropsPoolLife`.
-/
namespace PV.Life

/-- The worker will look at its `_exit` flag before it can sleep. -/
def near : WPc → Bool
  | .born | .compare _ | .signal | .top | .topRead _ | .leave | .gone => true
  | _ => false

/-- The worker has counted itself in `_runningThreadCount` and not yet out. -/
def alive : WPc → Bool
  | .born | .gone => false
  | _ => true

/-- What holds for worker `i` at `pc`. -/
structure Loc (s : State) (i : Nat) (pc : WPc) : Prop where
  sleeps : pc = .asleep → s.run[i]? = some false
  told : s.exit[i]? = some true → near pc = true ∨ s.run[i]? = some true
  ends : pc = .leave ∨ pc = .gone → s.exit[i]? = some true
  block1 : ∀ g, pc = .topRead g → g = s.block
  block2 : ∀ g, pc = .wokenRead g → g = s.block

/-- What holds at the places of `resize` and `stop`; `w` threads were asked for last. -/
def MgrOk (w : Nat) (s : State) : Prop :=
  match s.mgr with
  | .idle => s.workers.length = w ∧ (s.workers.length = 0 ∨ s.exit.length = s.workers.length)
  | .growFlags n => n = w ∧ s.workers.length < n ∧ (s.workers.length = 0 ∨ s.exit.length = s.workers.length)
  | .growCount n => n = w ∧ s.workers.length < n ∧ s.exit.length = n
  | .spawn n => n = w ∧ 0 < n ∧ s.workers.length ≤ n ∧ s.exit.length = n ∧ s.threadCount = n
  | .waitCreated n => n = w ∧ 0 < n ∧ s.workers.length = n ∧ s.exit.length = n ∧ s.threadCount = n
  | .asleep n => n = w ∧ 0 < n ∧ s.workers.length = n ∧ s.exit.length = n ∧ s.threadCount = n ∧ s.created = false
  | .shrinkFlags n => n = w ∧ 0 < n ∧ n < s.workers.length ∧ s.exit.length = s.workers.length
  | .join n => n = w ∧ 0 < n ∧ n ≤ s.workers.length ∧ s.exit.length = s.workers.length ∧
      ∀ i, n ≤ i → i < s.exit.length → s.exit[i]? = some true
  | .pop n => n = w ∧ 0 < n ∧ n ≤ s.workers.length ∧ s.exit.length = s.workers.length + 1 ∧
      ∀ i, n ≤ i → i < s.exit.length → s.exit[i]? = some true
  | .stopFlags => w = 0 ∧ s.exit.length = s.workers.length
  | .stopJoin k => w = 0 ∧ s.exit.length = s.workers.length ∧ (∀ i, i < s.exit.length → s.exit[i]? = some true) ∧
      k ≤ s.workers.length ∧ ∀ i, i < k → s.workers[i]? = some .gone

/-- The places of `resize` during the first start of threads. -/
def starting (s : State) : Prop :=
  match s.mgr with
  | .idle | .growFlags _ | .growCount _ => s.workers.length = 0
  | .spawn _ | .waitCreated _ | .asleep _ => True
  | _ => False

/-- What holds before `_threadsCreated` is set. -/
structure First (s : State) : Prop where
  stay : ∀ i : Nat, s.exit[i]? ≠ some true
  place : starting s
  less : ∀ (i k : Nat), s.workers[i]? = some (.compare k) → k ≤ s.running
  last : 0 < s.threadCount → s.running = s.threadCount →
    ∃ i : Nat, s.workers[i]? = some (.compare s.threadCount) ∨ s.workers[i]? = some .signal

structure Inv (w : Nat) (s : State) : Prop where
  flags : s.run.length = s.exit.length
  loc : ∀ (i : Nat) pc, s.workers[i]? = some pc → Loc s i pc
  count : s.running = s.workers.countP alive
  place : MgrOk w s
  first : s.created = false → First s

theorem Inv.room {w : Nat} {s : State} (h : Inv w s) : s.workers.length ≤ s.exit.length := by
  have := h.place
  unfold MgrOk at this
  split at this <;> omega

theorem inv_fresh : Inv 0 fresh where
  flags := rfl
  loc := by intro i pc h; simp [fresh] at h
  count := rfl
  place := ⟨rfl, .inl rfl⟩
  first := fun _ => ⟨by simp [fresh], rfl, by simp [fresh], by simp [fresh]⟩

/-! ### A step of a worker -/

/-- A step which changes only worker `i` (to `pc`), its run flag and counters. -/
theorem Inv.worker {w : Nat} {s s' : State} {i : Nat} {old pc : WPc} (h : Inv w s) (hi : s.workers[i]? = some old)
    (hw : s'.workers = s.workers.set i pc) (he : s'.exit = s.exit) (hb : s'.block = s.block)
    (hr : ∀ j, j ≠ i → s'.run[j]? = s.run[j]?) (hl : s'.run.length = s.run.length)
    (hloc : Loc s' i pc) (hc : s'.running + (if alive old then 1 else 0) = s.running + if alive pc then 1 else 0)
    (hold : old ≠ .gone) (ht : s'.threadCount = s.threadCount)
    (hm : (s'.mgr = s.mgr ∧ s'.created = s.created) ∨ (s'.mgr = wakeM s.mgr ∧ s'.created = true))
    (hf : s'.created = false → First s') : Inv w s' where
  flags := by rw [hl, he, h.flags]
  loc := by
    intro j p hj
    rw [hw, List.getElem?_set] at hj
    by_cases e : i = j
    · subst e
      rw [if_pos rfl] at hj
      split at hj
      · cases hj; exact hloc
      · cases hj
    · rw [if_neg e] at hj
      have l := h.loc j p hj
      exact ⟨fun a => by rw [hr j (Ne.symm e)]; exact l.sleeps a,
        fun a => by rw [hr j (Ne.symm e)]; exact l.told (he ▸ a), fun a => he ▸ l.ends a,
        fun g a => hb ▸ l.block1 g a, fun g a => hb ▸ l.block2 g a⟩
  count := by
    obtain ⟨lt, e⟩ := List.getElem?_eq_some_iff.1 hi
    rw [hw, List.countP_set lt, e]
    have hp : alive old = true → 0 < s.workers.countP alive := fun a =>
      List.countP_pos_iff.2 ⟨old, List.mem_of_getElem? hi, a⟩
    rw [h.count] at hc
    cases ho : alive old <;> cases hn : alive pc <;> simp only [ho, hn, if_true, Bool.false_eq_true, if_false] at hc hp ⊢
    · omega
    · omega
    · have := hp trivial
      omega
    · have := hp trivial
      omega
  place := by
    have p := h.place
    have len : s'.workers.length = s.workers.length := by rw [hw, List.length_set]
    have keep : ∀ j : Nat, s.workers[j]? = some .gone → s'.workers[j]? = some .gone := by
      intro j hj
      rw [hw, List.getElem?_set]
      by_cases e : i = j
      · subst e
        rw [hi] at hj
        cases hj
        exact absurd rfl hold
      · rw [if_neg e]
        exact hj
    unfold MgrOk at p ⊢
    rcases hm with ⟨m, c⟩ | ⟨m, c⟩
    · rw [m]
      split at p <;> simp only [len, he, ht, c] <;> first | exact p | skip
      obtain ⟨a, b, d, e, f⟩ := p
      exact ⟨a, b, d, e, fun j hj => keep j (f j hj)⟩
    · rw [m]
      split at p <;> rename_i em <;> simp only [em, wakeM, len, he, ht] <;> first | exact p | skip
      · exact ⟨p.1, p.2.1, p.2.2.1, p.2.2.2.1, p.2.2.2.2.1⟩
      · obtain ⟨a, b, d, e, f⟩ := p
        exact ⟨a, b, d, e, fun j hj => keep j (f j hj)⟩
  first := hf

theorem First.worker {s s' : State} {i : Nat} {old pc : WPc} (h : First s) (hi : s.workers[i]? = some old)
    (hw : s'.workers = s.workers.set i pc) (he : s'.exit = s.exit) (hm : s'.mgr = s.mgr)
    (ht : s'.threadCount = s.threadCount) (hc : s.running ≤ s'.running)
    (hk : ∀ k, pc = .compare k → k ≤ s'.running)
    (hlast : (s'.running = s.running ∧ (∀ k, old = .compare k → k = s.threadCount → pc = .signal) ∧ old ≠ .signal) ∨
      pc = .compare s'.running) : First s' where
  stay := he ▸ h.stay
  place := by
    have := h.place
    unfold starting at this ⊢
    rw [hm]
    simp only [hw, List.length_set]
    exact this
  less := by
    intro j k hj
    rw [hw, List.getElem?_set] at hj
    split at hj
    · split at hj
      · exact hk k (Option.some.inj hj)
      · cases hj
    · exact Nat.le_trans (h.less j k hj) hc
  last := by
    intro h0 hr
    obtain ⟨lt, _⟩ := List.getElem?_eq_some_iff.1 hi
    rcases hlast with ⟨a, b, d⟩ | a
    · obtain ⟨j, hj⟩ := h.last (ht ▸ h0) (by rw [← a, hr, ht])
      by_cases e : i = j
      · subst e
        refine ⟨i, .inr ?_⟩
        rw [hw, List.getElem?_set, if_pos rfl, if_pos lt]
        rw [hi] at hj
        rcases hj with hj | hj
        · rw [b _ (Option.some.inj hj) rfl]
        · exact absurd (Option.some.inj hj) d
      · refine ⟨j, ?_⟩
        rw [hw, List.getElem?_set, if_neg e, ht]
        exact hj
    · refine ⟨i, .inl ?_⟩
      rw [hw, List.getElem?_set, if_pos rfl, if_pos lt, a, hr]

theorem set_same {s : State} {i : Nat} {old : WPc} (h : s.workers[i]? = some old) : i < s.workers.length :=
  (List.getElem?_eq_some_iff.1 h).1

/-- Steps in which nothing but the place of the worker changes. -/
theorem Inv.move {w : Nat} {s : State} {i : Nat} {old pc : WPc} (h : Inv w s) (hi : s.workers[i]? = some old)
    (hloc : Loc s i pc) (hc : alive old = alive pc) (hold : old ≠ .gone) (hk : ∀ k, pc ≠ .compare k)
    (hs : ∀ k, old = .compare k → k = s.threadCount → pc = .signal) (hn : old ≠ .signal) : Inv w (s.setW i pc) := by
  refine Inv.worker (s' := s.setW i pc) h hi rfl rfl rfl (fun _ _ => rfl) rfl
    ⟨hloc.sleeps, hloc.told, hloc.ends, hloc.block1, hloc.block2⟩ (by rw [hc]; rfl) hold rfl (.inl ⟨rfl, rfl⟩) fun hf => ?_
  exact First.worker (s' := s.setW i pc) (h.first hf) hi rfl rfl rfl rfl (Nat.le_refl _) (fun k e => absurd e (hk k))
    (.inl ⟨rfl, hs, hn⟩)

theorem Inv.workerStep {w : Nat} {s : State} {i : Nat} {o : Out} (h : Inv w s) (e : workerStep s i = some o) :
    ∃ s', o = .ok s' ∧ Inv w s' := by
  have room := h.room
  unfold PV.Life.workerStep at e
  split at e
  · cases e
  · rename_i hi
    cases e
    have l := h.loc i _ hi
    refine ⟨_, rfl, Inv.worker h hi rfl rfl rfl (fun _ _ => rfl) rfl
      ⟨nofun, fun _ => .inl rfl, by simp, nofun, nofun⟩ rfl nofun rfl (.inl ⟨rfl, rfl⟩) fun hf => ?_⟩
    exact First.worker (h.first hf) hi rfl rfl rfl rfl (Nat.le_succ _)
      (fun k e => by cases e; exact Nat.le_refl _) (.inr rfl)
  · rename_i k hi
    cases e
    refine ⟨_, rfl, h.move hi ⟨?_, ?_, ?_, ?_, ?_⟩ ?_ nofun ?_ ?_ nofun⟩
    · intro a; split at a <;> cases a
    · intro _; left; split <;> rfl
    · intro a; split at a <;> simp at a
    · intro g a; split at a <;> cases a
    · intro g a; split at a <;> cases a
    · split <;> rfl
    · intro k; split <;> nofun
    · intro k' a b; cases a; rw [if_pos b]
  · rename_i hi
    cases e
    exact ⟨_, rfl, Inv.worker h hi rfl rfl rfl (fun _ _ => rfl) rfl
      ⟨nofun, fun _ => .inl rfl, by simp, nofun, nofun⟩ rfl nofun rfl (.inr ⟨rfl, rfl⟩) nofun⟩
  · rename_i hi
    cases e
    exact ⟨_, rfl, h.move hi ⟨nofun, fun _ => .inl rfl, by simp, fun g a => by cases a; rfl, nofun⟩ rfl nofun nofun nofun nofun⟩
  · rename_i g hi
    have l := h.loc i _ hi
    have lt := set_same hi
    rw [if_neg (by rw [l.block1 g rfl]; exact fun a => a rfl)] at e
    split at e
    · rename_i he
      cases e
      exact ⟨_, rfl, h.move hi ⟨nofun, fun _ => .inl rfl, fun _ => he, nofun, nofun⟩ rfl nofun nofun nofun nofun⟩
    · rename_i he
      cases e
      exact ⟨_, rfl, h.move hi ⟨nofun, fun a => (by rw [he] at a; cases a), by simp, nofun, nofun⟩ rfl nofun nofun nofun nofun⟩
    · rename_i he
      rw [List.getElem?_eq_none_iff] at he
      omega
  · rename_i hi
    have l := h.loc i _ hi
    have lt := set_same hi
    split at e
    · rename_i he
      cases e
      exact ⟨_, rfl, h.move hi ⟨nofun, fun _ => .inr he, by simp, nofun, nofun⟩ rfl nofun nofun nofun nofun⟩
    · rename_i he
      cases e
      refine ⟨_, rfl, h.move hi ⟨fun _ => he, fun a => ?_, by simp, nofun, nofun⟩ rfl nofun nofun nofun nofun⟩
      rcases l.told a with b | b
      · cases b
      · rw [he] at b; cases b
    · rename_i he
      rw [List.getElem?_eq_none_iff, h.flags] at he
      omega
  · cases e
  · rename_i hi
    have l := h.loc i _ hi
    cases e
    refine ⟨_, rfl, h.move hi ⟨nofun, fun a => ?_, by simp, nofun, fun g a => by cases a; rfl⟩ rfl nofun nofun nofun nofun⟩
    rcases l.told a with b | b
    · cases b
    · exact .inr b
  · rename_i g hi
    have l := h.loc i _ hi
    have lt := set_same hi
    rw [if_neg (by rw [l.block2 g rfl]; exact fun a => a rfl)] at e
    split at e
    · rename_i he
      cases e
      exact ⟨_, rfl, h.move hi ⟨nofun, fun _ => .inl rfl, fun _ => he, nofun, nofun⟩ rfl nofun nofun nofun nofun⟩
    · rename_i he
      cases e
      exact ⟨_, rfl, h.move hi ⟨nofun, fun a => (by rw [he] at a; cases a), by simp, nofun, nofun⟩ rfl nofun nofun nofun nofun⟩
    · rename_i he
      rw [List.getElem?_eq_none_iff] at he
      omega
  · rename_i hi
    have lt := set_same hi
    split at e
    · cases e
      refine ⟨_, rfl, Inv.worker h hi rfl rfl rfl (fun _ _ => rfl) rfl
        ⟨nofun, fun _ => .inl rfl, by simp, nofun, nofun⟩ rfl nofun rfl (.inl ⟨rfl, rfl⟩) fun hf => ?_⟩
      exact First.worker (h.first hf) hi rfl rfl rfl rfl (Nat.le_refl _) nofun (.inl ⟨rfl, nofun, nofun⟩)
    · rw [if_pos (by rw [h.flags]; omega)] at e
      cases e
      refine ⟨_, rfl, Inv.worker h hi rfl rfl rfl (fun j hj => ?_) (by simp [State.setW])
        ⟨nofun, fun _ => .inl rfl, by simp, nofun, nofun⟩ rfl nofun rfl (.inl ⟨rfl, rfl⟩) fun hf => ?_⟩
      · show (s.run.set i false)[j]? = _
        rw [List.getElem?_set, if_neg (Ne.symm hj)]
      · exact First.worker (h.first hf) hi rfl rfl rfl rfl (Nat.le_refl _) nofun (.inl ⟨rfl, nofun, nofun⟩)
  · rename_i hi
    have l := h.loc i _ hi
    have lt := set_same hi
    have pos : 0 < s.running := by
      rw [h.count]
      exact List.countP_pos_iff.2 ⟨_, List.mem_of_getElem? hi, rfl⟩
    cases e
    refine ⟨_, rfl, Inv.worker h hi rfl rfl rfl (fun _ _ => rfl) rfl
      ⟨nofun, fun _ => .inl rfl, fun _ => l.ends (.inl rfl), nofun, nofun⟩ (by show s.running - 1 + 1 = _; exact Nat.sub_add_cancel pos)
      nofun rfl (.inl ⟨rfl, rfl⟩) fun hf => ?_⟩
    exact absurd (l.ends (.inl rfl)) ((h.first hf).stay i)
  · cases e

/-! ### Steps of `resize` and `stop` -/

theorem fill_get (l : List Bool) (n i : Nat) :
    (fillFrom l n)[i]? = if i < n then l[i]? else if i < l.length then some true else none := by
  unfold fillFrom
  rw [List.getElem?_append]
  simp only [List.length_take, List.getElem?_take, List.getElem?_replicate]
  by_cases h : i < n
  · by_cases k : i < l.length
    · rw [if_pos (by omega), if_pos h, if_pos h]
    · rw [if_neg (by omega), if_pos h, if_neg (by omega), List.getElem?_eq_none (by omega)]
  · rw [if_neg (by omega), if_neg h]
    by_cases k : i < l.length
    · rw [if_pos (by omega), if_pos k]
    · rw [if_neg (by omega), if_neg k]

theorem fill_length (l : List Bool) (n : Nat) : (fillFrom l n).length = l.length := by
  unfold fillFrom
  simp only [List.length_append, List.length_take, List.length_replicate]
  omega

theorem resize_length (l : List Bool) (n : Nat) (v : Bool) : (resizeV l n v).length = n := by
  unfold resizeV
  simp only [List.length_append, List.length_take, List.length_replicate]
  omega

theorem resize_get (l : List Bool) (n i : Nat) (v : Bool) :
    (resizeV l n v)[i]? = if i < n then if i < l.length then l[i]? else some v else none := by
  unfold resizeV
  rw [List.getElem?_append]
  simp only [List.length_take, List.getElem?_take, List.getElem?_replicate]
  by_cases h : i < n
  · by_cases k : i < l.length
    · rw [if_pos (by omega), if_pos h, if_pos h, if_pos k]
    · rw [if_neg (by omega), if_pos h, if_neg k, if_pos (by omega)]
  · rw [if_neg (by omega), if_neg h, if_neg (by omega)]

theorem wake_get {ws : List WPc} {i : Nat} {pc : WPc} (h : (ws.map wakeW)[i]? = some pc) :
    ∃ old, ws[i]? = some old ∧ pc = wakeW old := by
  rw [List.getElem?_map, Option.map_eq_some_iff] at h
  obtain ⟨o, a, b⟩ := h
  exact ⟨o, a, b.symm⟩

theorem wake_count (ws : List WPc) : (ws.map wakeW).countP alive = ws.countP alive := by
  rw [List.countP_map]
  congr 1
  funext p
  cases p <;> rfl

/-- Flags of workers from `n` on are set and all sleeping workers are woken up. -/
theorem loc_fill {w : Nat} {s s' : State} (h : Inv w s) (n : Nat) (hw : s'.workers = s.workers.map wakeW)
    (hr : s'.run = fillFrom s.run n) (he : s'.exit = fillFrom s.exit n) (hb : s'.block = s.block) :
    ∀ (i : Nat) pc, s'.workers[i]? = some pc → Loc s' i pc := by
  intro i pc hi
  rw [hw] at hi
  obtain ⟨old, ho, e⟩ := wake_get hi
  have l := h.loc i old ho
  have room := h.room
  have fl := h.flags
  have lt := set_same ho
  subst e
  refine ⟨fun a => ?_, fun a => ?_, fun a => ?_, fun g a => ?_, fun g a => ?_⟩
  · cases old <;> cases a
  · rw [he, fill_get] at a
    rw [hr, fill_get]
    split at a <;> rename_i k
    · rw [if_pos k]
      rcases l.told a with b | b
      · left; cases old <;> first | rfl | cases b
      · exact .inr b
    · rw [if_neg k, if_pos (by omega)]
      exact .inr rfl
  · have b : old = .leave ∨ old = .gone := by cases old <;> simp_all [wakeW]
    rw [he, fill_get, l.ends b]
    split
    · rfl
    · rw [if_pos (by omega)]
  · rw [hb]
    exact l.block1 g (by cases old <;> simp_all [wakeW])
  · rw [hb]
    exact l.block2 g (by cases old <;> simp_all [wakeW])

/-- The memory of the flags is moved only while no worker uses it. -/
def Room (s : State) : Prop := ∀ n, s.mgr = .growFlags n → s.cap < n → s.workers = []

theorem Inv.mgrStep {w : Nat} {s s' : State} {c : Nat} (h : Inv w s) (hg : Room s) (e : mgrStep s c = some s') :
    Inv w s' := by
  have room := h.room
  have fl := h.flags
  have p := h.place
  unfold PV.Life.mgrStep at e
  split at e <;> rename_i em <;> simp only [MgrOk, em] at p
  · cases e
  · rename_i n
    cases e
    obtain ⟨rfl, lt, ln⟩ := p
    refine ⟨by simp only [resize_length], fun i pc hi => ?_, h.count, ⟨rfl, lt, resize_length ..⟩, fun hf => ?_⟩
    · have l := h.loc i pc hi
      have li : i < s.workers.length := set_same (s := s) hi
      have er : (resizeV s.run n true)[i]? = s.run[i]? := by rw [resize_get, if_pos (by omega), if_pos (by omega)]
      have ee : (resizeV s.exit n false)[i]? = s.exit[i]? := by rw [resize_get, if_pos (by omega), if_pos (by omega)]
      have eb : (if s.cap < n then s.block + 1 else s.block) = s.block := by
        split
        · rename_i k
          rw [hg n em k] at li
          cases li
        · rfl
      exact ⟨fun a => er ▸ l.sleeps a, fun a => er ▸ l.told (ee ▸ a), fun a => ee ▸ l.ends a,
        fun g a => (l.block1 g a).trans eb.symm, fun g a => (l.block2 g a).trans eb.symm⟩
    · have f := h.first hf
      have fp := f.place
      simp only [starting, em] at fp
      refine ⟨fun i => ?_, fp, f.less, f.last⟩
      show (resizeV s.exit n false)[i]? ≠ _
      rw [resize_get]
      split
      · split
        · exact f.stay i
        · nofun
      · nofun
  · rename_i n
    cases e
    obtain ⟨rfl, lt, ln⟩ := p
    refine ⟨fl, fun i pc hi => ?_, h.count, ⟨rfl, by omega, by show s.workers.length ≤ n; omega, ln, rfl⟩, fun hf => ?_⟩
    · have l := h.loc i pc hi
      exact ⟨l.sleeps, l.told, l.ends, l.block1, l.block2⟩
    · have f := h.first hf
      have fp := f.place
      simp only [starting, em] at fp
      refine ⟨f.stay, trivial, f.less, fun h0 hr => ?_⟩
      have h1 : s.running = n := hr
      rw [h.count, List.length_eq_zero_iff.1 fp] at h1
      have h2 : 0 = n := h1
      omega
  · rename_i n
    obtain ⟨rfl, h0, le, ln, tc⟩ := p
    split at e <;> rename_i k
    · cases e
      refine ⟨fl, fun i pc hi => ?_, ?_, ?_, fun hf => ?_⟩
      · have hi : (s.workers ++ [.born])[i]? = some pc := hi
        rw [List.getElem?_append] at hi
        split at hi
        · have l := h.loc i pc hi
          exact ⟨l.sleeps, l.told, l.ends, l.block1, l.block2⟩
        · rw [List.getElem?_singleton] at hi
          split at hi
          · cases hi
            exact ⟨nofun, fun _ => .inl rfl, by simp, nofun, nofun⟩
          · cases hi
      · show s.running = (s.workers ++ [WPc.born]).countP alive
        rw [List.countP_append, ← h.count]
        rfl
      · have : MgrOk n { s with workers := s.workers ++ [.born] } := by
          simp only [MgrOk, em, List.length_append, List.length_singleton]
          exact ⟨trivial, h0, by omega, ln, tc⟩
        exact this
      · have f := h.first hf
        refine ⟨f.stay, ?_, fun i k hi => ?_, fun a b => ?_⟩
        · simp only [starting, em]
        · have hi : (s.workers ++ [.born])[i]? = some (.compare k) := hi
          rw [List.getElem?_append] at hi
          split at hi
          · exact f.less i k hi
          · rw [List.getElem?_singleton] at hi
            split at hi <;> cases hi
        · obtain ⟨i, hi⟩ := f.last a b
          refine ⟨i, ?_⟩
          show (s.workers ++ [WPc.born])[i]? = _ ∨ (s.workers ++ [WPc.born])[i]? = _
          have li : i < s.workers.length := by
            rcases hi with hi | hi <;> exact set_same hi
          rw [List.getElem?_append_left li]
          exact hi
    · cases e
      refine ⟨fl, fun i pc hi => ?_, h.count, ⟨rfl, h0, by show s.workers.length = n; omega, ln, tc⟩, fun hf => ?_⟩
      · have l := h.loc i pc hi
        exact ⟨l.sleeps, l.told, l.ends, l.block1, l.block2⟩
      · have f := h.first hf
        exact ⟨f.stay, trivial, f.less, f.last⟩
  · rename_i n
    obtain ⟨rfl, h0, le, ln, tc⟩ := p
    cases e
    refine ⟨fl, fun i pc hi => ?_, h.count, ?_, fun hf => ?_⟩
    · have l := h.loc i pc hi
      exact ⟨l.sleeps, l.told, l.ends, l.block1, l.block2⟩
    · cases cr : s.created
      · exact ⟨rfl, h0, le, ln, tc, rfl⟩
      · exact ⟨le, .inr (by show s.exit.length = s.workers.length; omega)⟩
    · have f := h.first hf
      have hf : s.created = false := hf
      refine ⟨f.stay, ?_, f.less, f.last⟩
      simp only [starting, hf]
      trivial
  · cases e
  · rename_i n
    obtain ⟨rfl, h0, lt, ln⟩ := p
    cases e
    refine ⟨by simp only [fill_length]; exact fl, loc_fill h n rfl rfl rfl rfl, by simp only [wake_count]; exact h.count, ?_, fun hf => ?_⟩
    · refine ⟨rfl, h0, ?_, ?_, fun i a b => ?_⟩
      · show n ≤ (s.workers.map wakeW).length
        rw [List.length_map]
        omega
      · show (fillFrom s.exit n).length = (s.workers.map wakeW).length
        rw [List.length_map, fill_length, ln]
      · have b : i < (fillFrom s.exit n).length := b
        rw [fill_length] at b
        show (fillFrom s.exit n)[i]? = _
        rw [fill_get, if_neg (by omega), if_pos b]
    · have := (h.first hf).place
      simp only [starting, em] at this
  · rename_i n
    obtain ⟨rfl, h0, le, ln, ex⟩ := p
    split at e <;> rename_i k
    · split at e <;> rename_i g
      · cases e
        obtain ⟨ws, ew⟩ := List.getLast?_eq_some_iff.1 g
        refine ⟨fl, fun i pc hi => ?_, ?_, ?_, fun hf => ?_⟩
        · have hi : s.workers.dropLast[i]? = some pc := hi
          have hi' : s.workers[i]? = some pc := by
            rw [ew, List.dropLast_concat] at hi
            rw [ew, List.getElem?_append_left (List.getElem?_eq_some_iff.1 hi).1, hi]
          have l := h.loc i pc hi'
          exact ⟨l.sleeps, l.told, l.ends, l.block1, l.block2⟩
        · show s.running = s.workers.dropLast.countP alive
          rw [h.count, ew, List.dropLast_concat, List.countP_append]
          rfl
        · refine ⟨rfl, h0, ?_, ?_, ex⟩
          · show n ≤ s.workers.dropLast.length
            rw [List.length_dropLast]
            omega
          · show s.exit.length = s.workers.dropLast.length + 1
            rw [List.length_dropLast]
            omega
        · have := (h.first hf).place
          simp only [starting, em] at this
      · cases e
    · cases e
      refine ⟨fl, fun i pc hi => ?_, h.count, ⟨by show s.workers.length = n; omega, .inr ln⟩, fun hf => ?_⟩
      · have l := h.loc i pc hi
        exact ⟨l.sleeps, l.told, l.ends, l.block1, l.block2⟩
      · have := (h.first hf).place
        simp only [starting, em] at this
  · rename_i n
    obtain ⟨rfl, h0, le, ln, ex⟩ := p
    cases e
    have ge : ∀ i, i < s.workers.length → s.exit.dropLast[i]? = s.exit[i]? := fun i hi => by
      rw [List.dropLast_eq_take, List.getElem?_take, if_pos (by omega)]
    have gr : ∀ i, i < s.workers.length → s.run.dropLast[i]? = s.run[i]? := fun i hi => by
      rw [List.dropLast_eq_take, List.getElem?_take, if_pos (by omega)]
    refine ⟨by simp only [List.length_dropLast, fl], fun i pc hi => ?_, h.count, ?_, fun hf => ?_⟩
    · have l := h.loc i pc hi
      have li : i < s.workers.length := set_same (s := s) hi
      have a := ge i li
      have b := gr i li
      exact ⟨fun x => b ▸ l.sleeps x, fun x => b ▸ l.told (a ▸ x), fun x => a ▸ l.ends x, l.block1, l.block2⟩
    · refine ⟨rfl, h0, le, ?_, fun i a b => ?_⟩
      · show s.exit.dropLast.length = s.workers.length
        rw [List.length_dropLast]
        omega
      · have b : i < s.exit.dropLast.length := b
        rw [List.length_dropLast] at b
        show s.exit.dropLast[i]? = _
        rw [ge i (by omega)]
        exact ex i a (by omega)
    · have := (h.first hf).place
      simp only [starting, em] at this
  · obtain ⟨rfl, ln⟩ := p
    cases e
    refine ⟨by simp only [fill_length]; exact fl, loc_fill h 0 rfl rfl rfl rfl, by simp only [wake_count]; exact h.count, ?_, fun hf => ?_⟩
    · refine ⟨rfl, ?_, fun i a => ?_, Nat.zero_le _, nofun⟩
      · show (fillFrom s.exit 0).length = (s.workers.map wakeW).length
        rw [List.length_map, fill_length, ln]
      · have a : i < (fillFrom s.exit 0).length := a
        rw [fill_length] at a
        show (fillFrom s.exit 0)[i]? = _
        rw [fill_get, if_neg (by omega), if_pos a]
    · have := (h.first hf).place
      simp only [starting, em] at this
  · rename_i k
    obtain ⟨rfl, ln, ex, kl, gn⟩ := p
    split at e <;> rename_i lt
    · split at e <;> rename_i g
      · cases e
        refine ⟨fl, fun i pc hi => ?_, h.count, ⟨rfl, ln, ex, lt, fun i hi => ?_⟩, fun hf => ?_⟩
        · have l := h.loc i pc hi
          exact ⟨l.sleeps, l.told, l.ends, l.block1, l.block2⟩
        · by_cases e : i = k
          · rw [e]; exact g
          · exact gn i (by omega)
        · have := (h.first hf).place
          simp only [starting, em] at this
      · cases e
    · cases e
      refine ⟨fl, fun i pc hi => ?_, ?_, ⟨rfl, .inl rfl⟩, fun hf => ?_⟩
      · simp at hi
      · show s.running = 0
        rw [h.count]
        refine List.countP_eq_zero.2 fun p hp => ?_
        obtain ⟨i, hi, e⟩ := List.mem_iff_getElem.1 hp
        have := gn i (by omega)
        rw [List.getElem?_eq_getElem hi, e] at this
        rw [Option.some.inj this]
        nofun
      · have := (h.first hf).place
        simp only [starting, em] at this

/-! ### All events -/

/-- The number of threads asked for after one more event. -/
def askedBy (w : Nat) : Ev → Nat
  | .resize n => if n = 0 then w else n
  | .stop => 0
  | _ => w

theorem Inv.step {w : Nat} {s : State} {e : Ev} {o : Out} (h : Inv w s) (hg : Room s) (hs : step s e = some o) :
    ∃ s', o = .ok s' ∧ Inv (askedBy w e) s' := by
  have room := h.room
  have fl := h.flags
  have p := h.place
  cases e with
  | worker i => exact h.workerStep hs
  | mgr c =>
    simp only [PV.Life.step, Option.map_eq_some_iff] at hs
    obtain ⟨s', a, b⟩ := hs
    exact ⟨s', b.symm, h.mgrStep hg a⟩
  | spurious i =>
    simp only [PV.Life.step] at hs
    split at hs <;> rename_i hi
    · cases hs
      have l := h.loc i _ hi
      refine ⟨_, rfl, h.move hi ⟨nofun, fun a => ?_, by simp, nofun, nofun⟩ rfl nofun nofun nofun nofun⟩
      rcases l.told a with b | b
      · cases b
      · exact .inr b
    · cases hs
  | spuriousMgr =>
    simp only [PV.Life.step] at hs
    split at hs <;> rename_i em
    · rename_i n
      cases hs
      simp only [MgrOk, em] at p
      obtain ⟨rfl, h0, le, ln, tc, _⟩ := p
      refine ⟨_, rfl, fl, fun i pc hi => ?_, h.count, ⟨rfl, h0, le, ln, tc⟩, fun hf => ?_⟩
      · have l := h.loc i pc hi
        exact ⟨l.sleeps, l.told, l.ends, l.block1, l.block2⟩
      · have f := h.first hf
        exact ⟨f.stay, trivial, f.less, f.last⟩
    · cases hs
  | add k =>
    simp only [PV.Life.step] at hs
    split at hs
    · cases hs
    cases hs
    refine ⟨_, rfl, by simp only [fill_length]; exact fl, fun i pc hi => ?_, by simp only [wake_count]; exact h.count, ?_, fun hf => ?_⟩
    · obtain ⟨old, ho, e⟩ := wake_get hi
      have l := h.loc i old ho
      have lt := set_same ho
      subst e
      refine ⟨fun a => ?_, fun a => .inr ?_, fun a => ?_, fun g a => ?_, fun g a => ?_⟩
      · cases old <;> cases a
      · show (fillFrom s.run 0)[i]? = _
        rw [fill_get, if_neg (by omega), if_pos (by omega)]
      · exact l.ends (by cases old <;> simp_all [wakeW])
      · exact l.block1 g (by cases old <;> simp_all [wakeW])
      · exact l.block2 g (by cases old <;> simp_all [wakeW])
    · show MgrOk w _
      unfold MgrOk at p ⊢
      simp only [List.length_map]
      split at p <;> first | exact p | skip
      obtain ⟨a, b, c, d, f⟩ := p
      refine ⟨a, b, c, d, fun i hi => ?_⟩
      rw [List.getElem?_map, f i hi]
      rfl
    · have f := h.first hf
      refine ⟨f.stay, ?_, fun i k hi => ?_, fun a b => ?_⟩
      · have := f.place
        unfold starting at this ⊢
        simp only [List.length_map]
        exact this
      · obtain ⟨old, ho, e⟩ := wake_get hi
        cases old <;> cases e
        exact f.less i k ho
      · obtain ⟨i, hi⟩ := f.last a b
        refine ⟨i, ?_⟩
        show (s.workers.map wakeW)[i]? = _ ∨ (s.workers.map wakeW)[i]? = _
        rw [List.getElem?_map]
        rcases hi with hi | hi
        · exact .inl (by rw [hi]; rfl)
        · exact .inr (by rw [hi]; rfl)
  | resize n =>
    simp only [PV.Life.step] at hs
    by_cases em : s.mgr ≠ .idle
    · rw [if_pos em] at hs
      cases hs
    rw [if_neg em] at hs
    have em : s.mgr = .idle := Decidable.byContradiction em
    simp only [MgrOk, em] at p
    obtain ⟨rfl, le⟩ := p
    by_cases n0 : n = 0
    · rw [if_pos n0] at hs
      cases hs
      refine ⟨_, rfl, ?_⟩
      rw [show askedBy s.workers.length (.resize n) = s.workers.length from if_pos n0]
      exact h
    rw [if_neg n0] at hs
    rw [show askedBy s.workers.length (.resize n) = n from if_neg n0]
    have keep : ∀ m : MPc, ∀ (i : Nat) pc, s.workers[i]? = some pc → Loc { s with mgr := m } i pc := fun m i pc hi => by
      have l := h.loc i pc hi
      exact ⟨l.sleeps, l.told, l.ends, l.block1, l.block2⟩
    split at hs
    · cases hs
      refine ⟨_, rfl, fl, keep _, h.count, ⟨rfl, by assumption, le⟩, fun hf => ?_⟩
      have f := h.first hf
      have fp := f.place
      simp only [starting, em] at fp
      exact ⟨f.stay, fp, f.less, f.last⟩
    · split at hs
      · cases hs
        refine ⟨_, rfl, fl, keep _, h.count, ⟨rfl, by omega, by assumption, by show s.exit.length = s.workers.length; omega⟩, fun hf => ?_⟩
        have fp := (h.first hf).place
        simp only [starting, em] at fp
        omega
      · cases hs
        refine ⟨_, rfl, fl, h.loc, h.count, ?_, h.first⟩
        simp only [MgrOk, em]
        exact ⟨by omega, le⟩
  | stop =>
    simp only [PV.Life.step] at hs
    by_cases em : s.mgr ≠ .idle
    · rw [if_pos em] at hs
      cases hs
    rw [if_neg em] at hs
    have em : s.mgr = .idle := Decidable.byContradiction em
    simp only [MgrOk, em] at p
    obtain ⟨rfl, le⟩ := p
    split at hs <;> rename_i w0
    · cases hs
      refine ⟨_, rfl, fl, fun i pc hi => ?_, h.count, ?_, fun hf => ?_⟩
      · have l := h.loc i pc hi
        exact ⟨l.sleeps, l.told, l.ends, l.block1, l.block2⟩
      · simp only [MgrOk, em, w0]
        exact ⟨rfl, .inl rfl⟩
      · have f := h.first hf
        refine ⟨f.stay, ?_, f.less, f.last⟩
        have := f.place
        unfold starting at this ⊢
        exact this
    · cases hs
      have pos : 0 < s.workers.length := List.length_pos_iff.2 w0
      refine ⟨_, rfl, fl, fun i pc hi => ?_, h.count, ⟨rfl, by show s.exit.length = s.workers.length; omega⟩, fun hf => ?_⟩
      · have l := h.loc i pc hi
        exact ⟨l.sleeps, l.told, l.ends, l.block1, l.block2⟩
      · have fp := (h.first hf).place
        simp only [starting, em] at fp
        omega

/-! ### Some thread can always move -/

theorem worker_moves {s : State} {i : Nat} {pc : WPc} (h : s.workers[i]? = some pc) (h1 : pc ≠ .asleep) (h2 : pc ≠ .gone) :
    ∃ o, workerStep s i = some o := by
  unfold workerStep
  rw [h]
  cases pc <;> simp only [] <;> first | exact absurd rfl h1 | exact absurd rfl h2 | exact ⟨_, rfl⟩ | skip
  · split
    · exact ⟨_, rfl⟩
    · split <;> exact ⟨_, rfl⟩
  · split <;> exact ⟨_, rfl⟩
  · split
    · exact ⟨_, rfl⟩
    · split <;> exact ⟨_, rfl⟩
  · split
    · exact ⟨_, rfl⟩
    · split <;> exact ⟨_, rfl⟩

theorem told_awake {w : Nat} {s : State} {i : Nat} {pc : WPc} (h : Inv w s) (hi : s.workers[i]? = some pc)
    (he : s.exit[i]? = some true) : pc ≠ .asleep := by
  intro e
  subst e
  have l := h.loc i _ hi
  rcases l.told he with a | a
  · cases a
  · rw [l.sleeps rfl] at a
    cases a

theorem Inv.progress {w : Nat} {s : State} (h : Inv w s) (hm : s.mgr ≠ .idle) :
    (∃ i o, PV.Life.workerStep s i = some o) ∨ ∃ s', PV.Life.mgrStep s 0 = some s' := by
  have p := h.place
  have room := h.room
  unfold PV.Life.mgrStep
  split <;> rename_i em <;> simp only [MgrOk, em] at p <;> first | exact absurd em hm | exact .inr ⟨_, rfl⟩ | skip
  · right; split <;> exact ⟨_, rfl⟩
  · rename_i n
    left
    obtain ⟨rfl, h0, le, ln, tc, cr⟩ := p
    have f := h.first cr
    -- some worker is not past the handshake
    have : ∃ (i : Nat) (pc : WPc), s.workers[i]? = some pc ∧ (pc = .born ∨ (∃ k, pc = .compare k) ∨ pc = .signal) := by
      apply Classical.byContradiction
      intro no
      have all : s.workers.countP alive = s.workers.length := by
        refine List.countP_eq_length.2 fun p hp => ?_
        obtain ⟨i, hi, e⟩ := List.mem_iff_getElem.1 hp
        have hi' : s.workers[i]? = some p := by rw [List.getElem?_eq_getElem hi, e]
        have l := h.loc i p hi'
        cases p <;> first | rfl | skip
        · exact absurd ⟨i, _, hi', .inl rfl⟩ no
        · exact absurd (l.ends (.inr rfl)) (f.stay i)
      obtain ⟨i, hi⟩ := f.last (by omega) (by rw [h.count, all, tc, le])
      rcases hi with hi | hi
      · exact no ⟨i, _, hi, .inr (.inl ⟨_, rfl⟩)⟩
      · exact no ⟨i, _, hi, .inr (.inr rfl)⟩
    obtain ⟨i, pc, hi, hp⟩ := this
    refine ⟨i, worker_moves hi ?_ ?_⟩
    · rcases hp with rfl | ⟨k, rfl⟩ | rfl <;> nofun
    · rcases hp with rfl | ⟨k, rfl⟩ | rfl <;> nofun
  · rename_i n
    obtain ⟨rfl, h0, le, ln, ex⟩ := p
    split
    · rename_i lt
      have li : s.workers.length - 1 < s.workers.length := by omega
      have hi := List.getElem?_eq_getElem li
      by_cases g : s.workers[s.workers.length - 1] = .gone
      · right
        rw [if_pos (by rw [List.getLast?_eq_getElem?, hi, g])]
        exact ⟨_, rfl⟩
      · left
        exact ⟨_, worker_moves hi (told_awake h hi (ex _ (by omega) (by omega))) g⟩
    · exact .inr ⟨_, rfl⟩
  · rename_i k
    obtain ⟨rfl, ln, ex, kl, gn⟩ := p
    split
    · rename_i lt
      have hi := List.getElem?_eq_getElem lt
      by_cases g : s.workers[k] = .gone
      · right
        rw [if_pos (by rw [hi, g])]
        exact ⟨_, rfl⟩
      · left
        exact ⟨_, worker_moves hi (told_awake h hi (ex _ (by omega))) g⟩
    · exact .inr ⟨_, rfl⟩

/-! ### Every call ends -/

/-- Bound on the steps of a worker until it sleeps or has ended. -/
def wt : WPc → Bool → Nat
  | .born, _ => 14
  | .compare _, _ => 13
  | .signal, _ => 12
  | .top, r => if r then 9 else 3
  | .topRead _, r => if r then 8 else 2
  | .wait, r => if r then 7 else 1
  | .woken, _ => 6
  | .wokenRead _, _ => 5
  | .fetch, _ => 4
  | .leave, _ => 1
  | .asleep, _ => 0
  | .gone, _ => 0

def total : List WPc → List Bool → Nat
  | w :: ws, r :: rs => wt w r + total ws rs
  | _, _ => 0

theorem wt_le (p : WPc) (r : Bool) : wt p r ≤ 14 := by cases p <;> cases r <;> simp [wt]

theorem total_le (ws : List WPc) (rs : List Bool) : total ws rs ≤ 14 * ws.length := by
  induction ws generalizing rs with
  | nil => simp [total]
  | cons w ws ih =>
    cases rs with
    | nil => simp [total]
    | cons r rs =>
      have := ih rs
      have := wt_le w r
      simp only [total, List.length_cons]
      omega

theorem total_set {ws : List WPc} {rs : List Bool} {i : Nat} {p : WPc} {r : Bool} (hp : ws[i]? = some p)
    (hr : rs[i]? = some r) (p' : WPc) (r' : Bool) :
    total (ws.set i p') (rs.set i r') + wt p r = total ws rs + wt p' r' := by
  induction ws generalizing rs i with
  | nil => simp at hp
  | cons w ws ih =>
    cases rs with
    | nil => simp at hr
    | cons x rs =>
      cases i with
      | zero =>
        simp only [List.getElem?_cons_zero, Option.some.injEq] at hp hr
        subst hp hr
        simp only [List.set_cons_zero, total]
        omega
      | succ i =>
        simp only [List.getElem?_cons_succ] at hp hr
        have := ih hp hr
        simp only [List.set_cons_succ, total]
        omega

theorem total_set' {ws : List WPc} {rs : List Bool} {i : Nat} {p : WPc} {r : Bool} (hp : ws[i]? = some p)
    (hr : rs[i]? = some r) (p' : WPc) : total (ws.set i p') rs + wt p r = total ws rs + wt p' r := by
  have := total_set hp hr p' r
  obtain ⟨lt, e⟩ := List.getElem?_eq_some_iff.1 hr
  rw [← e, List.set_getElem_self] at this
  rw [← e]
  exact this

/-- Only the flags of existing workers count. -/
theorem total_prefix {ws : List WPc} {rs rs' : List Bool} (h : ∀ i, i < ws.length → rs'[i]? = rs[i]?) :
    total ws rs' = total ws rs := by
  induction ws generalizing rs rs' with
  | nil => simp [total]
  | cons w ws ih =>
    have h0 := h 0 (Nat.succ_pos _)
    have hs : ∀ i, i < ws.length → rs'.tail[i]? = rs.tail[i]? := fun i hi => by
      have := h (i + 1) (by simpa using hi)
      simpa using this
    cases rs with
    | nil => cases rs' with
      | nil => rfl
      | cons r' rs' => simp at h0
    | cons r rs => cases rs' with
      | nil => simp at h0
      | cons r' rs' =>
        simp only [List.getElem?_cons_zero, Option.some.injEq] at h0
        simp only [total, h0]
        rw [ih (rs := rs) (rs' := rs') hs]

theorem total_append (ws : List WPc) (rs : List Bool) (p : WPc) : total (ws ++ [p]) rs ≤ total ws rs + 14 := by
  induction ws generalizing rs with
  | nil =>
    cases rs with
    | nil => simp [total]
    | cons r rs =>
      have := wt_le p r
      simp only [List.nil_append, total]
      omega
  | cons w ws ih =>
    cases rs with
    | nil => simp [total]
    | cons r rs =>
      have := ih rs
      simp only [List.cons_append, total]
      omega

theorem total_concat (ws : List WPc) (rs : List Bool) (p : WPc) : total ws rs ≤ total (ws ++ [p]) rs := by
  induction ws generalizing rs with
  | nil => simp [total]
  | cons w ws ih =>
    cases rs with
    | nil => simp [total]
    | cons r rs =>
      have := ih rs
      simp only [List.cons_append, total]
      omega

/-- The same for `resize` and `stop` with `l` workers. -/
def mwt (l : Nat) : MPc → Nat
  | .idle => 0
  | .growFlags n => 15 * (n - l) + 4
  | .growCount n => 15 * (n - l) + 3
  | .spawn n => 15 * (n - l) + 2
  | .waitCreated _ => 1
  | .asleep _ => 0
  | .shrinkFlags n => 14 * l + 2 * (l - n) + 2
  | .join n => 2 * (l - n) + 1
  | .pop n => 2 * (l - n) + 2
  | .stopFlags => 14 * l + l + 2
  | .stopJoin k => l - k + 1

/-- Bound on the number of steps. -/
def work (s : State) : Nat := total s.workers s.run + 6 * s.tasks + mwt s.workers.length s.mgr

theorem work_worker {w : Nat} {s s' : State} {i : Nat} (h : Inv w s) (e : workerStep s i = some (.ok s')) :
    work s' < work s := by
  have room := h.room
  have fl := h.flags
  unfold workerStep at e
  have run_some : ∀ {p : WPc}, s.workers[i]? = some p → ∃ r, s.run[i]? = some r := fun hi => by
    have := set_same hi
    exact ⟨_, List.getElem?_eq_getElem (by omega)⟩
  have move : ∀ {p p' : WPc} {r : Bool}, s.workers[i]? = some p → s.run[i]? = some r → wt p' r < wt p r →
      work (s.setW i p') < work s := fun {p p' r} hi hr hlt => by
    have := total_set' hi hr p'
    unfold work State.setW
    simp only [List.length_set]
    omega
  split at e
  · cases e
  · rename_i hi
    obtain ⟨r, hr⟩ := run_some hi
    cases e
    exact move hi hr (by show 13 < 14; decide)
  · rename_i k hi
    obtain ⟨r, hr⟩ := run_some hi
    cases e
    exact move hi hr (by split <;> cases r <;> simp [wt])
  · rename_i hi
    obtain ⟨r, hr⟩ := run_some hi
    cases e
    have := total_set' hi hr .top
    unfold work State.setW
    simp only [List.length_set]
    have hm : mwt s.workers.length (wakeM s.mgr) ≤ mwt s.workers.length s.mgr + 1 := by
      cases s.mgr <;> simp [wakeM, mwt]
    have : wt .signal r = 12 := rfl
    have : wt .top r ≤ 9 := by cases r <;> decide
    omega
  · rename_i hi
    obtain ⟨r, hr⟩ := run_some hi
    cases e
    exact move hi hr (by cases r <;> simp [wt])
  · rename_i g hi
    obtain ⟨r, hr⟩ := run_some hi
    split at e
    · cases e
    · split at e <;> cases e <;> exact move hi hr (by cases r <;> simp [wt])
  · rename_i hi
    split at e
    · rename_i hr
      cases e
      exact move hi hr (by decide)
    · rename_i hr
      cases e
      exact move hi hr (by decide)
    · cases e
  · cases e
  · rename_i hi
    obtain ⟨r, hr⟩ := run_some hi
    cases e
    exact move hi hr (by cases r <;> simp [wt])
  · rename_i g hi
    obtain ⟨r, hr⟩ := run_some hi
    split at e
    · cases e
    · split at e <;> cases e <;> exact move hi hr (by cases r <;> simp [wt])
  · rename_i hi
    obtain ⟨r, hr⟩ := run_some hi
    split at e
    · cases e
      have := total_set' hi hr .top
      unfold work State.setW
      simp only [List.length_set]
      have : wt .fetch r = 4 := rfl
      have : wt .top r ≤ 9 := by cases r <;> decide
      omega
    · split at e
      · cases e
        have := total_set hi hr .top false
        unfold work State.setW
        simp only [List.length_set]
        have : wt .fetch r = 4 := rfl
        have : wt .top false = 3 := rfl
        omega
      · cases e
  · rename_i hi
    obtain ⟨r, hr⟩ := run_some hi
    cases e
    exact move hi hr (by show 0 < 1; decide)
  · cases e

theorem work_mgr {w : Nat} {s s' : State} {c : Nat} (h : Inv w s) (e : mgrStep s c = some s') : work s' < work s := by
  have room := h.room
  have fl := h.flags
  have p := h.place
  unfold mgrStep at e
  unfold work
  split at e <;> rename_i em <;> simp only [MgrOk, em] at p <;> simp only [em]
  · cases e
  · rename_i n
    cases e
    have : total s.workers (resizeV s.run n true) = total s.workers s.run := total_prefix fun i hi => by
      rw [resize_get, if_pos (by omega), if_pos (by omega)]
    simp only [mwt, this]
    omega
  · cases e
    simp only [mwt]
    omega
  · rename_i n
    split at e
    · cases e
      have := total_append s.workers s.run .born
      simp only [em, mwt, List.length_append, List.length_singleton]
      omega
    · cases e
      simp only [mwt]
      omega
  · cases e
    split <;> simp only [mwt] <;> omega
  · cases e
  · rename_i n
    cases e
    have := total_le (s.workers.map wakeW) (fillFrom s.run n)
    simp only [mwt, List.length_map] at this ⊢
    omega
  · rename_i n
    split at e
    · split at e <;> rename_i g
      · cases e
        obtain ⟨ws, ew⟩ := List.getLast?_eq_some_iff.1 g
        have := total_concat ws s.run .gone
        have ld : s.workers.dropLast.length = s.workers.length - 1 := List.length_dropLast
        have et : total s.workers.dropLast s.run ≤ total s.workers s.run := by
          rw [ew, List.dropLast_concat]
          exact this
        simp only [mwt, ld]
        omega
      · cases e
    · cases e
      simp only [mwt]
      omega
  · rename_i n
    cases e
    have : total s.workers s.run.dropLast = total s.workers s.run := total_prefix fun i hi => by
      rw [List.dropLast_eq_take, List.getElem?_take, if_pos (by omega)]
    simp only [mwt, this]
    omega
  · cases e
    have := total_le (s.workers.map wakeW) (fillFrom s.run 0)
    simp only [mwt, List.length_map] at this ⊢
    omega
  · split at e
    · split at e
      · cases e
        simp only [mwt]
        omega
      · cases e
    · cases e
      simp only [mwt, total, List.length_nil]
      omega

end PV.Life
