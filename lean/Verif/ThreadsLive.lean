import Verif.ThreadsInv
/- No lost wake-up and a bound on the work left: auxiliary to PropsThreads. -/
namespace PV.Thr

/-- Not in the code: for statements and proofs. -/
structure GInv (s : State) : Prop where
  len : s.run.length = s.exit.length
  wl : s.workers = [] ∨ s.workers.length = s.run.length
  idle : ∀ i : Nat, s.run[i]? = some false → s.queue = []
  slp : ∀ i : Nat, s.workers[i]? = some .asleep → s.run[i]? = some false
  rdy : ∀ (i : Nat) w, s.workers[i]? = some w → (w = .woken ∨ w = .fetch) → s.run[i]? = some true
  gone : ∀ i : Nat, s.workers[i]? = some .gone → s.exit[i]? = some true

theorem get_lt {α} {l : List α} {i : Nat} {a : α} (h : l[i]? = some a) : i < l.length :=
  (List.getElem?_eq_some_iff.1 h).1

theorem get_set {l : List WPc} {i j : Nat} {w w' x : WPc} (h : l[i]? = some w)
    (hj : (l.set i w')[j]? = some x) : (j = i ∧ x = w') ∨ (j ≠ i ∧ l[j]? = some x) := by
  rw [List.getElem?_set] at hj
  by_cases e : i = j
  · subst e
    rw [if_pos rfl, if_pos (get_lt h)] at hj
    cases hj
    exact Or.inl ⟨rfl, rfl⟩
  · rw [if_neg e] at hj
    exact Or.inr ⟨Ne.symm e, hj⟩

theorem get_wake {l : List WPc} {j : Nat} {x : WPc} (h : (l.map wakeW)[j]? = some x)
    (hx : x ≠ .wait) : l[j]? = some x ∧ x ≠ .asleep := by
  rw [List.getElem?_map] at h
  cases hl : l[j]? with
  | none => rw [hl] at h; cases h
  | some w =>
    rw [hl] at h
    simp only [Option.map_some, Option.some.injEq] at h
    cases w <;> simp only [wakeW] at h <;> subst h <;> simp_all

/-- Only the place of worker `i` changes. -/
theorem GInv.move {s s' : State} (h : GInv s) {i : Nat} {w w' : WPc}
    (hw : s.workers[i]? = some w) (hs : s'.workers = s.workers.set i w')
    (hq : s.queue = [] → s'.queue = []) (hr : s'.run = s.run) (he : s'.exit = s.exit)
    (h1 : w' = .asleep → s.run[i]? = some false)
    (h2 : (w' = .woken ∨ w' = .fetch) → s.run[i]? = some true)
    (h3 : w' = .gone → s.exit[i]? = some true) : GInv s' := by
  refine ⟨by rw [hr, he]; exact h.len, ?_, ?_, ?_, ?_, ?_⟩
  · rcases h.wl with e | e
    · left; rw [hs, e]; rfl
    · right; rw [hs, hr, List.length_set]; exact e
  · intro j hj; rw [hr] at hj; exact hq (h.idle j hj)
  · intro j hj
    rw [hs] at hj; rw [hr]
    rcases get_set hw hj with ⟨e1, e2⟩ | ⟨_, e2⟩
    · subst e1; exact h1 e2.symm
    · exact h.slp j e2
  · intro j x hj hx
    rw [hs] at hj; rw [hr]
    rcases get_set hw hj with ⟨e1, e2⟩ | ⟨_, e2⟩
    · subst e1; subst e2; exact h2 hx
    · exact h.rdy j x e2 hx
  · intro j hj
    rw [hs] at hj; rw [he]
    rcases get_set hw hj with ⟨e1, e2⟩ | ⟨_, e2⟩
    · subst e1; exact h3 e2.symm
    · exact h.gone j e2

theorem ginv_worker {s s' : State} {i : Nat} {t : Bool} (h : GInv s)
    (hs : WStep s i t s') : GInv s' := by
  cases hs with
  | leave w hw hw' he => exact h.move hw rfl id rfl rfl (by simp) (by simp) fun _ => he
  | stay hw he => exact h.move hw rfl id rfl rfl (by simp) (by simp) (by simp)
  | pass hw hr => exact h.move hw rfl id rfl rfl (by simp) (fun _ => hr) (by simp)
  | sleep hw hr => exact h.move hw rfl id rfl rfl (fun _ => hr) (by simp) (by simp)
  | go hw he =>
    exact h.move hw rfl id rfl rfl (by simp) (fun _ => h.rdy i _ hw (Or.inl rfl)) (by simp)
  | pop p q hw hq =>
    exact h.move hw rfl (fun e => by rw [e] at hq; cases hq) rfl rfl (by simp) (by simp) (by simp)
  | empty hw hq =>
    refine ⟨?_, ?_, fun _ _ => hq, ?_, ?_, ?_⟩
    · show (s.run.set i false).length = s.exit.length
      rw [List.length_set]; exact h.len
    · rcases h.wl with e | e
      · left; show s.workers.set i .top = []; rw [e]; rfl
      · right
        show (s.workers.set i .top).length = (s.run.set i false).length
        rw [List.length_set, List.length_set]; exact e
    · intro j hj
      rcases get_set hw hj with ⟨_, e2⟩ | ⟨e1, e2⟩
      · cases e2
      · show (s.run.set i false)[j]? = _
        rw [List.getElem?_set, if_neg (Ne.symm e1)]
        exact h.slp j e2
    · intro j x hj hx
      rcases get_set hw hj with ⟨_, e2⟩ | ⟨e1, e2⟩
      · subst e2; simp at hx
      · show (s.run.set i false)[j]? = _
        rw [List.getElem?_set, if_neg (Ne.symm e1)]
        exact h.rdy j x e2 hx
    · intro j hj
      rcases get_set hw hj with ⟨_, e2⟩ | ⟨e1, e2⟩
      · cases e2
      · exact h.gone j e2
  | give p hw =>
    refine h.move hw rfl id rfl rfl ?_ ?_ ?_ <;> split <;> simp
  | body p id' hw => exact h.move hw rfl id rfl rfl (by simp) (by simp) (by simp)
  | done p hw => exact h.move hw rfl id rfl rfl (by simp) (by simp) (by simp)
  | cmp p k hw =>
    refine h.move hw rfl id rfl rfl ?_ ?_ ?_ <;> split <;> simp
  | fin p hw => exact h.move hw rfl id rfl rfl (by simp) (by simp) (by simp)

theorem GInv.prov {s : State} (h : GInv s) (f : Nat → Prov) : GInv { s with prov := f } :=
  ⟨h.len, h.wl, h.idle, h.slp, h.rdy, h.gone⟩

theorem ginv_step {s s' : State} {e : Ev} (h : GInv s) (hs : step s e = some s') : GInv s' := by
  cases e with
  | worker i t => exact ginv_worker h (workerStep_cases hs)
  | user r =>
    simp only [step, userStep] at hs
    split at hs
    case h_5 =>
      cases hs
      refine GInv.prov (s := { s with
        queue := _, run := s.run.map fun _ => true, workers := s.workers.map wakeW }) ?_ _
      refine ⟨by simp only [List.length_map]; exact h.len, ?_, ?_, ?_, ?_, ?_⟩
      · rcases h.wl with e | e
        · left; simp only [e]; rfl
        · right; simp only [List.length_map]; exact e
      · intro i hi
        simp only [List.getElem?_map] at hi
        cases hx : s.run[i]? <;> rw [hx] at hi <;> simp at hi
      · intro i hi
        exact absurd rfl (get_wake hi (by simp)).2
      · intro i x hi hx
        have := h.rdy i x (get_wake hi (by rcases hx with e | e <;> rw [e] <;> simp)).1 hx
        simp only [List.getElem?_map, this, Option.map_some]
      · intro i hi
        exact h.gone i (get_wake hi (by simp)).1
    all_goals first | (cases hs; exact h.prov _) | (split at hs <;> cases hs <;> exact h.prov _) | cases hs
  | spurious i =>
    simp only [step] at hs
    split at hs <;> cases hs
    rename_i hw
    exact h.move hw rfl id rfl rfl (by simp) (by simp) (by simp)
  | spuriousUser r =>
    simp only [step] at hs
    split at hs <;> cases hs
    exact h.prov _
  | start r n =>
    simp only [step] at hs
    split at hs
    all_goals first | cases hs | skip
    all_goals (split at hs <;> cases hs <;> exact h.prov _)
  | clear =>
    simp only [step] at hs
    cases hs
    exact ⟨h.len, h.wl, fun _ _ => rfl, h.slp, h.rdy, h.gone⟩
  | remove r =>
    simp only [step] at hs
    cases hs
    refine ⟨h.len, h.wl, fun i hi => ?_, h.slp, h.rdy, h.gone⟩
    simp only [h.idle i hi, List.filter_nil]
  | tellExit k =>
    simp only [step] at hs
    cases hs
    have hg : ∀ (l : List Bool) (i : Nat), (l.take k ++ (l.drop k).map fun _ => true)[i]? =
        if i < k then l[i]? else (l[i]?).map fun _ => true := by
      intro l i
      rw [List.getElem?_append]
      by_cases hik : i < k
      · rw [if_pos hik, List.length_take]
        split
        · rw [List.getElem?_take, if_pos hik]
        · rw [List.getElem?_map, List.getElem?_drop, List.getElem?_eq_none (by omega),
            List.getElem?_eq_none (by omega)]
          rfl
      · rw [if_neg hik, List.length_take]
        split
        · omega
        · rw [List.getElem?_map, List.getElem?_drop]
          by_cases hl : k ≤ l.length
          · congr 2; omega
          · rw [List.getElem?_eq_none (by omega), List.getElem?_eq_none (by omega)]
    refine ⟨?_, ?_, ?_, ?_, ?_, ?_⟩
    · simp only [List.length_append, List.length_map, List.length_take, List.length_drop, h.len]
    · rcases h.wl with e | e
      · left; simp only [e]; rfl
      · right
        simp only [List.length_append, List.length_map, List.length_take, List.length_drop]
        omega
    · intro i hi
      simp only [hg] at hi
      split at hi
      · exact h.idle i hi
      · cases hx : s.run[i]? <;> rw [hx] at hi <;> simp at hi
    · intro i hi
      exact absurd rfl (get_wake hi (by simp)).2
    · intro i x hi hx
      have := h.rdy i x (get_wake hi (by rcases hx with e | e <;> rw [e] <;> simp)).1 hx
      simp only [hg, this, Option.map_some, ite_self]
    · intro i hi
      have := h.gone i (get_wake hi (by simp)).1
      simp only [hg, this, Option.map_some, ite_self]
  | popWorker =>
    simp only [step] at hs
    split at hs <;> cases hs
    rename_i hl
    have hwl : s.workers.length = s.run.length := by
      rcases h.wl with e | e
      · rw [e] at hl; cases hl
      · exact e
    have hd : ∀ {α} (l : List α) (i : Nat), i < l.length - 1 → l.dropLast[i]? = l[i]? := by
      intro α l i hi
      rw [List.dropLast_eq_take, List.getElem?_take, if_pos hi]
    have hd' : ∀ {α} (l : List α) (i : Nat) (a : α), l.dropLast[i]? = some a →
        l[i]? = some a ∧ i < l.length - 1 := by
      intro α l i a hi
      have := get_lt hi
      rw [List.length_dropLast] at this
      rw [hd l i this] at hi
      exact ⟨hi, this⟩
    refine ⟨?_, Or.inr ?_, ?_, ?_, ?_, ?_⟩
    · simp only [List.length_dropLast, h.len]
    · simp only [List.length_dropLast, hwl]
    · intro i hi
      exact h.idle i (hd' _ _ _ hi).1
    · intro i hi
      obtain ⟨h1, h2⟩ := hd' _ _ _ hi
      show s.run.dropLast[i]? = _
      rw [hd _ _ (by omega)]
      exact h.slp i h1
    · intro i x hi hx
      obtain ⟨h1, h2⟩ := hd' _ _ _ hi
      show s.run.dropLast[i]? = _
      rw [hd _ _ (by omega)]
      exact h.rdy i x h1 hx
    · intro i hi
      obtain ⟨h1, h2⟩ := hd' _ _ _ hi
      show s.exit.dropLast[i]? = _
      have := h.len
      rw [hd _ _ (by omega)]
      exact h.gone i h1
  | joinAll =>
    simp only [step] at hs
    split at hs <;> cases hs
    exact ⟨h.len, Or.inl rfl, h.idle, fun i hi => by simp at hi, fun i x hi => by simp at hi,
      fun i hi => by simp at hi⟩
  | grow k =>
    simp only [step] at hs
    split at hs <;> cases hs
    rename_i hk
    have hrv : ∀ (l : List Bool) v, (resizeV l k v).length = k := by
      intro l v
      simp only [resizeV, List.length_append, List.length_take, List.length_replicate]
      omega
    have hold : ∀ (l : List Bool) v (i : Nat) (b : Bool), (resizeV l k v)[i]? = some b →
        l[i]? = some b ∨ b = v := by
      intro l v i b hi
      unfold resizeV at hi
      rw [List.getElem?_append] at hi
      split at hi
      · rename_i hlt
        rw [List.length_take] at hlt
        rw [List.getElem?_take, if_pos (by omega)] at hi
        exact Or.inl hi
      · right
        have := (List.getElem?_eq_some_iff.1 hi).2
        simp only [List.getElem_replicate] at this
        exact this.symm
    have hkeep : ∀ (l : List Bool) v (i : Nat), i < k → i < l.length → (resizeV l k v)[i]? = l[i]? := by
      intro l v i h1 h2
      unfold resizeV
      rw [List.getElem?_append, if_pos (by rw [List.length_take]; omega), List.getElem?_take,
        if_pos h1]
    have hwk : ∀ (i : Nat) w, (s.workers ++ List.replicate (k - s.workers.length) WPc.top)[i]? = some w →
        w ≠ .top → s.workers[i]? = some w := by
      intro i w hi hw
      rw [List.getElem?_append] at hi
      split at hi
      · exact hi
      · have := (List.getElem?_eq_some_iff.1 hi).2
        simp only [List.getElem_replicate] at this
        exact absurd this.symm hw
    refine ⟨by rw [hrv, hrv], Or.inr ?_, ?_, ?_, ?_, ?_⟩
    · rw [hrv]
      simp only [List.length_append, List.length_replicate]
      omega
    · intro i hi
      rcases hold _ _ _ _ hi with e | e
      · exact h.idle i e
      · cases e
    · intro i hi
      have h1 := hwk i _ hi (by simp)
      have h2 := h.slp i h1
      show (resizeV s.run k true)[i]? = _
      rw [hkeep _ _ _ (by have := get_lt h1; omega) (get_lt h2)]
      exact h2
    · intro i x hi hx
      have h1 := hwk i _ hi (by rcases hx with e | e <;> rw [e] <;> simp)
      have h2 := h.rdy i x h1 hx
      show (resizeV s.run k true)[i]? = _
      rw [hkeep _ _ _ (by have := get_lt h1; omega) (get_lt h2)]
      exact h2
    · intro i hi
      have h1 := hwk i _ hi (by simp)
      have h2 := h.gone i h1
      show (resizeV s.exit k false)[i]? = _
      rw [hkeep _ _ _ (by have := get_lt h1; omega) (get_lt h2)]
      exact h2

/-! ### The work left -/

/-- Not in the code: for statements and proofs. -/
def wt : WPc → Nat
  | .top => 4
  | .wait => 3
  | .asleep => 0
  | .woken => 2
  | .fetch => 1
  | .give _ => 10
  | .body _ _ => 9
  | .done _ => 8
  | .cmp _ _ => 7
  | .fin _ => 6
  | .gone => 0

/-- An upper bound for the number of steps the workers can still make on their own. Not in the code: for statements and proofs. -/
def work (s : State) : Nat :=
  10 * s.queue.length + (s.workers.map wt).sum + 5 * s.run.count true

theorem sum_set {l : List WPc} {i : Nat} {w w' : WPc} (h : l[i]? = some w) :
    ((l.set i w').map wt).sum + wt w = (l.map wt).sum + wt w' := by
  induction l generalizing i with
  | nil => simp at h
  | cons a l ih =>
    cases i with
    | zero =>
      simp only [List.getElem?_cons_zero, Option.some.injEq] at h
      subst h
      simp only [List.set_cons_zero, List.map_cons, List.sum_cons]
      omega
    | succ i =>
      simp only [List.getElem?_cons_succ] at h
      have := ih h
      simp only [List.set_cons_succ, List.map_cons, List.sum_cons]
      omega

theorem count_set_false {l : List Bool} {i : Nat} (h : l[i]? = some true) :
    (l.set i false).count true + 1 = l.count true := by
  induction l generalizing i with
  | nil => simp at h
  | cons a l ih =>
    cases i with
    | zero =>
      simp only [List.getElem?_cons_zero, Option.some.injEq] at h
      subst h
      simp [List.count_cons]
    | succ i =>
      simp only [List.getElem?_cons_succ] at h
      have := ih h
      simp only [List.set_cons_succ, List.count_cons]
      omega

theorem work_lt {s s' : State} {i : Nat} {t : Bool} (h : GInv s) (hs : WStep s i t s') :
    work s' < work s := by
  have hm : ∀ {w w' : WPc}, s.workers[i]? = some w → wt w' < wt w →
      10 * s.queue.length + ((s.workers.set i w').map wt).sum + 5 * s.run.count true < work s := by
    intro w w' hw hlt
    have := sum_set (w' := w') hw
    unfold work
    omega
  cases hs with
  | leave w hw hw' he => exact hm hw (by rcases hw' with e | e <;> subst e <;> decide)
  | stay hw he => exact hm hw (by decide)
  | pass hw hr => exact hm hw (by decide)
  | sleep hw hr => exact hm hw (by decide)
  | go hw he => exact hm hw (by decide)
  | pop p q hw hq =>
    have := sum_set (w' := .give p) hw
    have e1 : wt (.give p) = 10 := rfl
    have e2 : wt .fetch = 1 := rfl
    show 10 * q.length + ((s.workers.set i (.give p)).map wt).sum + 5 * s.run.count true < work s
    unfold work
    rw [hq, List.length_cons]
    omega
  | empty hw hq =>
    have h1 := sum_set (w' := .top) hw
    have h2 := count_set_false (h.rdy i _ hw (Or.inr rfl))
    have e1 : wt .top = 4 := rfl
    have e2 : wt .fetch = 1 := rfl
    show 10 * s.queue.length + ((s.workers.set i .top).map wt).sum +
      5 * (s.run.set i false).count true < work s
    unfold work
    omega
  | give p hw =>
    refine hm hw ?_
    split <;> simp [wt]
  | body p id hw => exact hm (w' := .done p) hw (by simp [wt])
  | done p hw => exact hm (w' := .cmp p _) hw (by simp [wt])
  | cmp p k hw =>
    refine hm hw ?_
    split <;> simp [wt]
  | fin p hw => exact hm (w' := .top) hw (by simp [wt])

/-- When no worker can move, all workers sleep or have ended. -/
theorem stuck_cases {s : State} (h : GInv s) (hst : ∀ i, workerStep s i false = none)
    {i : Nat} {w : WPc} (hw : s.workers[i]? = some w) : w = .asleep ∨ w = .gone := by
  have hs := hst i
  have hne : s.workers.length = s.run.length := by
    rcases h.wl with e | e
    · rw [e] at hw; simp at hw
    · exact e
  have hlt := get_lt hw
  have hr : ∃ b, s.run[i]? = some b := ⟨_, List.getElem?_eq_getElem (by omega)⟩
  have he : ∃ b, s.exit[i]? = some b :=
    ⟨_, List.getElem?_eq_getElem (by have := h.len; omega)⟩
  obtain ⟨r, hr⟩ := hr
  obtain ⟨e, he⟩ := he
  unfold workerStep at hs
  rw [hw] at hs
  cases w <;> simp only [hr, he] at hs <;> try (cases r <;> cases e <;> simp at hs)
  · exact Or.inl rfl
  · exact absurd hs (by split <;> simp)
  · exact Or.inr rfl

theorem stuck_done' {s : State} (h : GInv s) (hst : ∀ i, workerStep s i false = none)
    (hq : s.queue = []) {p : Nat} (ha : Active s p) : (s.prov p).running = false := by
  have hall : ∀ w ∈ s.workers, w = .asleep ∨ w = .gone := by
    intro w hw
    obtain ⟨j, hj, e⟩ := List.getElem_of_mem hw
    exact stuck_cases h hst (i := j) (by rw [List.getElem?_eq_getElem hj, e])
  have z : ∀ x : WPc, x ≠ .asleep → x ≠ .gone → s.workers.count x = 0 := by
    intro x h1 h2
    refine List.count_eq_zero.2 fun hx => ?_
    rcases hall x hx with e | e
    · exact h1 e
    · exact h2 e
  have zb : s.workers.countP (isBody p) = 0 := List.countP_eq_zero.2 fun w hw => by
    rcases hall w hw with e | e <;> subst e <;> simp [isBody]
  have h1 := ha.give
  have h2 := ha.flow
  rw [hq, z _ (by simp) (by simp)] at h1
  rw [zb, z _ (by simp) (by simp)] at h2
  simp only [List.count_nil, Nat.zero_add] at h1 h2
  rcases ha.fin with ⟨a, b, c⟩ | ⟨a, b, c⟩ | ⟨a, b, c⟩
  · omega
  · rw [z _ (by simp) (by simp), z _ (by simp) (by simp)] at c
    omega
  · exact a

theorem stuck_done {s : State} (h : GInv s) (hst : ∀ i, workerStep s i false = none)
    {i : Nat} (hi : i < s.workers.length) (he : s.exit[i]? = some false) {p : Nat}
    (ha : Active s p) : (s.prov p).running = false := by
  have hw : s.workers[i]? = some s.workers[i] := List.getElem?_eq_getElem hi
  have hsl : s.workers[i]? = some .asleep := by
    rcases stuck_cases h hst hw with e | e
    · rw [hw, e]
    · rw [e] at hw
      have := h.gone i hw
      rw [he] at this
      cases this
  exact stuck_done' h hst (h.idle i (h.slp i hsl)) ha

end PV.Thr
