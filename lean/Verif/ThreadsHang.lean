import Verif.ThreadsLive
/- Runs that can never finish: auxiliary to PropsThreads. -/
namespace PV.Thr

set_option linter.unusedSimpArgs false

theorem setW_ne (s : State) {p q : Nat} (f : Prov → Prov) (i : Nat) (w : WPc) (h : q ≠ p) :
    ((s.setProv p f).setW i w).prov q = s.prov q := if_neg h

/-- Fewer tasks are left than the provider waits for. Not in the code: for statements and proofs. -/
structure Hang (s : State) (p : Nat) : Prop where
  pc : (s.prov p).pc = .waitPred ∨ (s.prov p).pc = .asleep
  running : (s.prov p).running = true
  few : s.queue.count p + s.workers.count (.give p) + s.workers.countP (isBody p) +
    s.workers.count (.done p) + (s.prov p).completed < (s.prov p).taskCount
  fin : s.workers.count (.fin p) = 0
  stale : ∀ k, .cmp p k ∈ s.workers → k < (s.prov p).taskCount

theorem Hang.congr {s s' : State} {p : Nat} (h : Hang s p)
    (hpc : (s'.prov p).pc = .waitPred ∨ (s'.prov p).pc = .asleep)
    (hr : (s'.prov p).running = (s.prov p).running)
    (hc : (s'.prov p).completed = (s.prov p).completed)
    (ht : (s'.prov p).taskCount = (s.prov p).taskCount)
    (hq : s'.queue.count p ≤ s.queue.count p)
    (hw : s'.workers.count (.give p) + s'.workers.countP (isBody p) + s'.workers.count (.done p) ≤
      s.workers.count (.give p) + s.workers.countP (isBody p) + s.workers.count (.done p))
    (hf : s'.workers.count (.fin p) = s.workers.count (.fin p))
    (hs : ∀ k, .cmp p k ∈ s'.workers → .cmp p k ∈ s.workers) : Hang s' p := by
  have := h.few
  refine ⟨hpc, by rw [hr]; exact h.running, by rw [hc, ht]; omega, by rw [hf]; exact h.fin,
    fun k hk => by rw [ht]; exact h.stale k (hs k hk)⟩

/-- One worker moves to a place that does not concern `p` (or from one). -/
theorem Hang.move {s s' : State} {p : Nat} (h : Hang s p) {i : Nat} {w w' : WPc}
    (hw : s.workers[i]? = some w) (hs : s'.workers = s.workers.set i w')
    (hp : s'.prov p = s.prov p) (hq : s'.queue.count p ≤ s.queue.count p)
    (hn' : Neutral p w') : Hang s' p := by
  obtain ⟨n1, n2, n3, n4, n5, n6⟩ := hn'
  have c1 := count_set' (w' := w') (x := .give p) hw
  have c2 := countP_set' (w' := w') (f := isBody p) hw
  have c3 := count_set' (w' := w') (x := .done p) hw
  have c4 := count_set' (w' := w') (x := .fin p) hw
  rw [if_neg n1] at c1
  rw [n2] at c2
  rw [if_neg n3] at c3
  rw [if_neg n4] at c4
  have hf := h.fin
  refine h.congr (by rw [hp]; exact h.pc) (by rw [hp]) (by rw [hp]) (by rw [hp]) hq ?_ ?_ ?_
  · rw [hs]
    simp only [Bool.toNat_false] at c2
    omega
  · rw [hs]; omega
  · intro k hk
    rw [hs] at hk
    rcases mem_set_of hk with e | e
    · exact absurd e.symm (n5 k)
    · exact e

theorem hang_worker {s s' : State} {i : Nat} {t : Bool} {p : Nat} (h : Hang s p)
    (hs : WStep s i t s') : Hang s' p := by
  cases hs with
  | leave w hw hw' he => exact h.move hw rfl rfl (Nat.le_refl _) (by simp [Neutral, isBody])
  | stay hw he => exact h.move hw rfl rfl (Nat.le_refl _) (by simp [Neutral, isBody])
  | pass hw he => exact h.move hw rfl rfl (Nat.le_refl _) (by simp [Neutral, isBody])
  | sleep hw he => exact h.move hw rfl rfl (Nat.le_refl _) (by simp [Neutral, isBody])
  | go hw he => exact h.move hw rfl rfl (Nat.le_refl _) (by simp [Neutral, isBody])
  | empty hw he => exact h.move hw rfl rfl (Nat.le_refl _) (by simp [Neutral, isBody])
  | pop p' q hw hq =>
    by_cases hne : p' = p
    · subst hne
      have c1 := count_set' (w' := .give p') (x := .give p') hw
      have c2 := countP_set' (w' := .give p') (f := isBody p') hw
      have c3 := count_set' (w' := .give p') (x := .done p') hw
      have c4 := count_set' (w' := .give p') (x := .fin p') hw
      simp only [isBody, reduceCtorEq, if_true, if_false, Nat.add_zero, Bool.toNat_false] at c1 c2 c3 c4
      have hf := h.few
      rw [hq, List.count_cons_self] at hf
      refine ⟨h.pc, h.running, ?_, by simp only [State.setW]; rw [c4]; exact h.fin, ?_⟩
      · simp only [State.setW]; omega
      · intro k hk
        rcases mem_set_of hk with e | e
        · cases e
        · exact h.stale k e
    · refine h.move hw rfl rfl ?_ (by simp [Neutral, isBody, hne])
      show q.count p ≤ s.queue.count p
      rw [hq, List.count_cons]; omega
  | give p' hw =>
    by_cases hne : p' = p
    · subst hne
      generalize hw0 : (if (s.prov p').given < (s.prov p').taskCount then
        WPc.body p' (s.prov p').given else WPc.top) = w0
      have hn : (isBody p' w0).toNat ≤ 1 := by cases isBody p' w0 <;> simp
      have hx : w0 ≠ .give p' ∧ w0 ≠ .done p' ∧ w0 ≠ .fin p' ∧ ∀ k, w0 ≠ .cmp p' k := by
        rw [← hw0]; split <;> simp
      have c1 := count_set' (w' := w0) (x := .give p') hw
      have c2 := countP_set' (w' := w0) (f := isBody p') hw
      have c3 := count_set' (w' := w0) (x := .done p') hw
      have c4 := count_set' (w' := w0) (x := .fin p') hw
      rw [if_neg hx.1] at c1
      rw [if_neg hx.2.1] at c3
      rw [if_neg hx.2.2.1] at c4
      have e0 : isBody p' (.give p') = false := rfl
      rw [e0] at c2
      simp only [reduceCtorEq, if_true, if_false, Nat.add_zero, Bool.toNat_false] at c1 c2 c3 c4
      refine h.congr ?_ ?_ ?_ ?_ (Nat.le_refl _) ?_ ?_ ?_
      · simp only [State.setW, setProv_same]; exact h.pc
      · simp only [State.setW, setProv_same]
      · simp only [State.setW, setProv_same]
      · simp only [State.setW, setProv_same]
      · simp only [State.setW, State.setProv]; omega
      · simp only [State.setW, State.setProv]; omega
      · intro k hk
        rcases mem_set_of hk with e | e
        · exact absurd e.symm (hx.2.2.2 k)
        · exact e
    · refine h.move hw rfl (setW_ne _ _ _ _ (Ne.symm hne)) (Nat.le_refl _) ?_
      split <;> simp [Neutral, isBody, hne]
  | body p' id hw =>
    by_cases hne : p' = p
    · subst hne
      have c1 := count_set' (w' := .done p') (x := .give p') hw
      have c2 := countP_set' (w' := .done p') (f := isBody p') hw
      have c3 := count_set' (w' := .done p') (x := .done p') hw
      have c4 := count_set' (w' := .done p') (x := .fin p') hw
      simp only [isBody, reduceCtorEq, if_true, if_false, Nat.add_zero, Bool.toNat_false,
        beq_self_eq_true, Bool.toNat_true] at c1 c2 c3 c4
      refine h.congr ?_ ?_ ?_ ?_ (Nat.le_refl _) ?_ ?_ ?_
      · simp only [State.setW, setProv_same]; exact h.pc
      · simp only [State.setW, setProv_same]
      · simp only [State.setW, setProv_same]
      · simp only [State.setW, setProv_same]
      · simp only [State.setW, State.setProv]; omega
      · simp only [State.setW, State.setProv]; omega
      · intro k hk
        rcases mem_set_of hk with e | e
        · cases e
        · exact e
    · exact h.move hw rfl (setW_ne _ _ _ _ (Ne.symm hne)) (Nat.le_refl _)
        (by simp [Neutral, isBody, hne])
  | done p' hw =>
    by_cases hne : p' = p
    · subst hne
      generalize hk0 : (s.prov p').completed + 1 = k0
      have c1 := count_set' (w' := .cmp p' k0) (x := .give p') hw
      have c2 := countP_set' (w' := .cmp p' k0) (f := isBody p') hw
      have c3 := count_set' (w' := .cmp p' k0) (x := .done p') hw
      have c4 := count_set' (w' := .cmp p' k0) (x := .fin p') hw
      simp only [isBody, reduceCtorEq, if_true, if_false, Nat.add_zero, Bool.toNat_false,
        beq_self_eq_true, Bool.toNat_true] at c1 c2 c3 c4
      have hf := h.few
      refine ⟨?_, ?_, ?_, ?_, ?_⟩
      · simp only [State.setW, setProv_same]; exact h.pc
      · simp only [State.setW, setProv_same]; exact h.running
      · simp only [State.setW, setProv_same]; simp only [State.setProv]; omega
      · simp only [State.setW, State.setProv]; rw [c4]; exact h.fin
      · intro k hk
        simp only [State.setW, setProv_same]
        rcases mem_set_of hk with e | e
        · cases e; omega
        · exact h.stale k e
    · exact h.move hw rfl (setW_ne _ _ _ _ (Ne.symm hne)) (Nat.le_refl _)
        (by simp [Neutral, isBody, hne])
  | cmp p' k hw =>
    by_cases hne : p' = p
    · subst hne
      have := h.stale k (List.mem_of_getElem? hw)
      rw [if_neg (by omega)]
      exact h.move hw rfl rfl (Nat.le_refl _) (by simp [Neutral, isBody])
    · refine h.move hw rfl rfl (Nat.le_refl _) ?_
      split <;> simp [Neutral, isBody, hne]
  | fin p' hw =>
    by_cases hne : p' = p
    · subst hne
      have := count_pos_of_get hw
      have := h.fin
      omega
    · exact h.move hw rfl (setW_ne _ _ _ _ (Ne.symm hne)) (Nat.le_refl _) (by simp [Neutral, isBody])

theorem Hang.same {s s' : State} {p : Nat} (h : Hang s p) (hp : s'.prov p = s.prov p)
    (e : SameCounts s s' p) : Hang s' p := by
  refine h.congr (by rw [hp]; exact h.pc) (by rw [hp]) (by rw [hp]) (by rw [hp])
    (Nat.le_of_eq e.q) (Nat.le_of_eq (by rw [e.g, e.b, e.d])) e.f ?_
  intro k hk
  have := List.count_pos_iff.2 hk
  rw [e.c] at this
  exact List.count_pos_iff.1 this

/-- No event whatsoever gets the run out of this situation. -/
theorem hang_step {s s' : State} {p : Nat} {e : Ev} (h : Hang s p) (hs : step s e = some s') :
    Hang s' p := by
  cases e with
  | worker i t => exact hang_worker h (workerStep_cases hs)
  | user r =>
    by_cases e : p = r
    · subst e
      simp only [step, userStep] at hs
      rcases h.pc with hpc | hpc <;> rw [hpc] at hs <;> simp only [reduceCtorEq] at hs
      rw [if_pos h.running] at hs
      cases hs
      refine h.congr ?_ ?_ ?_ ?_ (Nat.le_refl _) (Nat.le_refl _) rfl (fun _ hk => hk) <;>
        rw [setProv_same]
      exact Or.inr rfl
    · simp only [step, userStep] at hs
      split at hs
      case h_5 n _ =>
        cases hs
        refine h.same (setProv_ne _ _ e) (sameCounts_wake rfl ?_)
        show (s.queue ++ List.replicate n r).count p = s.queue.count p
        rw [List.count_append, List.count_replicate, if_neg (by simpa using Ne.symm e)]
        rfl
      all_goals first
        | (cases hs; exact h.same (setProv_ne _ _ e) (sameCounts_workers rfl rfl))
        | (split at hs <;> cases hs <;>
            exact h.same (setProv_ne _ _ e) (sameCounts_workers rfl rfl))
        | cases hs
  | spurious i =>
    simp only [step] at hs
    split at hs <;> cases hs
    rename_i hw
    exact h.move hw rfl rfl (Nat.le_refl _) (by simp [Neutral, isBody])
  | spuriousUser r =>
    simp only [step] at hs
    split at hs <;> cases hs
    by_cases e : p = r
    · subst e
      refine h.congr ?_ ?_ ?_ ?_ (Nat.le_refl _) (Nat.le_refl _) rfl (fun _ hk => hk) <;>
        rw [setProv_same]
      exact Or.inl rfl
    · exact h.same (setProv_ne _ _ e) (sameCounts_workers rfl rfl)
  | start r n =>
    by_cases e : p = r
    · subst e
      simp only [step] at hs
      rcases h.pc with hpc | hpc <;> rw [hpc] at hs <;> simp at hs
    · simp only [step] at hs
      split at hs
      all_goals first | cases hs | skip
      all_goals (split at hs <;> cases hs <;>
        exact h.same (setProv_ne _ _ e) (sameCounts_workers rfl rfl))
  | clear =>
    simp only [step] at hs
    cases hs
    exact h.congr h.pc rfl rfl rfl (by simp) (Nat.le_refl _) rfl (fun _ hk => hk)
  | remove r =>
    simp only [step] at hs
    cases hs
    refine h.congr h.pc rfl rfl rfl ?_ (Nat.le_refl _) rfl (fun _ hk => hk)
    exact List.filter_sublist.count_le _
  | tellExit k =>
    simp only [step] at hs
    cases hs
    exact h.same rfl (sameCounts_wake rfl rfl)
  | popWorker =>
    simp only [step] at hs
    split at hs <;> cases hs
    rename_i hl
    refine h.same rfl (sameCounts_append (l := [.gone]) ?_ (Or.inr ?_) rfl)
    · intro w hw
      rw [List.mem_singleton.1 hw]
      exact neutral_gone p
    · obtain ⟨l, hl'⟩ := List.getLast?_eq_some_iff.1 hl
      simp [hl']
  | joinAll =>
    simp only [step] at hs
    split at hs <;> cases hs
    rename_i hl
    refine h.same rfl (sameCounts_append (l := s.workers) ?_ (Or.inr ?_) rfl)
    · intro w hw
      have := List.all_eq_true.1 hl w hw
      rw [beq_iff_eq] at this
      rw [this]
      exact neutral_gone p
    · rfl
  | grow k =>
    simp only [step] at hs
    split at hs <;> cases hs
    refine h.same rfl (sameCounts_append (l := List.replicate (k - s.workers.length) .top) ?_
      (Or.inl rfl) rfl)
    intro w hw
    rw [(List.mem_replicate.1 hw).2]
    simp [Neutral, isBody]

theorem hang_exec {p : Nat} {es : List Ev} : ∀ {s s' : State}, Hang s p → exec s es = some s' →
    Hang s' p := by
  induction es with
  | nil => intro s s' h he; cases he; exact h
  | cons e es ih =>
    intro s s' h he
    simp only [exec] at he
    split at he
    · rename_i s1 hs
      exact ih (hang_step h hs) he
    · cases he

/-- A state of a run from which pending tasks are taken away. -/
theorem Active.hang {s : State} {p : Nat} (h : Active s p)
    (hpc : (s.prov p).pc = .waitPred ∨ (s.prov p).pc = .asleep) (hq : 0 < s.queue.count p)
    {s' : State} (hp : (s'.prov p).pc = (s.prov p).pc ∧ (s'.prov p).running = (s.prov p).running ∧
      (s'.prov p).completed = (s.prov p).completed ∧ (s'.prov p).taskCount = (s.prov p).taskCount)
    (hw : s'.workers = s.workers) (hq' : s'.queue.count p = 0) : Hang s' p := by
  have h1 := h.give
  have h2 := h.flow
  have h3 : (s.prov p).running = true ∧ (s.prov p).completed < (s.prov p).taskCount ∧
      s.workers.count (.fin p) + s.workers.count (.cmp p (s.prov p).taskCount) = 0 := by
    rcases h.fin with a | a | a
    · exact a
    · omega
    · omega
  obtain ⟨e1, e2, e3, e4⟩ := hp
  refine ⟨by rw [e1]; exact hpc, by rw [e2]; exact h3.1, by rw [e3, e4, hw, hq']; omega,
    by rw [hw]; omega, ?_⟩
  intro k hk
  rw [hw] at hk
  rw [e4]
  have h4 := h.stale k hk
  have h5 := List.count_pos_iff.2 hk
  by_cases e : k = (s.prov p).taskCount
  · rw [e] at h5; omega
  · omega

/-- Every worker has ended or is about to look at its `_exit` flag, which is set. Not in the code: for statements and proofs. -/
structure Dead (s : State) : Prop where
  exit : ∀ (i : Nat) b, s.exit[i]? = some b → b = true
  place : ∀ w ∈ s.workers, w = .top ∨ w = .gone

theorem dead_step {s s' : State} {e : Ev} (h : Dead s) (hg : ∀ k, e ≠ .grow k)
    (hs : step s e = some s') : Dead s' := by
  have hwk : s.workers.map wakeW = s.workers := by
    have : ∀ w ∈ s.workers, wakeW w = id w := by
      intro w hw
      rcases h.place w hw with e | e <;> subst e <;> rfl
    rw [List.map_congr_left this, List.map_id]
  cases e with
  | worker i t =>
    have hs := workerStep_cases hs
    have hpl := fun w (hw : s.workers[i]? = some w) => h.place w (List.mem_of_getElem? hw)
    cases hs with
    | leave w hw hw' he =>
      refine ⟨h.exit, fun x hx => ?_⟩
      rcases mem_set_of hx with e | e
      · exact Or.inr e
      · exact h.place x e
    | stay hw he => have := h.exit i _ he; cases this
    | pass hw => have := hpl _ hw; simp at this
    | sleep hw => have := hpl _ hw; simp at this
    | go hw => have := hpl _ hw; simp at this
    | pop _ _ hw => have := hpl _ hw; simp at this
    | empty hw => have := hpl _ hw; simp at this
    | give _ hw => have := hpl _ hw; simp at this
    | body _ _ hw => have := hpl _ hw; simp at this
    | done _ hw => have := hpl _ hw; simp at this
    | cmp _ _ hw => have := hpl _ hw; simp at this
    | fin _ hw => have := hpl _ hw; simp at this
  | user r =>
    simp only [step, userStep] at hs
    split at hs
    case h_5 =>
      cases hs
      refine ⟨h.exit, ?_⟩
      show ∀ w ∈ s.workers.map wakeW, _
      rw [hwk]; exact h.place
    all_goals first
      | (cases hs; exact ⟨h.exit, h.place⟩)
      | (split at hs <;> cases hs <;> exact ⟨h.exit, h.place⟩)
      | cases hs
  | spurious i =>
    simp only [step] at hs
    split at hs <;> cases hs
    rename_i hw
    have := h.place _ (List.mem_of_getElem? hw)
    simp at this
  | spuriousUser r =>
    simp only [step] at hs
    split at hs <;> cases hs
    exact ⟨h.exit, h.place⟩
  | start r n =>
    simp only [step] at hs
    split at hs
    all_goals first | cases hs | skip
    all_goals (split at hs <;> cases hs <;> exact ⟨h.exit, h.place⟩)
  | clear => simp only [step] at hs; cases hs; exact ⟨h.exit, h.place⟩
  | remove r => simp only [step] at hs; cases hs; exact ⟨h.exit, h.place⟩
  | tellExit k =>
    simp only [step] at hs
    cases hs
    refine ⟨?_, by simp only [hwk]; exact h.place⟩
    intro i b hb
    have hm := List.mem_of_getElem? hb
    rcases List.mem_append.1 hm with hm | hm
    · obtain ⟨j, hj, e⟩ := List.getElem_of_mem (List.mem_of_mem_take hm)
      exact h.exit j b (by rw [List.getElem?_eq_getElem hj, e])
    · obtain ⟨_, _, e⟩ := List.mem_map.1 hm
      exact e.symm
  | popWorker =>
    simp only [step] at hs
    split at hs <;> cases hs
    refine ⟨?_, fun w hw => h.place w (List.dropLast_subset _ hw)⟩
    intro i b hb
    have hm := List.dropLast_subset _ (List.mem_of_getElem? hb)
    obtain ⟨j, hj, e⟩ := List.getElem_of_mem hm
    exact h.exit j b (by rw [List.getElem?_eq_getElem hj, e])
  | joinAll =>
    simp only [step] at hs
    split at hs <;> cases hs
    exact ⟨h.exit, fun w hw => by simp at hw⟩
  | grow k => exact absurd rfl (hg k)

end PV.Thr
