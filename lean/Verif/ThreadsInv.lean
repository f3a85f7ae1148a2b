import Verif.Threads
/- Invariants of the thread pool model.  Auxiliary to PropsThreads. -/
namespace PV.Thr

set_option linter.unusedSimpArgs false

def isBody (p : Nat) : WPc → Bool
  | .body q _ => q == p
  | _ => false

theorem countP_set' {f : WPc → Bool} {l : List WPc} {i : Nat} {w w' : WPc} (h : l[i]? = some w) :
    (l.set i w').countP f + (f w).toNat = l.countP f + (f w').toNat := by
  induction l generalizing i with
  | nil => simp at h
  | cons a l ih =>
    cases i with
    | zero =>
      simp only [List.getElem?_cons_zero, Option.some.injEq] at h
      subst h
      simp only [List.set_cons_zero, List.countP_cons]
      cases f a <;> cases f w' <;> simp
    | succ i =>
      simp only [List.getElem?_cons_succ] at h
      have := ih h
      simp only [List.set_cons_succ, List.countP_cons]
      omega

theorem count_set' {l : List WPc} {i : Nat} {w w' x : WPc} (h : l[i]? = some w) :
    (l.set i w').count x + (if w = x then 1 else 0) = l.count x + (if w' = x then 1 else 0) := by
  have := countP_set' (w' := w') (f := (· == x)) h
  have e : ∀ a : WPc, (a == x).toNat = if a = x then 1 else 0 := by
    intro a
    by_cases h : a = x
    · simp [h]
    · simp [h]
  simp only [e] at this
  exact this

/-- Nothing of provider `p` is in the pool (values of a finished run may linger in workers that
    have not compared them yet). -/
structure Setup (s : State) (p : Nat) : Prop where
  q : s.queue.count p = 0
  g : s.workers.count (.give p) = 0
  b : s.workers.countP (isBody p) = 0
  d : s.workers.count (.done p) = 0
  f : s.workers.count (.fin p) = 0
  stale : ∀ k, .cmp p k ∈ s.workers → k < (s.prov p).taskCount
  log : (s.prov p).log = []
  threw : (s.prov p).threw = false
  exc : (s.prov p).exc = false

/-- The bookkeeping of a run. -/
structure Active (s : State) (p : Nat) : Prop where
  give : s.queue.count p + s.workers.count (.give p) + (s.prov p).given = (s.prov p).taskCount
  flow : (s.prov p).given =
    s.workers.countP (isBody p) + s.workers.count (.done p) + (s.prov p).completed
  stale : ∀ k, .cmp p k ∈ s.workers → k ≤ (s.prov p).taskCount
  fin :
    ((s.prov p).running = true ∧ (s.prov p).completed < (s.prov p).taskCount ∧
      s.workers.count (.fin p) + s.workers.count (.cmp p (s.prov p).taskCount) = 0) ∨
    ((s.prov p).running = true ∧ (s.prov p).completed = (s.prov p).taskCount ∧
      s.workers.count (.fin p) + s.workers.count (.cmp p (s.prov p).taskCount) = 1) ∨
    ((s.prov p).running = false ∧ (s.prov p).completed = (s.prov p).taskCount ∧
      s.workers.count (.fin p) + s.workers.count (.cmp p (s.prov p).taskCount) = 0)
  log : ∀ id, (s.prov p).log.count id + s.workers.count (.body p id) =
    if id < (s.prov p).given then 1 else 0
  want : (s.prov p).taskCount = (s.prov p).want


theorem count_pos_of_get {l : List WPc} {i : Nat} {w : WPc} (h : l[i]? = some w) :
    0 < l.count w := List.count_pos_iff.2 (List.mem_of_getElem? h)

theorem countP_pos_of_get {l : List WPc} {i : Nat} {w : WPc} {f : WPc → Bool}
    (h : l[i]? = some w) (hf : f w = true) : 0 < l.countP f :=
  List.countP_pos_iff.2 ⟨w, List.mem_of_getElem? h, hf⟩

theorem mem_set_of {l : List WPc} {i : Nat} {a x : WPc} (h : x ∈ l.set i a) : x = a ∨ x ∈ l := by
  rcases List.mem_or_eq_of_mem_set h with h | h
  · exact Or.inr h
  · exact Or.inl h

/-- How a step of a worker changes the pool: which step was taken. -/
inductive WStep (s : State) (i : Nat) (t : Bool) : State → Prop where
  | leave (w) (hw : s.workers[i]? = some w) (hw' : w = .top ∨ w = .woken)
      (he : s.exit[i]? = some true) : WStep s i t (s.setW i .gone)
  | stay (hw : s.workers[i]? = some .top) (he : s.exit[i]? = some false) :
      WStep s i t (s.setW i .wait)
  | pass (hw : s.workers[i]? = some .wait) (hr : s.run[i]? = some true) :
      WStep s i t (s.setW i .woken)
  | sleep (hw : s.workers[i]? = some .wait) (hr : s.run[i]? = some false) :
      WStep s i t (s.setW i .asleep)
  | go (hw : s.workers[i]? = some .woken) (he : s.exit[i]? = some false) :
      WStep s i t (s.setW i .fetch)
  | pop (p q) (hw : s.workers[i]? = some .fetch) (hq : s.queue = p :: q) :
      WStep s i t ({ s with queue := q }.setW i (.give p))
  | empty (hw : s.workers[i]? = some .fetch) (hq : s.queue = []) :
      WStep s i t ({ s with run := s.run.set i false }.setW i .top)
  | give (p) (hw : s.workers[i]? = some (.give p)) :
      WStep s i t ((s.setProv p fun P => { P with given := P.given + 1 }).setW i
        (if (s.prov p).given < (s.prov p).taskCount then .body p (s.prov p).given else .top))
  | body (p id) (hw : s.workers[i]? = some (.body p id)) :
      WStep s i t ((s.setProv p fun P => { P with
        log := id :: P.log, exc := P.exc || t, threw := P.threw || t }).setW i (.done p))
  | done (p) (hw : s.workers[i]? = some (.done p)) :
      WStep s i t ((s.setProv p fun P => { P with completed := P.completed + 1 }).setW i
        (.cmp p ((s.prov p).completed + 1)))
  | cmp (p k) (hw : s.workers[i]? = some (.cmp p k)) :
      WStep s i t (s.setW i (if k = (s.prov p).taskCount then .fin p else .top))
  | fin (p) (hw : s.workers[i]? = some (.fin p)) :
      WStep s i t ((s.setProv p fun P => { P with running := false, pc := wakeU P.pc }).setW i .top)

theorem workerStep_cases {s s' : State} {i : Nat} {t : Bool} (h : workerStep s i t = some s') :
    WStep s i t s' := by
  unfold workerStep at h
  split at h
  · cases h
  · split at h <;> first | cases h | skip
    · exact .leave _ ‹_› (Or.inl rfl) ‹_›
    · exact .stay ‹_› ‹_›
  · split at h <;> first | cases h | skip
    · exact .pass ‹_› ‹_›
    · exact .sleep ‹_› ‹_›
  · cases h
  · split at h <;> first | cases h | skip
    · exact .leave _ ‹_› (Or.inr rfl) ‹_›
    · exact .go ‹_› ‹_›
  · split at h <;> first | cases h | skip
    · exact .pop _ _ ‹_› ‹_›
    · exact .empty ‹_› ‹_›
  · cases h; exact .give _ ‹_›
  · cases h; exact .body _ _ ‹_›
  · cases h; exact .done _ ‹_›
  · cases h; exact .cmp _ _ ‹_›
  · cases h; exact .fin _ ‹_›
  · cases h

/-- Counts of `p` unaffected when a worker moves between places that do not concern `p`. -/
def Neutral (p : Nat) (w : WPc) : Prop :=
  w ≠ .give p ∧ isBody p w = false ∧ w ≠ .done p ∧ w ≠ .fin p ∧
  (∀ k, w ≠ .cmp p k) ∧ ∀ id, w ≠ .body p id

theorem Setup.congr {s s' : State} {p : Nat} (h : Setup s p) (hp : s'.prov p = s.prov p)
    (hq : s'.queue.count p = s.queue.count p) {i : Nat} {w w' : WPc}
    (hw : s.workers[i]? = some w) (hs : s'.workers = s.workers.set i w')
    (hn' : Neutral p w') : Setup s' p := by
  obtain ⟨n1, n2, n3, n4, n5, n6⟩ := hn'
  refine ⟨by rw [hq]; exact h.q, ?_, ?_, ?_, ?_, ?_, by rw [hp]; exact h.log,
    by rw [hp]; exact h.threw, by rw [hp]; exact h.exc⟩
  · have := count_set' (w' := w') (x := .give p) hw; rw [if_neg n1] at this; rw [hs]
    have := h.g; omega
  · have := countP_set' (w' := w') (f := isBody p) hw; rw [n2] at this; rw [hs]
    have := h.b; simp only [Bool.toNat_false] at *; omega
  · have := count_set' (w' := w') (x := .done p) hw; rw [if_neg n3] at this; rw [hs]
    have := h.d; omega
  · have := count_set' (w' := w') (x := .fin p) hw; rw [if_neg n4] at this; rw [hs]
    have := h.f; omega
  · intro k hk
    rw [hs] at hk
    rcases mem_set_of hk with hk | hk
    · exact absurd hk.symm (n5 k)
    · rw [hp]; exact h.stale k hk

theorem Active.congr {s s' : State} {p : Nat} (h : Active s p) (hp : s'.prov p = s.prov p)
    (hq : s'.queue.count p = s.queue.count p) {i : Nat} {w w' : WPc}
    (hw : s.workers[i]? = some w) (hs : s'.workers = s.workers.set i w')
    (hn : Neutral p w) (hn' : Neutral p w') : Active s' p := by
  obtain ⟨n1, n2, n3, n4, n5, n6⟩ := hn'
  obtain ⟨m1, m2, m3, m4, m5, m6⟩ := hn
  have e1 : s'.workers.count (.give p) = s.workers.count (.give p) := by
    have := count_set' (w' := w') (x := .give p) hw; rw [if_neg n1, if_neg m1] at this; rw [hs]; omega
  have e2 : s'.workers.countP (isBody p) = s.workers.countP (isBody p) := by
    have := countP_set' (w' := w') (f := isBody p) hw; rw [n2, m2] at this; rw [hs]; omega
  have e3 : s'.workers.count (.done p) = s.workers.count (.done p) := by
    have := count_set' (w' := w') (x := .done p) hw; rw [if_neg n3, if_neg m3] at this; rw [hs]; omega
  have e4 : s'.workers.count (.fin p) = s.workers.count (.fin p) := by
    have := count_set' (w' := w') (x := .fin p) hw; rw [if_neg n4, if_neg m4] at this; rw [hs]; omega
  have e5 : ∀ k, s'.workers.count (.cmp p k) = s.workers.count (.cmp p k) := by
    intro k
    have := count_set' (w' := w') (x := .cmp p k) hw; rw [if_neg (n5 k), if_neg (m5 k)] at this; rw [hs]; omega
  have e6 : ∀ k, s'.workers.count (.body p k) = s.workers.count (.body p k) := by
    intro k
    have := count_set' (w' := w') (x := .body p k) hw; rw [if_neg (n6 k), if_neg (m6 k)] at this; rw [hs]; omega
  refine ⟨by rw [hq, e1, hp]; exact h.give, by rw [e2, e3, hp]; exact h.flow, ?_,
    by rw [hp, e4, e5]; exact h.fin, by intro id; rw [hp, e6]; exact h.log id,
    by rw [hp]; exact h.want⟩
  intro k hk
  rw [hs] at hk
  rcases mem_set_of hk with hk | hk
  · exact absurd hk.symm (n5 k)
  · rw [hp]; exact h.stale k hk


theorem setProv_same (s : State) (p : Nat) (f : Prov → Prov) : (s.setProv p f).prov p = f (s.prov p) :=
  if_pos rfl

theorem setProv_ne (s : State) {p q : Nat} (f : Prov → Prov) (h : q ≠ p) :
    (s.setProv p f).prov q = s.prov q := if_neg h

theorem setup_worker {s s' : State} {i : Nat} {t : Bool} {p : Nat} (h : Setup s p)
    (hs : WStep s i t s') : Setup s' p ∧ s'.prov p = s.prov p := by
  cases hs with
  | leave w hw hw' he => exact ⟨h.congr rfl rfl hw rfl (by simp [Neutral, isBody]), rfl⟩
  | stay hw he => exact ⟨h.congr rfl rfl hw rfl (by simp [Neutral, isBody]), rfl⟩
  | pass hw he => exact ⟨h.congr rfl rfl hw rfl (by simp [Neutral, isBody]), rfl⟩
  | sleep hw he => exact ⟨h.congr rfl rfl hw rfl (by simp [Neutral, isBody]), rfl⟩
  | go hw he => exact ⟨h.congr rfl rfl hw rfl (by simp [Neutral, isBody]), rfl⟩
  | empty hw he => exact ⟨h.congr rfl rfl hw rfl (by simp [Neutral, isBody]), rfl⟩
  | pop p' q hw hq =>
    have h0 := h.q
    rw [hq, List.count_cons] at h0
    have hne : p' ≠ p := by
      intro e
      rw [e] at h0
      simp at h0
    refine ⟨h.congr rfl ?_ hw rfl (by simp [Neutral, isBody, hne]), rfl⟩
    show q.count p = s.queue.count p
    rw [h.q]; omega
  | give p' hw =>
    have hne : p' ≠ p := by
      intro e
      have := count_pos_of_get hw
      rw [e, h.g] at this
      omega
    have hp : (s.setProv p' fun P => { P with given := P.given + 1 }).prov p = s.prov p :=
      setProv_ne _ _ (Ne.symm hne)
    refine ⟨h.congr hp rfl hw rfl ?_, hp⟩
    split <;> simp [Neutral, isBody, hne]
  | body p' id hw =>
    have hne : p' ≠ p := by
      intro e
      have := countP_pos_of_get (f := isBody p) hw (by simp [isBody, e])
      rw [h.b] at this
      omega
    have hp : (s.setProv p' fun P => { P with
        log := id :: P.log, exc := P.exc || t, threw := P.threw || t }).prov p = s.prov p :=
      setProv_ne _ _ (Ne.symm hne)
    exact ⟨h.congr hp rfl hw rfl (by simp [Neutral, isBody, hne]), hp⟩
  | done p' hw =>
    have hne : p' ≠ p := by
      intro e
      have := count_pos_of_get hw
      rw [e, h.d] at this
      omega
    have hp : (s.setProv p' fun P => { P with completed := P.completed + 1 }).prov p = s.prov p :=
      setProv_ne _ _ (Ne.symm hne)
    exact ⟨h.congr hp rfl hw rfl (by simp [Neutral, isBody, hne]), hp⟩
  | cmp p' k hw =>
    by_cases hne : p' = p
    · subst hne
      have := h.stale k (List.mem_of_getElem? hw)
      rw [if_neg (by omega)]
      exact ⟨h.congr rfl rfl hw rfl (by simp [Neutral, isBody]), rfl⟩
    · refine ⟨h.congr rfl rfl hw rfl ?_, rfl⟩
      split <;> simp [Neutral, isBody, hne]
  | fin p' hw =>
    have hne : p' ≠ p := by
      intro e
      have := count_pos_of_get hw
      rw [e, h.f] at this
      omega
    have hp : (s.setProv p' fun P => { P with running := false, pc := wakeU P.pc }).prov p =
        s.prov p := setProv_ne _ _ (Ne.symm hne)
    exact ⟨h.congr hp rfl hw rfl (by simp [Neutral, isBody]), hp⟩

/-- What a step of a worker may do to a provider in the middle of a run. -/
structure Moved (P P' : Prov) : Prop where
  exc : P.exc = P.threw → P'.exc = P'.threw
  quiet : P.running = false →
    P'.running = false ∧ P'.pc = P.pc ∧ P'.exc = P.exc ∧ P'.threw = P.threw ∧ P'.log = P.log
  pc : P'.pc = P.pc ∧ P'.running = P.running ∨ P'.running = false ∧ P'.pc = wakeU P.pc
  want : P'.want = P.want

theorem Moved.refl (P : Prov) : Moved P P :=
  ⟨id, fun h => ⟨h, rfl, rfl, rfl, rfl⟩, Or.inl ⟨rfl, rfl⟩, rfl⟩

theorem active_worker {s s' : State} {i : Nat} {t : Bool} {p : Nat} (h : Active s p)
    (hs : WStep s i t s') : Active s' p ∧ Moved (s.prov p) (s'.prov p) := by
  cases hs with
  | leave w hw hw' he =>
    refine ⟨h.congr rfl rfl hw rfl ?_ (by simp [Neutral, isBody]), .refl _⟩
    rcases hw' with e | e <;> subst e <;> simp [Neutral, isBody]
  | stay hw he =>
    exact ⟨h.congr rfl rfl hw rfl (by simp [Neutral, isBody]) (by simp [Neutral, isBody]), .refl _⟩
  | pass hw he =>
    exact ⟨h.congr rfl rfl hw rfl (by simp [Neutral, isBody]) (by simp [Neutral, isBody]), .refl _⟩
  | sleep hw he =>
    exact ⟨h.congr rfl rfl hw rfl (by simp [Neutral, isBody]) (by simp [Neutral, isBody]), .refl _⟩
  | go hw he =>
    exact ⟨h.congr rfl rfl hw rfl (by simp [Neutral, isBody]) (by simp [Neutral, isBody]), .refl _⟩
  | empty hw he =>
    exact ⟨h.congr rfl rfl hw rfl (by simp [Neutral, isBody]) (by simp [Neutral, isBody]), .refl _⟩
  | pop p' q hw hq =>
    by_cases hne : p' = p
    · subst hne
      refine ⟨?_, .refl _⟩
      have c1 := count_set' (w' := .give p') (x := .give p') hw
      have c2 := countP_set' (w' := .give p') (f := isBody p') hw
      have c3 := count_set' (w' := .give p') (x := .done p') hw
      have c4 := count_set' (w' := .give p') (x := .fin p') hw
      have c5 := fun k => count_set' (w' := .give p') (x := .cmp p' k) hw
      have c6 := fun k => count_set' (w' := .give p') (x := .body p' k) hw
      have hg := h.give
      rw [hq, List.count_cons_self] at hg
      simp only [isBody, reduceCtorEq, if_true, if_false, Nat.add_zero, Bool.toNat_false, Bool.toNat_true, beq_self_eq_true, WPc.body.injEq, WPc.cmp.injEq, true_and] at c1 c2 c3 c4 c5 c6
      refine ⟨?_, ?_, ?_, ?_, ?_, h.want⟩
      · simp only [State.setW]; omega
      · simp only [State.setW]; rw [c2, c3]; exact h.flow
      · intro k hk
        rcases mem_set_of hk with hk | hk
        · cases hk
        · exact h.stale k hk
      · simp only [State.setW]; rw [c4, c5]; exact h.fin
      · intro id; simp only [State.setW]; rw [c6]; exact h.log id
    · refine ⟨h.congr rfl ?_ hw rfl (by simp [Neutral, isBody]) (by simp [Neutral, isBody, hne]),
        .refl _⟩
      show q.count p = s.queue.count p
      rw [hq, List.count_cons_of_ne hne]
  | give p' hw =>
    by_cases hne : p' = p
    · subst hne
      have hpos := count_pos_of_get hw
      have hg := h.give
      have hlt : (s.prov p').given < (s.prov p').taskCount := by omega
      rw [if_pos hlt]
      have c1 := count_set' (w' := .body p' (s.prov p').given) (x := .give p') hw
      have c2 := countP_set' (w' := .body p' (s.prov p').given) (f := isBody p') hw
      have c3 := count_set' (w' := .body p' (s.prov p').given) (x := .done p') hw
      have c4 := count_set' (w' := .body p' (s.prov p').given) (x := .fin p') hw
      have c5 := fun k => count_set' (w' := .body p' (s.prov p').given) (x := .cmp p' k) hw
      have c6 := fun k => count_set' (w' := .body p' (s.prov p').given) (x := .body p' k) hw
      simp only [isBody, reduceCtorEq, if_true, if_false, Nat.add_zero, Bool.toNat_false, Bool.toNat_true, beq_self_eq_true, WPc.body.injEq, WPc.cmp.injEq, true_and] at c1 c2 c3 c4 c5 c6
      have hf := h.flow
      refine ⟨⟨?_, ?_, ?_, ?_, ?_, ?_⟩, ?_⟩
      · simp only [State.setW, setProv_same]
        simp only [State.setProv]; omega
      · simp only [State.setW, setProv_same]
        simp only [State.setProv]; omega
      · intro k hk
        simp only [State.setW, setProv_same]
        rcases mem_set_of hk with hk | hk
        · cases hk
        · exact h.stale k hk
      · simp only [State.setW, setProv_same]
        simp only [State.setProv]; rw [c4, c5]; exact h.fin
      · intro id
        have hl := h.log id
        have h6 := c6 id
        simp only [State.setW, setProv_same]
        simp only [State.setProv]
        by_cases e : (s.prov p').given = id
        · subst e
          simp only [Nat.lt_irrefl, if_false, if_true] at hl h6
          rw [if_pos (by omega)]; omega
        · rw [if_neg e] at h6
          rw [h6, Nat.add_zero, hl]
          by_cases hc : id < (s.prov p').given
          · rw [if_pos hc, if_pos (by omega)]
          · rw [if_neg hc, if_neg (by omega)]
      · simp only [State.setW, setProv_same]; exact h.want
      · simp only [State.setW, setProv_same]
        exact ⟨id, fun h => ⟨h, rfl, rfl, rfl, rfl⟩, Or.inl ⟨rfl, rfl⟩, rfl⟩
    · have hp : (s.setProv p' fun P => { P with given := P.given + 1 }).prov p = s.prov p :=
        setProv_ne _ _ (Ne.symm hne)
      refine ⟨h.congr hp rfl hw rfl (by simp [Neutral, isBody, hne]) ?_, ?_⟩
      · split <;> simp [Neutral, isBody, hne]
      · simp only [State.setW, hp]; exact .refl _
  | body p' id hw =>
    by_cases hne : p' = p
    · subst hne
      have hpos := countP_pos_of_get (f := isBody p') hw (by simp [isBody])
      have c1 := count_set' (w' := .done p') (x := .give p') hw
      have c2 := countP_set' (w' := .done p') (f := isBody p') hw
      have c3 := count_set' (w' := .done p') (x := .done p') hw
      have c4 := count_set' (w' := .done p') (x := .fin p') hw
      have c5 := fun k => count_set' (w' := .done p') (x := .cmp p' k) hw
      have c6 := fun k => count_set' (w' := .done p') (x := .body p' k) hw
      simp only [isBody, reduceCtorEq, if_true, if_false, Nat.add_zero, Bool.toNat_false, Bool.toNat_true, beq_self_eq_true, WPc.body.injEq, WPc.cmp.injEq, true_and] at c1 c2 c3 c4 c5 c6
      have hf := h.flow
      have hg := h.give
      refine ⟨⟨?_, ?_, ?_, ?_, ?_, ?_⟩, ?_⟩
      · simp only [State.setW, setProv_same]
        simp only [State.setProv]; omega
      · simp only [State.setW, setProv_same]
        simp only [State.setProv]; omega
      · intro k hk
        simp only [State.setW, setProv_same]
        rcases mem_set_of hk with hk | hk
        · cases hk
        · exact h.stale k hk
      · simp only [State.setW, setProv_same]
        simp only [State.setProv]; rw [c4, c5]; exact h.fin
      · intro id'
        have hl := h.log id'
        have h6 := c6 id'
        simp only [State.setW, setProv_same]
        simp only [State.setProv, List.count_cons]
        by_cases e : id = id'
        · rw [if_pos e] at h6
          rw [if_pos (by simp [e])]
          omega
        · rw [if_neg e] at h6
          rw [if_neg (by simp [e])]
          omega
      · simp only [State.setW, setProv_same]; exact h.want
      · simp only [State.setW, setProv_same]
        refine ⟨fun e => by simp only; rw [e], fun hr => ?_, Or.inl ⟨rfl, rfl⟩, rfl⟩
        have := h.fin
        rw [hr] at this
        simp only [Bool.false_eq_true, false_and, false_or, true_and] at this
        omega
    · have hp : (s.setProv p' fun P => { P with
        log := id :: P.log, exc := P.exc || t, threw := P.threw || t }).prov p = s.prov p :=
        setProv_ne _ _ (Ne.symm hne)
      refine ⟨h.congr hp rfl hw rfl (by simp [Neutral, isBody, hne])
        (by simp [Neutral, isBody, hne]), ?_⟩
      simp only [State.setW, hp]; exact .refl _
  | done p' hw =>
    by_cases hne : p' = p
    · subst hne
      have hpos := count_pos_of_get hw
      generalize hk0 : (s.prov p').completed + 1 = k0
      have c1 := count_set' (w' := .cmp p' k0) (x := .give p') hw
      have c2 := countP_set' (w' := .cmp p' k0) (f := isBody p') hw
      have c3 := count_set' (w' := .cmp p' k0) (x := .done p') hw
      have c4 := count_set' (w' := .cmp p' k0) (x := .fin p') hw
      have c5 := fun k => count_set' (w' := .cmp p' k0) (x := .cmp p' k) hw
      have c6 := fun k => count_set' (w' := .cmp p' k0) (x := .body p' k) hw
      simp only [isBody, reduceCtorEq, if_true, if_false, Nat.add_zero, Bool.toNat_false, Bool.toNat_true, beq_self_eq_true, WPc.body.injEq, WPc.cmp.injEq, true_and] at c1 c2 c3 c4 c5 c6
      have hf := h.flow
      have hg := h.give
      have hfin := h.fin
      refine ⟨⟨?_, ?_, ?_, ?_, ?_, ?_⟩, ?_⟩
      · simp only [State.setW, setProv_same]
        simp only [State.setProv]; omega
      · simp only [State.setW, setProv_same]
        simp only [State.setProv]; omega
      · intro k hk
        simp only [State.setW, setProv_same]
        rcases mem_set_of hk with hk | hk
        · cases hk; omega
        · exact h.stale k hk
      · simp only [State.setW, setProv_same]
        simp only [State.setProv]
        have h5 := c5 (s.prov p').taskCount
        rcases hfin with ⟨a, b, c⟩ | ⟨a, b, c⟩ | ⟨a, b, c⟩
        · by_cases e : k0 = (s.prov p').taskCount
          · right; left
            rw [if_pos e] at h5
            exact ⟨a, by omega, by omega⟩
          · left
            rw [if_neg e] at h5
            refine ⟨a, by omega, by omega⟩
        · omega
        · omega
      · intro id
        have hl := h.log id
        have h6 := c6 id
        simp only [State.setW, setProv_same]
        simp only [State.setProv]
        rw [h6]; exact hl
      · simp only [State.setW, setProv_same]; exact h.want
      · simp only [State.setW, setProv_same]
        exact ⟨id, fun h => ⟨h, rfl, rfl, rfl, rfl⟩, Or.inl ⟨rfl, rfl⟩, rfl⟩
    · have hp : (s.setProv p' fun P => { P with completed := P.completed + 1 }).prov p = s.prov p :=
        setProv_ne _ _ (Ne.symm hne)
      refine ⟨h.congr hp rfl hw rfl (by simp [Neutral, isBody, hne])
        (by simp [Neutral, isBody, hne]), ?_⟩
      simp only [State.setW, hp]; exact .refl _
  | cmp p' k hw =>
    by_cases hne : p' = p
    · subst hne
      refine ⟨?_, .refl _⟩
      have hpos := count_pos_of_get hw
      have hk := h.stale k (List.mem_of_getElem? hw)
      have hfin := h.fin
      generalize hw0 : (if k = (s.prov p').taskCount then WPc.fin p' else WPc.top) = w0
      have c1 := count_set' (w' := w0) (x := .give p') hw
      have c2 := countP_set' (w' := w0) (f := isBody p') hw
      have c3 := count_set' (w' := w0) (x := .done p') hw
      have c4 := count_set' (w' := w0) (x := .fin p') hw
      have c5 := count_set' (w' := w0) (x := .cmp p' (s.prov p').taskCount) hw
      have c6 := fun k => count_set' (w' := w0) (x := .body p' k) hw
      have hmem : ∀ k', WPc.cmp p' k' ∈ s.workers.set i w0 → k' ≤ (s.prov p').taskCount := by
        intro k' hk'
        rcases mem_set_of hk' with hk' | hk'
        · rw [← hw0] at hk'; split at hk' <;> cases hk'
        · exact h.stale k' hk'
      by_cases e : k = (s.prov p').taskCount
      · rw [if_pos e] at hw0
        subst hw0
        simp only [isBody, reduceCtorEq, if_true, if_false, Nat.add_zero, Bool.toNat_false, Bool.toNat_true, beq_self_eq_true, WPc.body.injEq, WPc.cmp.injEq, true_and] at c1 c2 c3 c4 c5 c6
        refine ⟨?_, ?_, hmem, ?_, ?_, h.want⟩
        · simp only [State.setW]; rw [c1]; exact h.give
        · simp only [State.setW]; rw [c2, c3]; exact h.flow
        · simp only [State.setW]; rw [c4]
          rw [if_pos e] at c5
          rw [e] at hpos
          rcases hfin with ⟨a, b, c⟩ | ⟨a, b, c⟩ | ⟨a, b, c⟩
          · omega
          · right; left; exact ⟨a, b, by omega⟩
          · omega
        · intro id; simp only [State.setW]; rw [c6]; exact h.log id
      · rw [if_neg e] at hw0
        subst hw0
        simp only [isBody, reduceCtorEq, if_true, if_false, Nat.add_zero, Bool.toNat_false, Bool.toNat_true, beq_self_eq_true, WPc.body.injEq, WPc.cmp.injEq, true_and] at c1 c2 c3 c4 c5 c6
        rw [if_neg e, Nat.add_zero] at c5
        refine ⟨?_, ?_, hmem, ?_, ?_, h.want⟩
        · simp only [State.setW]; rw [c1]; exact h.give
        · simp only [State.setW]; rw [c2, c3]; exact h.flow
        · simp only [State.setW]; rw [c4, c5]; exact hfin
        · intro id; simp only [State.setW]; rw [c6]; exact h.log id
    · refine ⟨h.congr rfl rfl hw rfl (by simp [Neutral, isBody, hne]) ?_, .refl _⟩
      split <;> simp [Neutral, isBody, hne]
  | fin p' hw =>
    by_cases hne : p' = p
    · subst hne
      have hpos := count_pos_of_get hw
      have c1 := count_set' (w' := .top) (x := .give p') hw
      have c2 := countP_set' (w' := .top) (f := isBody p') hw
      have c3 := count_set' (w' := .top) (x := .done p') hw
      have c4 := count_set' (w' := .top) (x := .fin p') hw
      have c5 := fun k => count_set' (w' := .top) (x := .cmp p' k) hw
      have c6 := fun k => count_set' (w' := .top) (x := .body p' k) hw
      simp only [isBody, reduceCtorEq, if_true, if_false, Nat.add_zero, Bool.toNat_false, Bool.toNat_true, beq_self_eq_true, WPc.body.injEq, WPc.cmp.injEq, true_and] at c1 c2 c3 c4 c5 c6
      refine ⟨⟨?_, ?_, ?_, ?_, ?_, ?_⟩, ?_⟩
      · simp only [State.setW, setProv_same]
        simp only [State.setProv]; rw [c1]; exact h.give
      · simp only [State.setW, setProv_same]
        simp only [State.setProv]; rw [c2, c3]; exact h.flow
      · intro k hk
        simp only [State.setW, setProv_same]
        rcases mem_set_of hk with hk | hk
        · cases hk
        · exact h.stale k hk
      · simp only [State.setW, setProv_same]
        simp only [State.setProv]; rw [c5]
        rcases h.fin with ⟨a, b, c⟩ | ⟨a, b, c⟩ | ⟨a, b, c⟩
        · omega
        · right; right; exact ⟨trivial, b, by omega⟩
        · omega
      · intro id
        simp only [State.setW, setProv_same]
        simp only [State.setProv]
        rw [c6]; exact h.log id
      · simp only [State.setW, setProv_same]; exact h.want
      · simp only [State.setW, setProv_same]
        refine ⟨id, fun hr => ?_, Or.inr ⟨rfl, rfl⟩, rfl⟩
        have := h.fin
        rw [hr] at this
        simp only [Bool.false_eq_true, false_and, false_or, true_and] at this
        omega
    · have hp : (s.setProv p' fun P => { P with running := false, pc := wakeU P.pc }).prov p =
          s.prov p := setProv_ne _ _ (Ne.symm hne)
      refine ⟨h.congr hp rfl hw rfl (by simp [Neutral, isBody, hne])
        (by simp [Neutral, isBody]), ?_⟩
      simp only [State.setW, hp]; exact .refl _


/-! ### The other events -/

theorem countP_wake (l : List WPc) {f : WPc → Bool} (h1 : f .asleep = false) (h2 : f .wait = false) :
    (l.map wakeW).countP f = l.countP f := by
  rw [List.countP_map]
  congr 1
  funext w
  cases w <;> simp [wakeW, h1, h2]

theorem count_wake (l : List WPc) {x : WPc} (h1 : x ≠ .asleep) (h2 : x ≠ .wait) :
    (l.map wakeW).count x = l.count x :=
  countP_wake l (by simpa using Ne.symm h1) (by simpa using Ne.symm h2)

theorem mem_wake {l : List WPc} {x : WPc} (h2 : x ≠ .wait) (h : x ∈ l.map wakeW) : x ∈ l := by
  obtain ⟨w, hw, e⟩ := List.mem_map.1 h
  cases w <;> simp only [wakeW] at e <;> subst e <;> first | exact hw | exact absurd rfl h2

/-- The places in a run of provider `p`, with their numbers. -/
structure SameCounts (s s' : State) (p : Nat) : Prop where
  q : s'.queue.count p = s.queue.count p
  g : s'.workers.count (.give p) = s.workers.count (.give p)
  b : s'.workers.countP (isBody p) = s.workers.countP (isBody p)
  d : s'.workers.count (.done p) = s.workers.count (.done p)
  f : s'.workers.count (.fin p) = s.workers.count (.fin p)
  c : ∀ k, s'.workers.count (.cmp p k) = s.workers.count (.cmp p k)
  i : ∀ k, s'.workers.count (.body p k) = s.workers.count (.body p k)

theorem SameCounts.setup {s s' : State} {p : Nat} (e : SameCounts s s' p) (h : Setup s p)
    (h1 : (s.prov p).taskCount ≤ (s'.prov p).taskCount)
    (h2 : (s'.prov p).log = (s.prov p).log) (h3 : (s'.prov p).threw = (s.prov p).threw)
    (h4 : (s'.prov p).exc = (s.prov p).exc) : Setup s' p := by
  refine ⟨by rw [e.q]; exact h.q, by rw [e.g]; exact h.g, by rw [e.b]; exact h.b,
    by rw [e.d]; exact h.d, by rw [e.f]; exact h.f, ?_, by rw [h2]; exact h.log,
    by rw [h3]; exact h.threw, by rw [h4]; exact h.exc⟩
  intro k hk
  have := List.count_pos_iff.2 hk
  rw [e.c] at this
  have := h.stale k (List.count_pos_iff.1 this)
  omega

theorem SameCounts.active {s s' : State} {p : Nat} (e : SameCounts s s' p) (h : Active s p)
    (h1 : (s'.prov p).taskCount = (s.prov p).taskCount)
    (h2 : (s'.prov p).log = (s.prov p).log) (h3 : (s'.prov p).given = (s.prov p).given)
    (h4 : (s'.prov p).completed = (s.prov p).completed)
    (h5 : (s'.prov p).running = (s.prov p).running)
    (h6 : (s'.prov p).want = (s.prov p).want) : Active s' p := by
  refine ⟨by rw [e.q, e.g, h1, h3]; exact h.give, by rw [e.b, e.d, h3, h4]; exact h.flow, ?_,
    by rw [h1, h4, h5, e.f, e.c]; exact h.fin, by intro id; rw [e.i, h2, h3]; exact h.log id,
    by rw [h1, h6]; exact h.want⟩
  intro k hk
  have := List.count_pos_iff.2 hk
  rw [e.c] at this
  have := h.stale k (List.count_pos_iff.1 this)
  omega

theorem sameCounts_workers {s s' : State} {p : Nat} (hw : s'.workers = s.workers)
    (hq : s'.queue.count p = s.queue.count p) : SameCounts s s' p :=
  ⟨hq, by rw [hw], by rw [hw], by rw [hw], by rw [hw], fun k => by rw [hw], fun k => by rw [hw]⟩

theorem same_setProv (s : State) (p r : Nat) (f : Prov → Prov) : SameCounts s (s.setProv r f) p :=
  sameCounts_workers rfl rfl

theorem sameCounts_wake {s s' : State} {p : Nat} (hw : s'.workers = s.workers.map wakeW)
    (hq : s'.queue.count p = s.queue.count p) : SameCounts s s' p := by
  refine ⟨hq, ?_, ?_, ?_, ?_, fun k => ?_, fun k => ?_⟩ <;> rw [hw]
  · exact count_wake _ (by simp) (by simp)
  · exact countP_wake _ rfl rfl
  · exact count_wake _ (by simp) (by simp)
  · exact count_wake _ (by simp) (by simp)
  · exact count_wake _ (by simp) (by simp)
  · exact count_wake _ (by simp) (by simp)

/-- Adding or dropping workers which are at places that do not concern `p`. -/
theorem sameCounts_append {s s' : State} {p : Nat} {l : List WPc}
    (hl : ∀ w ∈ l, Neutral p w)
    (hw : s'.workers = s.workers ++ l ∨ s.workers = s'.workers ++ l)
    (hq : s'.queue.count p = s.queue.count p) : SameCounts s s' p := by
  have z : ∀ x : WPc, (∀ w ∈ l, w ≠ x) → l.count x = 0 :=
    fun x h => List.count_eq_zero.2 fun hx => h x hx rfl
  have z1 := z (.give p) fun w hw => (hl w hw).1
  have z2 : l.countP (isBody p) = 0 := List.countP_eq_zero.2 fun w hw => by
    rw [(hl w hw).2.1]; simp
  have z3 := z (.done p) fun w hw => (hl w hw).2.2.1
  have z4 := z (.fin p) fun w hw => (hl w hw).2.2.2.1
  have z5 := fun k => z (.cmp p k) fun w hw => (hl w hw).2.2.2.2.1 k
  have z6 := fun k => z (.body p k) fun w hw => (hl w hw).2.2.2.2.2 k
  rcases hw with hw | hw <;> refine ⟨hq, ?_, ?_, ?_, ?_, fun k => ?_, fun k => ?_⟩ <;>
    rw [hw] <;> simp only [List.count_append, List.countP_append, z1, z2, z3, z4, z5, z6, Nat.add_zero]

/-- What holds of a provider and its user in every reachable state, by the user's position. -/
def PAt (A S : Prop) (P : Prov) : UPc → Prop
  | .idle => A ∧ P.exc = false ∧ P.running = false
  | .returned ok => A ∧ P.exc = false ∧ P.running = false ∧ ok = !P.threw
  | .waitPred => A ∧ P.exc = P.threw
  | .asleep => A ∧ P.exc = P.threw ∧ P.running = true
  | .setCount n => S ∧ P.running = false ∧ P.taskCount ≤ n ∧ P.want = n ∧ 0 < n
  | .resetGiven n => S ∧ P.running = false ∧ P.taskCount = n ∧ P.want = n ∧ 0 < n
  | .resetCompleted n => S ∧ P.running = false ∧ P.taskCount = n ∧ P.want = n ∧ 0 < n ∧ P.given = 0
  | .addRunning n =>
    S ∧ P.running = false ∧ P.taskCount = n ∧ P.want = n ∧ 0 < n ∧ P.given = 0 ∧ P.completed = 0
  | .failed => S ∧ P.running = false
  | .addTasks n =>
    S ∧ P.running = true ∧ P.taskCount = n ∧ P.want = n ∧ 0 < n ∧ P.given = 0 ∧ P.completed = 0

def PInv (s : State) (p : Nat) : Prop := PAt (Active s p) (Setup s p) (s.prov p) (s.prov p).pc

theorem PAt.mono {A A' S S' : Prop} (ha : A → A') (hs : S → S') {P : Prov} {pc : UPc}
    (h : PAt A S P pc) : PAt A' S' P pc := by
  cases pc <;> simp only [PAt] at h ⊢ <;> first | exact ⟨hs h.1, h.2⟩ | exact ⟨ha h.1, h.2⟩

theorem PInv.congr {s s' : State} {p : Nat} (h : PInv s p) (e : SameCounts s s' p)
    (hp : s'.prov p = s.prov p) : PInv s' p := by
  unfold PInv at h ⊢
  rw [hp]
  refine h.mono (fun h => ?_) (fun h => ?_)
  · exact e.active h (by rw [hp]) (by rw [hp]) (by rw [hp]) (by rw [hp]) (by rw [hp]) (by rw [hp])
  · exact e.setup h (by rw [hp]; exact Nat.le_refl _) (by rw [hp]) (by rw [hp]) (by rw [hp])

theorem Active.quiet {s : State} {p : Nat} (h : Active s p) (hr : (s.prov p).running = false) :
    s.queue.count p = 0 ∧ s.workers.count (.give p) = 0 ∧ s.workers.countP (isBody p) = 0 ∧
    s.workers.count (.done p) = 0 ∧ s.workers.count (.fin p) = 0 ∧
    s.workers.count (.cmp p (s.prov p).taskCount) = 0 ∧
    (s.prov p).completed = (s.prov p).taskCount ∧ (s.prov p).given = (s.prov p).taskCount := by
  have h1 := h.fin
  rw [hr] at h1
  simp only [Bool.false_eq_true, false_and, false_or, true_and] at h1
  have h2 := h.give
  have h3 := h.flow
  omega

theorem Active.lt_of_quiet {s : State} {p : Nat} (h : Active s p)
    (hr : (s.prov p).running = false) (k : Nat) (hk : .cmp p k ∈ s.workers) :
    k < (s.prov p).taskCount := by
  have h1 := h.stale k hk
  have h2 := (h.quiet hr).2.2.2.2.2.1
  have h3 := List.count_pos_iff.2 hk
  by_cases e : k = (s.prov p).taskCount
  · rw [e] at h3; omega
  · omega

theorem pinv_worker {s s' : State} {i : Nat} {t : Bool} {p : Nat} (h : PInv s p)
    (hs : workerStep s i t = some s') : PInv s' p := by
  have hs := workerStep_cases hs
  have hS : Setup s p → Setup s' p ∧ s'.prov p = s.prov p := fun h => setup_worker h hs
  have hA : Active s p → Active s' p ∧ Moved (s.prov p) (s'.prov p) := fun h => active_worker h hs
  unfold PInv at h ⊢
  cases hpc : (s.prov p).pc <;> rw [hpc] at h <;> simp only [PAt] at h
  case idle =>
    obtain ⟨a, m⟩ := hA h.1
    obtain ⟨q1, q2, q3, q4, _⟩ := m.quiet h.2.2
    rw [q2, hpc]
    exact ⟨a, by rw [q3]; exact h.2.1, q1⟩
  case returned ok =>
    obtain ⟨a, m⟩ := hA h.1
    obtain ⟨q1, q2, q3, q4, _⟩ := m.quiet h.2.2.1
    rw [q2, hpc]
    exact ⟨a, by rw [q3]; exact h.2.1, q1, by rw [q4]; exact h.2.2.2⟩
  case waitPred =>
    obtain ⟨a, m⟩ := hA h.1
    have e := m.exc h.2
    have hp : (s'.prov p).pc = .waitPred := by
      rcases m.pc with ⟨e, _⟩ | ⟨_, e⟩
      · rw [e, hpc]
      · rw [e, hpc]; rfl
    rw [hp]
    exact ⟨a, e⟩
  case asleep =>
    obtain ⟨a, m⟩ := hA h.1
    have e := m.exc h.2.1
    rcases m.pc with ⟨e1, e2⟩ | ⟨_, e1⟩
    · rw [e1, hpc]
      exact ⟨a, e, by rw [e2]; exact h.2.2⟩
    · rw [e1, hpc]
      exact ⟨a, e⟩
  all_goals
    obtain ⟨a, m⟩ := hS h.1
    rw [m, hpc]
    exact ⟨a, h.2⟩

/-- Events with a provider used as intended: the number of tasks of a provider does not decrease
    from run to run, and nothing pending is thrown away. -/
def Good (s : State) : Ev → Prop
  | .start p n => (s.prov p).taskCount ≤ n ∧ 0 < n
  | .clear => s.queue = []
  | .remove p => s.queue.count p = 0
  | _ => True

theorem pinv_user {s s' : State} {p r : Nat} (h : PInv s p) (hs : userStep s r = some s') :
    PInv s' p := by
  by_cases e : p = r
  · subst e
    unfold userStep at hs
    unfold PInv at h ⊢
    cases hpc : (s.prov p).pc <;> rw [hpc] at h hs <;> simp only [PAt] at h <;>
      simp only [reduceCtorEq, Option.some.injEq] at hs
    case setCount n =>
      subst hs
      have hpp := setProv_same s p fun P => { P with taskCount := n, pc := .resetGiven n }
      rw [hpp]
      refine ⟨?_, h.2.1, rfl, h.2.2.2.1, h.2.2.2.2⟩
      refine (same_setProv s p p _).setup h.1 ?_ ?_ ?_ ?_ <;> rw [hpp]
      exact h.2.2.1
    case resetGiven n =>
      subst hs
      have hpp := setProv_same s p fun P => { P with given := 0, pc := .resetCompleted n }
      rw [hpp]
      refine ⟨?_, h.2.1, h.2.2.1, h.2.2.2.1, h.2.2.2.2, rfl⟩
      refine (same_setProv s p p _).setup h.1 ?_ ?_ ?_ ?_ <;> rw [hpp]
      exact Nat.le_refl _
    case resetCompleted n =>
      subst hs
      have hpp := setProv_same s p fun P => { P with completed := 0, pc := .addRunning n }
      rw [hpp]
      refine ⟨?_, h.2.1, h.2.2.1, h.2.2.2.1, h.2.2.2.2.1, h.2.2.2.2.2, rfl⟩
      refine (same_setProv s p p _).setup h.1 ?_ ?_ ?_ ?_ <;> rw [hpp]
      exact Nat.le_refl _
    case addRunning n =>
      split at hs <;> rw [Option.some.injEq] at hs <;> subst hs
      · have hpp := setProv_same s p fun P => { P with pc := .failed }
        rw [hpp]
        refine ⟨?_, h.2.1⟩
        refine (same_setProv s p p _).setup h.1 ?_ ?_ ?_ ?_ <;> rw [hpp]
        exact Nat.le_refl _
      · have hpp := setProv_same s p fun P => { P with running := true, pc := .addTasks n }
        rw [hpp]
        refine ⟨?_, rfl, h.2.2⟩
        refine (same_setProv s p p _).setup h.1 ?_ ?_ ?_ ?_ <;> rw [hpp]
        exact Nat.le_refl _
    case addTasks n =>
      obtain ⟨hS, h1, h2, h3, h4, h5, h6⟩ := h
      subst hs
      generalize hs1 : ({ s with
        queue := s.queue ++ List.replicate n p,
        run := s.run.map fun _ => true,
        workers := s.workers.map wakeW } : State) = s1
      have hpp := setProv_same s1 p fun P => { P with pc := .waitPred }
      have hs1p : s1.prov p = s.prov p := by rw [← hs1]
      rw [hpp]
      have hw1 : s1.workers = s.workers.map wakeW := by rw [← hs1]
      have hq1 : s1.queue.count p = n := by
        rw [← hs1]
        simp [List.count_append, hS.q]
      refine ⟨⟨?_, ?_, ?_, ?_, ?_, ?_⟩, ?_⟩
      · rw [hpp, hs1p]
        show s1.queue.count p + s1.workers.count _ + (s.prov p).given = (s.prov p).taskCount
        rw [hq1, hw1, count_wake _ (by simp) (by simp), hS.g, h5, h2]; rfl
      · rw [hpp, hs1p]
        show (s.prov p).given = s1.workers.countP _ + s1.workers.count _ + (s.prov p).completed
        rw [hw1, count_wake _ (by simp) (by simp), countP_wake _ rfl rfl, hS.b, hS.d, h5, h6]
      · intro k hk
        rw [hpp, hs1p]
        have : WPc.cmp p k ∈ s1.workers := hk
        rw [hw1] at this
        exact Nat.le_of_lt (hS.stale k (mem_wake (by simp) this))
      · rw [hpp, hs1p]
        left
        refine ⟨h1, by simp only; omega, ?_⟩
        show s1.workers.count _ + s1.workers.count (.cmp p (s.prov p).taskCount) = 0
        rw [hw1, count_wake _ (by simp) (by simp), count_wake _ (by simp) (by simp), hS.f]
        have : s.workers.count (.cmp p (s.prov p).taskCount) = 0 :=
          List.count_eq_zero.2 fun hx => Nat.lt_irrefl _ (hS.stale _ hx)
        omega
      · intro id
        rw [hpp, hs1p]
        show (s.prov p).log.count id + s1.workers.count (.body p id) =
          if id < (s.prov p).given then 1 else 0
        rw [hw1, count_wake _ (by simp) (by simp), hS.log, h5]
        have : s.workers.count (.body p id) = 0 :=
          List.count_eq_zero.2 fun hx => by
            have := List.countP_eq_zero.1 hS.b _ hx
            simp [isBody] at this
        rw [this]; simp
      · rw [hpp, hs1p]
        show (s.prov p).taskCount = (s.prov p).want
        rw [h2, h3]
      · rw [hs1p]
        show (s.prov p).exc = (s.prov p).threw
        rw [hS.exc, hS.threw]
    case waitPred =>
      cases hr : (s.prov p).running <;> rw [hr] at hs <;>
        simp only [Bool.false_eq_true, if_false, if_true, Option.some.injEq] at hs <;> subst hs
      · have hpp := setProv_same s p fun P => { P with exc := false, pc := .returned (!P.exc) }
        rw [hpp]
        refine ⟨?_, rfl, hr, by rw [h.2]⟩
        refine (same_setProv s p p _).active h.1 ?_ ?_ ?_ ?_ ?_ ?_ <;> rw [hpp]
      · have hpp := setProv_same s p fun P => { P with pc := .asleep }
        rw [hpp]
        refine ⟨?_, h.2, hr⟩
        refine (same_setProv s p p _).active h.1 ?_ ?_ ?_ ?_ ?_ ?_ <;> rw [hpp]
  · unfold userStep at hs
    cases hpc : (s.prov r).pc <;> rw [hpc] at hs <;>
      simp only [reduceCtorEq, Option.some.injEq] at hs
    case addTasks n =>
      subst hs
      refine h.congr (sameCounts_wake rfl ?_) (setProv_ne _ _ e)
      show (s.queue ++ List.replicate n r).count p = s.queue.count p
      rw [List.count_append, List.count_replicate, if_neg (by simpa using Ne.symm e)]
      rfl
    case addRunning n =>
      split at hs <;> cases hs <;>
        exact h.congr (sameCounts_workers rfl rfl) (setProv_ne _ _ e)
    case waitPred =>
      split at hs <;> cases hs <;>
        exact h.congr (sameCounts_workers rfl rfl) (setProv_ne _ _ e)
    all_goals
      subst hs
      exact h.congr (sameCounts_workers rfl rfl) (setProv_ne _ _ e)

theorem neutral_gone (p : Nat) : Neutral p .gone := by simp [Neutral, isBody]

theorem pinv_step {s s' : State} {p : Nat} {e : Ev} (h : PInv s p) (hg : Good s e)
    (hs : step s e = some s') : PInv s' p := by
  cases e with
  | worker i t => exact pinv_worker h hs
  | user r => exact pinv_user h hs
  | spurious i =>
    simp only [step] at hs
    split at hs <;> cases hs
    rename_i hw
    have hc : ∀ x, x ≠ .asleep → x ≠ .wait → (s.workers.set i .wait).count x = s.workers.count x := by
      intro x h1 h2
      have := count_set' (w' := .wait) (x := x) hw
      rw [if_neg (Ne.symm h1), if_neg (Ne.symm h2)] at this
      omega
    refine h.congr ⟨rfl, hc _ (by simp) (by simp), ?_, hc _ (by simp) (by simp),
      hc _ (by simp) (by simp), fun k => hc _ (by simp) (by simp),
      fun k => hc _ (by simp) (by simp)⟩ rfl
    have := countP_set' (w' := .wait) (f := isBody p) hw
    simp only [State.setW]
    simpa [isBody] using this
  | spuriousUser r =>
    simp only [step] at hs
    split at hs <;> cases hs
    rename_i hw
    by_cases e : p = r
    · subst e
      unfold PInv at h ⊢
      rw [hw] at h
      have hpp := setProv_same s p fun P => { P with pc := .waitPred }
      rw [hpp]
      refine ⟨?_, h.2.1⟩
      refine (same_setProv s p p _).active h.1 ?_ ?_ ?_ ?_ ?_ ?_ <;> rw [hpp]
    · exact h.congr (sameCounts_workers rfl rfl) (setProv_ne _ _ e)
  | start r n =>
    by_cases e : p = r
    · subst e
      have hgn : (s.prov p).taskCount ≤ n ∧ 0 < n := hg
      have key : (s.prov p).running = false → (Active s p ∨ Setup s p) → (s.prov p).exc = false →
          PInv (s.setProv p fun P =>
            { P with pc := .setCount n, log := [], threw := false, want := n }) p := by
        intro hr hAS hexc
        unfold PInv
        have hpp := setProv_same s p fun P =>
          { P with pc := .setCount n, log := [], threw := false, want := n }
        rw [hpp]
        refine ⟨?_, hr, hgn.1, rfl, hgn.2⟩
        rcases hAS with hA | hS
        · obtain ⟨q1, q2, q3, q4, q5, q6, q7, q8⟩ := hA.quiet hr
          refine ⟨q1, q2, q3, q4, q5, ?_, by rw [hpp], by rw [hpp], by rw [hpp]; exact hexc⟩
          intro k hk
          rw [hpp]
          exact hA.lt_of_quiet hr k hk
        · refine ⟨hS.q, hS.g, hS.b, hS.d, hS.f, ?_, by rw [hpp], by rw [hpp], by rw [hpp]; exact hexc⟩
          intro k hk
          rw [hpp]
          exact hS.stale k hk
      simp only [step] at hs
      unfold PInv at h
      cases hpc : (s.prov p).pc <;> rw [hpc] at h hs <;> simp only [PAt] at h <;>
        simp only [reduceCtorEq] at hs
      case idle =>
        rw [if_pos ⟨h.2.2, hgn.2⟩] at hs
        cases hs
        exact key h.2.2 (Or.inl h.1) h.2.1
      case failed =>
        rw [if_pos ⟨h.2, hgn.2⟩] at hs
        cases hs
        exact key h.2 (Or.inr h.1) h.1.exc
      case returned ok =>
        rw [if_pos ⟨h.2.2.1, hgn.2⟩] at hs
        cases hs
        exact key h.2.2.1 (Or.inl h.1) h.2.1
    · simp only [step] at hs
      split at hs
      all_goals first | cases hs | skip
      all_goals
        split at hs <;> cases hs <;>
          exact h.congr (sameCounts_workers rfl rfl) (setProv_ne _ _ e)
  | clear =>
    have hq : s.queue = [] := hg
    simp only [step] at hs
    cases hs
    refine h.congr (sameCounts_workers rfl ?_) ?_
    · rw [hq]
    · simp [hq, clearProv]
  | remove r =>
    have hq : s.queue.count r = 0 := hg
    simp only [step] at hs
    cases hs
    refine h.congr (sameCounts_workers rfl ?_) rfl
    have : s.queue.filter (fun q => q != r) = s.queue := by
      refine List.filter_eq_self.2 fun a ha => ?_
      have := List.count_eq_zero.1 hq
      simp only [bne_iff_ne, ne_eq]
      intro e
      exact this (e ▸ ha)
    simp only [this]
  | tellExit k =>
    simp only [step] at hs
    cases hs
    exact h.congr (sameCounts_wake rfl rfl) rfl
  | popWorker =>
    simp only [step] at hs
    split at hs <;> cases hs
    rename_i hl
    refine h.congr (sameCounts_append (l := [.gone]) ?_ (Or.inr ?_) rfl) rfl
    · intro w hw
      rw [List.mem_singleton.1 hw]
      exact neutral_gone p
    · obtain ⟨l, hl'⟩ := List.getLast?_eq_some_iff.1 hl
      simp [hl']
  | joinAll =>
    simp only [step] at hs
    split at hs <;> cases hs
    rename_i hl
    refine h.congr (sameCounts_append (l := s.workers) ?_ (Or.inr ?_) rfl) rfl
    · intro w hw
      have := List.all_eq_true.1 hl w hw
      rw [beq_iff_eq] at this
      rw [this]
      exact neutral_gone p
    · rfl
  | grow k =>
    simp only [step] at hs
    split at hs <;> cases hs
    refine h.congr (sameCounts_append (l := List.replicate (k - s.workers.length) .top) ?_
      (Or.inl rfl) rfl) rfl
    intro w hw
    rw [(List.mem_replicate.1 hw).2]
    simp [Neutral, isBody]

end PV.Thr
