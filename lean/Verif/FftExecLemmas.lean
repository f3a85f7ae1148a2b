import Verif.FftExec
/-
  Lemmas about executors of Fourier transforms: every plan belongs to one executor and has its size.
-/
namespace PV.FftExec
open PV

/-- The plan number k of an executor -/
def expect (kind : Kind) (o : Exec) (k : Bool) : Plan := ⟨o.width, o.height, if kind = .cpu then some k else none⟩

structure Inv (kind : Kind) (w : World) : Prop where
  next : 0 < w.next
  live : ∀ i o k, w.execs i = some o → o.plan k ≠ 0 → w.plans (o.plan k) = some (expect kind o k)
  once : ∀ i o k i' o' k', w.execs i = some o → w.execs i' = some o' → o.plan k ≠ 0 → o.plan k = o'.plan k' → i = i' ∧ k = k'
  owned : ∀ h p, w.plans h = some p → h ≠ 0 ∧ h < w.next ∧ ∃ i o k, w.execs i = some o ∧ o.plan k = h
  one : kind = .cuda → ∀ i o, w.execs i = some o → o.plan true = 0

theorem upd_same {κ β : Type} [DecidableEq κ] (f : κ → β) (i : κ) (x : β) : upd f i x i = x := if_pos rfl
theorem upd_other {κ β : Type} [DecidableEq κ] (f : κ → β) {i j : κ} (x : β) (h : j ≠ i) : upd f i x j = f j := if_neg h

theorem exec_ok {w : World} {i : Nat} {o : Exec} (h : w.execs i = some o) : exec i w = .ok o w := by
  rw [exec, h]

/-- Executor i has no plans any more, and gets another size. -/
theorem Inv.resize {kind : Kind} {w : World} (hi : Inv kind w) {i : Nat} {o : Exec} (ho : w.execs i = some o) (hz : ∀ k, o.plan k = 0) (a b : Nat) :
    Inv kind { w with execs := upd w.execs i (some ⟨o.plan, a, b⟩) } := by
  have key : ∀ j o', upd w.execs i (some ⟨o.plan, a, b⟩) j = some o' → (j = i ∧ o'.plan = o.plan ∧ ∀ k, o'.plan k = 0) ∨ (j ≠ i ∧ w.execs j = some o') := by
    intro j o' h
    by_cases hj : j = i
    · subst hj
      rw [upd_same] at h
      cases h
      exact .inl ⟨rfl, rfl, hz⟩
    · rw [upd_other _ _ hj] at h
      exact .inr ⟨hj, h⟩
  refine ⟨hi.next, ?_, ?_, ?_, ?_⟩
  · intro j o' k h hk
    rcases key j o' h with ⟨_, _, h1⟩ | ⟨_, h1⟩
    · exact absurd (h1 k) hk
    · exact hi.live j o' k h1 hk
  · intro j o1 k j' o2 k' h h' hk he
    rcases key j o1 h with ⟨_, _, h1⟩ | ⟨_, h1⟩
    · exact absurd (h1 k) hk
    · rcases key j' o2 h' with ⟨_, _, h2⟩ | ⟨_, h2⟩
      · rw [he, h2] at hk
        exact absurd rfl hk
      · exact hi.once j o1 k j' o2 k' h1 h2 hk he
  · intro h p hp
    obtain ⟨h1, h2, j, o', k, h3, h4⟩ := hi.owned h p hp
    refine ⟨h1, h2, j, o', k, ?_, h4⟩
    have hj : j ≠ i := by
      rintro rfl
      rw [ho] at h3
      cases h3
      rw [hz] at h4
      exact h1 h4.symm
    show upd w.execs i _ j = _
    rw [upd_other _ _ hj, h3]
  · intro hc j o' h
    rcases key j o' h with ⟨_, _, h1⟩ | ⟨_, h1⟩
    · exact h1 true
    · exact hi.one hc j o' h1

/-- Executor i has no plans, and goes away. -/
theorem Inv.drop {kind : Kind} {w : World} (hi : Inv kind w) {i : Nat} (hz : ∀ o, w.execs i = some o → ∀ k, o.plan k = 0) :
    Inv kind { w with execs := upd w.execs i none } := by
  have key : ∀ j o', upd w.execs i none j = some o' → w.execs j = some o' := by
    intro j o' h
    by_cases hj : j = i
    · subst hj
      rw [upd_same] at h
      cases h
    · rw [upd_other _ _ hj] at h
      exact h
  refine ⟨hi.next, fun j o' k h hk => hi.live j o' k (key j o' h) hk,
    fun j o1 k j' o2 k' h h' hk he => hi.once j o1 k j' o2 k' (key _ _ h) (key _ _ h') hk he, ?_, fun hc j o' h => hi.one hc j o' (key _ _ h)⟩
  intro h p hp
  obtain ⟨h1, h2, j, o', k, h3, h4⟩ := hi.owned h p hp
  refine ⟨h1, h2, j, o', k, ?_, h4⟩
  have hj : j ≠ i := by
    rintro rfl
    rw [hz o' h3] at h4
    exact h1 h4.symm
  show upd w.execs i _ j = _
  rw [upd_other _ _ hj, h3]

/-- A new executor without plans -/
theorem Inv.add {kind : Kind} {w : World} (hi : Inv kind w) {i : Nat} (hn : w.execs i = none) :
    Inv kind { w with execs := upd w.execs i (some ⟨fun _ => 0, 0, 0⟩) } := by
  have key : ∀ j o', upd w.execs i (some ⟨fun _ => 0, 0, 0⟩) j = some o' → (∀ k, o'.plan k = 0) ∨ w.execs j = some o' := by
    intro j o' h
    by_cases hj : j = i
    · subst hj
      rw [upd_same] at h
      cases h
      exact .inl fun _ => rfl
    · rw [upd_other _ _ hj] at h
      exact .inr h
  refine ⟨hi.next, ?_, ?_, ?_, ?_⟩
  · intro j o' k h hk
    rcases key j o' h with h1 | h1
    · exact absurd (h1 k) hk
    · exact hi.live j o' k h1 hk
  · intro j o1 k j' o2 k' h h' hk he
    rcases key j o1 h with h1 | h1
    · exact absurd (h1 k) hk
    · rcases key j' o2 h' with h2 | h2
      · rw [he, h2] at hk
        exact absurd rfl hk
      · exact hi.once j o1 k j' o2 k' h1 h2 hk he
  · intro h p hp
    obtain ⟨h1, h2, j, o', k, h3, h4⟩ := hi.owned h p hp
    refine ⟨h1, h2, j, o', k, ?_, h4⟩
    have hj : j ≠ i := by
      rintro rfl
      rw [hn] at h3
      cases h3
    show upd w.execs i _ j = _
    rw [upd_other _ _ hj, h3]
  · intro hc j o' h
    rcases key j o' h with h1 | h1
    · exact h1 true
    · exact hi.one hc j o' h1

/-- Plan k of executor i is released. -/
theorem Inv.release {kind : Kind} {w : World} (hi : Inv kind w) {i : Nat} {o : Exec} (ho : w.execs i = some o) (k : Bool) (hk : o.plan k ≠ 0) :
    Inv kind { w with plans := upd w.plans (o.plan k) none, execs := upd w.execs i (some ⟨upd o.plan k 0, o.width, o.height⟩) } := by
  have key : ∀ j o', upd w.execs i (some ⟨upd o.plan k 0, o.width, o.height⟩) j = some o' →
      ∃ o2, w.execs j = some o2 ∧ o'.width = o2.width ∧ o'.height = o2.height ∧ ∀ k', o'.plan k' ≠ 0 → o'.plan k' = o2.plan k' ∧ ¬ (j = i ∧ k' = k) := by
    intro j o' h
    by_cases hj : j = i
    · subst hj
      rw [upd_same] at h
      cases h
      refine ⟨o, ho, rfl, rfl, fun k' hk' => ?_⟩
      by_cases e : k' = k
      · subst e
        exact absurd (upd_same _ _ _) hk'
      · exact ⟨upd_other _ _ e, fun h => e h.2⟩
    · rw [upd_other _ _ hj] at h
      exact ⟨o', h, rfl, rfl, fun k' _ => ⟨rfl, fun h => hj h.1⟩⟩
  refine ⟨hi.next, ?_, ?_, ?_, ?_⟩
  · intro j o' k' h hk'
    obtain ⟨o2, h1, h2, h3, h4⟩ := key j o' h
    obtain ⟨h5, h6⟩ := h4 k' hk'
    show upd w.plans (o.plan k) none (o'.plan k') = _
    rw [h5] at hk' ⊢
    have : o2.plan k' ≠ o.plan k := fun he => h6 (hi.once j o2 k' i o k h1 ho hk' he)
    rw [upd_other _ _ this, hi.live j o2 k' h1 hk', expect, expect, h2, h3]
  · intro j o1 k1 j' o2 k2 h h' hk1 he
    obtain ⟨p1, a1, _, _, a4⟩ := key j o1 h
    obtain ⟨p2, b1, _, _, b4⟩ := key j' o2 h'
    have e1 := (a4 k1 hk1).1
    have e2 := (b4 k2 (he ▸ hk1)).1
    exact hi.once j p1 k1 j' p2 k2 a1 b1 (e1 ▸ hk1) (by rw [← e1, ← e2, he])
  · intro h p hp
    have hne : h ≠ o.plan k := by
      rintro rfl
      have : upd w.plans (o.plan k) none (o.plan k) = some p := hp
      rw [upd_same] at this
      cases this
    have hp' : w.plans h = some p := by
      have : upd w.plans (o.plan k) none h = some p := hp
      rwa [upd_other _ _ hne] at this
    obtain ⟨h1, h2, j, o', k', h3, h4⟩ := hi.owned h p hp'
    refine ⟨h1, h2, ?_⟩
    by_cases hj : j = i
    · subst hj
      rw [ho] at h3
      cases h3
      refine ⟨j, ⟨upd o.plan k 0, o.width, o.height⟩, k', upd_same _ _ _, ?_⟩
      show upd o.plan k 0 k' = h
      rw [upd_other _ _ (by rintro rfl; exact hne h4.symm), h4]
    · exact ⟨j, o', k', by show upd _ _ _ _ = _; rw [upd_other _ _ hj, h3], h4⟩
  · intro hc j o' h
    obtain ⟨o2, h1, _, _, h4⟩ := key j o' h
    cases Nat.eq_zero_or_pos (o'.plan true) with
    | inl h => exact h
    | inr h => rw [(h4 true (by omega)).1]; exact hi.one hc j o2 h1

/-- Executor i gets plan k. -/
theorem Inv.make {kind : Kind} {w : World} (hi : Inv kind w) {i : Nat} {o : Exec} (ho : w.execs i = some o) (k : Bool) (hk : o.plan k = 0)
    (hc : kind = .cuda → k = false) :
    Inv kind ⟨upd w.execs i (some ⟨upd o.plan k w.next, o.width, o.height⟩), upd w.plans w.next (some (expect kind o k)), w.next + 1⟩ := by
  have fresh : ∀ j o' k', w.execs j = some o' → o'.plan k' ≠ w.next := by
    intro j o' k' h he
    have h1 := hi.next
    have h2 := hi.live j o' k' h (by omega)
    have := (hi.owned _ _ h2).2.1
    omega
  have key : ∀ j o', upd w.execs i (some ⟨upd o.plan k w.next, o.width, o.height⟩) j = some o' →
      ∃ o2, w.execs j = some o2 ∧ o'.width = o2.width ∧ o'.height = o2.height ∧
        ∀ k', (j = i ∧ k' = k ∧ o'.plan k' = w.next) ∨ (¬ (j = i ∧ k' = k) ∧ o'.plan k' = o2.plan k') := by
    intro j o' h
    by_cases hj : j = i
    · subst hj
      rw [upd_same] at h
      cases h
      refine ⟨o, ho, rfl, rfl, fun k' => ?_⟩
      by_cases e : k' = k
      · subst e
        exact .inl ⟨rfl, rfl, upd_same _ _ _⟩
      · exact .inr ⟨fun h => e h.2, upd_other _ _ e⟩
    · rw [upd_other _ _ hj] at h
      exact ⟨o', h, rfl, rfl, fun k' => .inr ⟨fun h => hj h.1, rfl⟩⟩
  refine ⟨Nat.succ_pos _, ?_, ?_, ?_, ?_⟩
  · intro j o' k' h hk'
    obtain ⟨o2, h1, h2, h3, h4⟩ := key j o' h
    show upd w.plans w.next _ (o'.plan k') = _
    rcases h4 k' with ⟨rfl, rfl, h5⟩ | ⟨_, h5⟩
    · rw [ho] at h1
      cases h1
      rw [h5, upd_same, expect, expect, h2, h3]
    · rw [h5] at hk' ⊢
      rw [upd_other _ _ (fresh j o2 k' h1), hi.live j o2 k' h1 hk', expect, expect, h2, h3]
  · intro j o1 k1 j' o2 k2 h h' hk1 he
    obtain ⟨p1, a1, _, _, a4⟩ := key j o1 h
    obtain ⟨p2, b1, _, _, b4⟩ := key j' o2 h'
    rcases a4 k1 with ⟨rfl, rfl, e1⟩ | ⟨_, e1⟩
    · rcases b4 k2 with ⟨rfl, rfl, e2⟩ | ⟨_, e2⟩
      · exact ⟨rfl, rfl⟩
      · exact absurd (by rw [← e2, ← he, e1]) (fresh j' p2 k2 b1)
    · rcases b4 k2 with ⟨rfl, rfl, e2⟩ | ⟨_, e2⟩
      · exact absurd (by rw [← e1, he, e2]) (fresh j p1 k1 a1)
      · exact hi.once j p1 k1 j' p2 k2 a1 b1 (e1 ▸ hk1) (by rw [← e1, ← e2, he])
  · intro h p hp
    have hp' : upd w.plans w.next (some (expect kind o k)) h = some p := hp
    by_cases hh : h = w.next
    · subst hh
      exact ⟨by have := hi.next; omega, Nat.lt_succ_self _, i, _, k, upd_same _ _ _, upd_same _ _ _⟩
    · rw [upd_other _ _ hh] at hp'
      obtain ⟨h1, h2, j, o', k', h3, h4⟩ := hi.owned h p hp'
      refine ⟨h1, Nat.lt_succ_of_lt h2, ?_⟩
      by_cases hj : j = i
      · subst hj
        rw [ho] at h3
        cases h3
        refine ⟨j, ⟨upd o.plan k w.next, o.width, o.height⟩, k', upd_same _ _ _, ?_⟩
        show upd o.plan k w.next k' = h
        rw [upd_other _ _ (by rintro rfl; rw [hk] at h4; exact h1 h4.symm), h4]
      · exact ⟨j, o', k', by show upd _ _ _ _ = _; rw [upd_other _ _ hj, h3], h4⟩
  · intro hcu j o' h
    obtain ⟨o2, h1, _, _, h4⟩ := key j o' h
    rcases h4 true with ⟨_, e, _⟩ | ⟨_, e⟩
    · rw [hc hcu] at e
      cases e
    · rw [e]
      exact hi.one hcu j o2 h1

/-- Only executor i is another one, now o. -/
structure Changed (kind : Kind) (w w' : World) (i : Nat) (o : Exec) : Prop where
  inv : Inv kind w'
  is : w'.execs i = some o
  other : ∀ j, j ≠ i → w'.execs j = w.execs j

theorem Changed.trans {kind : Kind} {w w1 w2 : World} {i : Nat} {o1 o2 : Exec} (h1 : Changed kind w w1 i o1) (h2 : Changed kind w1 w2 i o2) :
    Changed kind w w2 i o2 := ⟨h2.inv, h2.is, fun j hj => by rw [h2.other j hj, h1.other j hj]⟩

theorem cleanPlan_ok {kind : Kind} {w : World} (hi : Inv kind w) {i : Nat} {o : Exec} (ho : w.execs i = some o) (k : Bool) :
    ∃ w', cleanPlan i k w = .ok () w' ∧ Changed kind w w' i ⟨upd o.plan k 0, o.width, o.height⟩ := by
  by_cases hk : o.plan k = 0
  · refine ⟨w, ?_, hi, ?_, fun _ _ => rfl⟩
    · rw [cleanPlan, bind_ok (exec_ok ho), if_neg (by simpa using hk)]
      rfl
    · have : upd o.plan k 0 = o.plan := by
        funext k'
        by_cases e : k' = k
        · rw [e, upd_same, hk]
        · rw [upd_other _ _ e]
      rw [ho, this]
  · refine ⟨_, ?_, hi.release ho k hk, upd_same _ _ _, fun j hj => upd_other _ _ hj⟩
    rw [cleanPlan, bind_ok (exec_ok ho), if_pos hk]
    have : freePlan (o.plan k) w = .ok () { w with plans := upd w.plans (o.plan k) none } := by
      rw [freePlan, hi.live i o k ho hk]
    rw [bind_ok this]
    rfl

theorem clean_ok {kind : Kind} {w : World} (hi : Inv kind w) {i : Nat} {o : Exec} (ho : w.execs i = some o) :
    ∃ w', clean i w = .ok () w' ∧ Changed kind w w' i ⟨fun _ => 0, 0, 0⟩ := by
  obtain ⟨w1, h1, c1⟩ := cleanPlan_ok hi ho false
  obtain ⟨w2, h2, c2⟩ := cleanPlan_ok c1.inv c1.is true
  have hz : upd (upd o.plan false 0) true 0 = fun _ => 0 := by
    funext k
    cases k <;> rfl
  have c3 := c2.inv.resize c2.is (fun k => by show upd (upd o.plan false 0) true 0 k = 0; rw [hz]) 0 0
  refine ⟨_, ?_, c3, ?_, fun j hj => ?_⟩
  · rw [clean, bind_ok h1, bind_ok h2, bind_ok (exec_ok c2.is)]
    rfl
  · show upd w2.execs i _ i = _
    rw [upd_same, hz]
  · show upd w2.execs i _ j = _
    rw [upd_other _ _ hj, c2.other j hj, c1.other j hj]

/-- What an executor has after its plans were to be made -/
def made (e : Env) (k : Bool) (p : Bool → Nat) (n : Nat) : Bool → Nat := upd p k (if e.make k then n else 0)

theorem makePlan_ok {w : World} (hi : Inv .cpu w) (e : Env) {i : Nat} {o : Exec} (ho : w.execs i = some o) (k : Bool) (hk : o.plan k = 0) :
    ∃ w', makePlan e i k w = .ok () w' ∧ w.next ≤ w'.next ∧ Changed .cpu w w' i ⟨made e k o.plan w.next, o.width, o.height⟩ := by
  rw [made]
  by_cases he : e.make k = true
  · rw [if_pos he]
    refine ⟨_, ?_, ?_, hi.make ho k hk nofun, upd_same _ _ _, fun j hj => upd_other _ _ hj⟩
    · rw [makePlan, bind_ok (exec_ok ho), if_pos he]
      rfl
    · exact Nat.le_succ _
  · rw [if_neg he]
    have hu : upd o.plan k 0 = o.plan := by
      funext k'
      by_cases e : k' = k
      · rw [e, upd_same, hk]
      · rw [upd_other _ _ e]
    refine ⟨w, ?_, Nat.le_refl _, hi, by rw [hu, ho], fun _ _ => rfl⟩
    rw [makePlan, bind_ok (exec_ok ho), if_neg he, pure_bind']
    show Res.ok () { w with execs := upd w.execs i (some ⟨upd o.plan k 0, o.width, o.height⟩) } = _
    rw [hu]
    have : upd w.execs i (some o) = w.execs := by
      funext j
      by_cases e : j = i
      · rw [e, upd_same, ho]
      · rw [upd_other _ _ e]
    rw [this]

/-- What `initialize` leaves: the size is the new one; a plan can be used if it could be made. -/
structure Initialised (kind : Kind) (e : Env) (w w' : World) (i a b : Nat) (r : Bool) : Prop where
  ends : initialise kind e i a b w = if r then .ok () w' else .throw w'
  thrown : r = false → kind = .cuda ∧ e.make false = false
  returned : r = true → kind = .cuda → e.make false = true
  changed : ∃ o, Changed kind w w' i o ∧ o.width = a ∧ o.height = b ∧ (o.plan false ≠ 0 ↔ e.make false = true) ∧
    (kind = .cpu → (o.plan true ≠ 0 ↔ e.make true = true))

theorem initialise_ok {kind : Kind} {w : World} (hi : Inv kind w) (e : Env) {i a b : Nat} {o : Exec} (ho : w.execs i = some o) (ha : a ≠ 0) (hb : b ≠ 0) :
    ∃ r w', Initialised kind e w w' i a b r := by
  obtain ⟨w1, h1, c1⟩ := clean_ok hi ho
  have c2 := c1.inv.resize c1.is (fun _ => rfl) a b
  have ht : throwIf (a == 0 || b == 0) w = .ok () w := by
    have : (a == 0 || b == 0) = false := by simp [ha, hb]
    rw [this]
    rfl
  obtain ⟨w2, hw2⟩ : ∃ w2 : World, w2 = { w1 with execs := upd w1.execs i (some ⟨fun _ => 0, a, b⟩) } := ⟨_, rfl⟩
  have c2' : Changed kind w w2 i ⟨fun _ => 0, a, b⟩ := by
    subst hw2
    exact ⟨c2, upd_same _ _ _, fun j hj => by show upd _ _ _ _ = _; rw [upd_other _ _ hj, c1.other j hj]⟩
  have run : initialise kind e i a b w = makePlans kind e i w2 := by
    rw [initialise, bind_ok ht, bind_ok h1, bind_ok (exec_ok c1.is), hw2]
    rfl
  cases kind with
  | cpu =>
    obtain ⟨w3, h3, n3, c3⟩ := makePlan_ok c2'.inv e c2'.is false rfl
    obtain ⟨w4, h4, n4, c4⟩ := makePlan_ok c3.inv e c3.is true rfl
    refine ⟨true, w4, ?_, nofun, nofun, _, (c2'.trans c3).trans c4, rfl, rfl, ?_, fun _ => ?_⟩
    · rw [run]
      exact bind_ok h3 |>.trans h4
    · show made e true (made e false (fun _ => 0) w2.next) w3.next false ≠ 0 ↔ _
      rw [made, upd_other _ _ (by decide), made, upd_same]
      have := c2'.inv.next
      by_cases he : e.make false = true
      · rw [if_pos he]
        exact ⟨fun _ => he, fun _ => by omega⟩
      · rw [if_neg he]
        exact ⟨fun h => absurd rfl h, fun h => absurd h he⟩
    · show made e true (made e false (fun _ => 0) w2.next) w3.next true ≠ 0 ↔ _
      rw [made, upd_same]
      have := c3.inv.next
      by_cases he : e.make true = true
      · rw [if_pos he]
        exact ⟨fun _ => he, fun _ => by omega⟩
      · rw [if_neg he]
        exact ⟨fun h => absurd rfl h, fun h => absurd h he⟩
  | cuda =>
    by_cases he : e.make false = true
    · refine ⟨true, _, ?_, nofun, fun _ _ => he, _, c2'.trans ⟨c2'.inv.make c2'.is false rfl fun _ => rfl, upd_same _ _ _, fun j hj => upd_other _ _ hj⟩,
        rfl, rfl, ?_, nofun⟩
      · rw [run, makePlans, bind_ok (exec_ok c2'.is), he]
        rfl
      · have := c2'.inv.next
        exact ⟨fun _ => he, fun _ => by show upd (fun _ : Bool => 0) false w2.next false ≠ 0; rw [upd_same]; omega⟩
    · have he' : e.make false = false := by simpa using he
      refine ⟨false, w2, ?_, fun _ => ⟨rfl, he'⟩, nofun, _, c2', rfl, rfl, ⟨fun h => absurd rfl h, fun h => absurd h he⟩, nofun⟩
      rw [run, makePlans, bind_ok (exec_ok c2'.is), he']
      rfl

end PV.FftExec
