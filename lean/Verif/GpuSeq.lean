import Verif.Gpu
import Mathlib.Data.List.Nodup
/-
  One particular order of the accesses of a launch: thread after thread.  Used for examples and counterexamples.
-/
namespace PV

variable {α A ι : Type} [DecidableEq ι]

theorem Sys.step_other (s : Sys α A ι) {t u : ι} (h : u ≠ t) : (s.step t).task u = s.task u := if_neg h

theorem Sys.step_same (s : Sys α A ι) (t : ι) : (s.step t).task t = ((s.task t).step s.mem).1 := if_pos rfl

theorem Sys.run_alone (p : Prog α A) : ∀ (s : Sys α A ι) (t : ι) (a : A) (m' : Mem α), s.task t = p → p.run s.mem = .ok a m' →
    ∃ n, ((s.exec (List.replicate n t)).mem = m') ∧ (s.exec (List.replicate n t)).task t = .ret a ∧
      ∀ u, u ≠ t → (s.exec (List.replicate n t)).task u = s.task u := by
  induction p with
  | ret a =>
    intro s t b m' hp hr
    cases hr
    exact ⟨0, rfl, hp, fun _ _ => rfl⟩
  | read b i k ih =>
    intro s t a m' hp hr
    by_cases hv : s.mem.Valid b i
    · have h1 : (s.task t).step s.mem = (k (s.mem.byte b i), s.mem) := by rw [hp]; exact if_pos hv
      have hr' : (k (s.mem.byte b i)).run s.mem = .ok a m' := by
        have h0 : readC b i s.mem = .ok (s.mem.byte b i) s.mem := if_pos hv
        have := bind_ok (f := fun v => (k v).run) h0
        exact this.symm.trans hr
      have e1 : (s.step t).task t = k (s.mem.byte b i) := by rw [Sys.step_same, h1]
      have e2 : (s.step t).mem = s.mem := by show ((s.task t).step s.mem).2 = _; rw [h1]
      obtain ⟨n, g1, g2, g3⟩ := ih _ (s.step t) t a m' e1 (by rw [e2]; exact hr')
      exact ⟨n + 1, g1, g2, fun u hu => (g3 u hu).trans (s.step_other hu)⟩
    · have h0 : readC b i s.mem = .ub := if_neg hv
      have : (readC b i >>= fun v => (k v).run) s.mem = .ub := bind_ub h0
      rw [show (Prog.read b i k).run s.mem = _ from this] at hr
      cases hr
  | write b i v k ih =>
    intro s t a m' hp hr
    by_cases hv : s.mem.Valid b i
    · have h1 : (s.task t).step s.mem = (k, s.mem.set b i v) := by rw [hp]; exact if_pos hv
      have hr' : k.run (s.mem.set b i v) = .ok a m' := by
        have h0 : writeC b i v s.mem = .ok () (s.mem.set b i v) := if_pos hv
        have := bind_ok (f := fun _ => k.run) h0
        exact this.symm.trans hr
      have e1 : (s.step t).task t = k := by rw [Sys.step_same, h1]
      have e2 : (s.step t).mem = s.mem.set b i v := by show ((s.task t).step s.mem).2 = _; rw [h1]
      obtain ⟨n, g1, g2, g3⟩ := ih (s.step t) t a m' e1 (by rw [e2]; exact hr')
      exact ⟨n + 1, g1, g2, fun u hu => (g3 u hu).trans (s.step_other hu)⟩
    · have h0 : writeC b i v s.mem = .ub := if_neg hv
      have : (writeC b i v >>= fun _ => k.run) s.mem = .ub := bind_ub h0
      rw [show (Prog.write b i v k).run s.mem = _ from this] at hr
      cases hr
  | throw => intro s t a m' hp hr; cases hr
  | ub => intro s t a m' hp hr; cases hr

theorem Sys.run_list {Q : ι → Prog α A} (l : List ι) (hnd : l.Nodup) : ∀ (s : Sys α A ι) (b : A) (m' : Mem α),
    (∀ t ∈ l, s.task t = Q t) → PV.fold (fun t _ => (Q t).run) l b s.mem = .ok b m' → (∀ a a' : A, a = a') →
    ∃ σ, (s.exec σ).mem = m' ∧ (∀ t ∈ l, ((s.exec σ).task t).Done) ∧ ∀ u, u ∉ l → (s.exec σ).task u = s.task u := by
  induction l with
  | nil =>
    intro s b m' _ hr _
    cases hr
    exact ⟨[], rfl, fun t h => absurd h (List.not_mem_nil), fun _ _ => rfl⟩
  | cons t l ih =>
    intro s b m' hs hr hu
    rw [fold_cons] at hr
    obtain ⟨ht, hl⟩ := List.nodup_cons.mp hnd
    cases h1 : (Q t).run s.mem with
    | ok a m₁ =>
      rw [bind_ok h1] at hr
      obtain ⟨n, g1, g2, g3⟩ := Sys.run_alone _ s t a m₁ (hs t (List.mem_cons_self ..)) h1
      rw [← g1] at hr
      have e : a = b := hu a b
      subst e
      obtain ⟨σ, k1, k2, k3⟩ := ih hl (s.exec (List.replicate n t)) a m' (fun u h => by
        rw [g3 u fun he => ht (he ▸ h)]
        exact hs u (List.mem_cons_of_mem _ h)) hr hu
      refine ⟨List.replicate n t ++ σ, ?_, ?_, ?_⟩
      · rw [Sys.exec_append]; exact k1
      · intro u h
        rw [Sys.exec_append]
        rcases List.mem_cons.mp h with rfl | h
        · rw [k3 u ht, g2]
          trivial
        · exact k2 u h
      · intro u h
        rw [Sys.exec_append, k3 u fun h' => h (List.mem_cons_of_mem _ h'), g3 u fun he => h (he ▸ List.mem_cons_self ..)]
    | throw m₁ => rw [bind_throw h1] at hr; cases hr
    | ub =>
      have : ((Q t).run >>= fun a => PV.fold (fun t _ => (Q t).run) l a) s.mem = .ub := bind_ub h1
      rw [this] at hr
      cases hr

/-- The launch with its threads one after the other. Not in the code: for statements and proofs. -/
def Launch.seq (L : Launch) : M BMem Unit := fold (fun t _ => (L.kernel (L.posX t) (L.posY t)).run) L.threads ()

theorem Geometry.threads_nodup (L : Geometry) : L.threads.Nodup := by
  unfold Geometry.threads
  rw [List.nodup_flatMap]
  refine ⟨fun bx _ => ?_, ?_⟩
  · rw [List.nodup_flatMap]
    refine ⟨fun by' _ => ?_, ?_⟩
    · rw [List.nodup_flatMap]
      refine ⟨fun tx _ => ?_, ?_⟩
      · refine List.Nodup.map (fun a b h => ?_) (List.nodup_finRange _)
        exact (Geometry.Thread.mk.inj h).2.2.2
      · refine (List.nodup_finRange L.threadsX).imp fun {a b} hab t h1 h2 => ?_
        simp only [List.mem_map] at h1 h2
        obtain ⟨_, _, rfl⟩ := h1
        obtain ⟨_, _, h⟩ := h2
        exact hab (Geometry.Thread.mk.inj h).2.2.1.symm
    · refine (List.nodup_finRange L.blocksY).imp fun {a b} hab t h1 h2 => ?_
      simp only [List.mem_map, List.mem_flatMap] at h1 h2
      obtain ⟨_, _, _, _, rfl⟩ := h1
      obtain ⟨_, _, _, _, h⟩ := h2
      exact hab (Geometry.Thread.mk.inj h).2.1.symm
  · refine (List.nodup_finRange L.blocksX).imp fun {a b} hab t h1 h2 => ?_
    simp only [List.mem_map, List.mem_flatMap] at h1 h2
    obtain ⟨_, _, _, _, _, _, rfl⟩ := h1
    obtain ⟨_, _, _, _, _, _, h⟩ := h2
    exact hab (Geometry.Thread.mk.inj h).1.symm

/-- Thread after thread is one of the orders. -/
theorem Launch.Always.seq {L : Launch} {m m' : BMem} {Q : BMem → Prop} (h : L.Always m Q) (hr : L.seq m = .ok () m') : Q m' := by
  obtain ⟨σ, h1, h2, _⟩ := Sys.run_list (Q := fun t => L.kernel (L.posX t) (L.posY t)) L.threads L.threads_nodup (L.sys m) () m'
    (fun _ _ => rfl) hr fun _ _ => rfl
  rw [← h1]
  exact h.result σ fun t => h2 t (L.mem_threads t)

/-- A thread that goes wrong when it runs alone. -/
theorem Sys.run_alone_ub (p : Prog α A) : ∀ (s : Sys α A ι) (t : ι), s.task t = p → p.run s.mem = .ub →
    ∃ n, (s.exec (List.replicate n t)).task t = .ub := by
  induction p with
  | ret a => intro s t hp hr; cases hr
  | read b i k ih =>
    intro s t hp hr
    by_cases hv : s.mem.Valid b i
    · have h1 : (s.task t).step s.mem = (k (s.mem.byte b i), s.mem) := by rw [hp]; exact if_pos hv
      have hr' : (k (s.mem.byte b i)).run s.mem = .ub := by
        have h0 : readC b i s.mem = .ok (s.mem.byte b i) s.mem := if_pos hv
        have := bind_ok (f := fun v => (k v).run) h0
        exact this.symm.trans hr
      have e1 : (s.step t).task t = k (s.mem.byte b i) := by rw [Sys.step_same, h1]
      have e2 : (s.step t).mem = s.mem := by show ((s.task t).step s.mem).2 = _; rw [h1]
      obtain ⟨n, g⟩ := ih _ (s.step t) t e1 (by rw [e2]; exact hr')
      exact ⟨n + 1, g⟩
    · refine ⟨1, ?_⟩
      show (s.step t).task t = _
      rw [Sys.step_same, hp, Prog.step, if_neg hv]
  | write b i v k ih =>
    intro s t hp hr
    by_cases hv : s.mem.Valid b i
    · have h1 : (s.task t).step s.mem = (k, s.mem.set b i v) := by rw [hp]; exact if_pos hv
      have hr' : k.run (s.mem.set b i v) = .ub := by
        have h0 : writeC b i v s.mem = .ok () (s.mem.set b i v) := if_pos hv
        have := bind_ok (f := fun _ => k.run) h0
        exact this.symm.trans hr
      have e1 : (s.step t).task t = k := by rw [Sys.step_same, h1]
      have e2 : (s.step t).mem = s.mem.set b i v := by show ((s.task t).step s.mem).2 = _; rw [h1]
      obtain ⟨n, g⟩ := ih (s.step t) t e1 (by rw [e2]; exact hr')
      exact ⟨n + 1, g⟩
    · refine ⟨1, ?_⟩
      show (s.step t).task t = _
      rw [Sys.step_same, hp, Prog.step, if_neg hv]
  | throw => intro s t hp hr; cases hr
  | ub => intro s t hp hr; exact ⟨0, hp⟩

theorem Sys.run_list_ub {Q : ι → Prog α A} (l : List ι) (hnd : l.Nodup) : ∀ (s : Sys α A ι) (b : A),
    (∀ t ∈ l, s.task t = Q t) → PV.fold (fun t _ => (Q t).run) l b s.mem = .ub → ∃ σ t, (s.exec σ).task t = .ub := by
  induction l with
  | nil => intro s b _ hr; cases hr
  | cons t l ih =>
    intro s b hs hr
    rw [fold_cons] at hr
    obtain ⟨ht, hl⟩ := List.nodup_cons.mp hnd
    cases h1 : (Q t).run s.mem with
    | ok a m₁ =>
      rw [bind_ok h1] at hr
      obtain ⟨n, g1, g2, g3⟩ := Sys.run_alone _ s t a m₁ (hs t (List.mem_cons_self ..)) h1
      rw [← g1] at hr
      obtain ⟨σ, u, k⟩ := ih hl (s.exec (List.replicate n t)) a (fun u h => by
        rw [g3 u fun he => ht (he ▸ h)]
        exact hs u (List.mem_cons_of_mem _ h)) hr
      exact ⟨List.replicate n t ++ σ, u, by rw [Sys.exec_append]; exact k⟩
    | throw m₁ => rw [bind_throw h1] at hr; cases hr
    | ub =>
      obtain ⟨n, g⟩ := Sys.run_alone_ub _ s t (hs t (List.mem_cons_self ..)) h1
      exact ⟨_, t, g⟩

theorem Launch.Always.seq_ub {L : Launch} {m : BMem} {Q : BMem → Prop} (h : L.Always m Q) : L.seq m ≠ .ub := by
  intro hr
  obtain ⟨σ, t, g⟩ := Sys.run_list_ub (Q := fun t => L.kernel (L.posX t) (L.posY t)) L.threads L.threads_nodup (L.sys m) ()
    (fun _ _ => rfl) hr
  exact (h.safe σ t).2 g

end PV
