import Mathlib.Data.Multiset.Count
import Mathlib.Data.Multiset.Filter
import Mathlib.Data.Multiset.AddSub
import Mathlib.Data.Multiset.UnionInter
import Mathlib.Tactic.Abel
import Verif.ClHandles
/-
  C175: handles of the OpenCL driver.
-/
namespace PV.Props
open PV PV.ClHandles

/-- What a device has to hold: its context, its queues and its allocator. -/
def deviceHandles (d : Dev) : List Handle := (.context, d.ctx) :: (.allocator, d.alloc) :: d.queues.map fun q => (.queue, q)

/-- What a program has to hold; nothing after it was moved away. -/
def programHandles : Option Nat → List Handle
  | none => []
  | some p => [(.program, p)]

/-- What all objects of the user have to hold. -/
def ownedHandles (s : State) : List Handle :=
  s.devs.flatMap deviceHandles ++ s.progs.flatMap programHandles ++ s.kernels.map fun k => (.kernel, k)

/-- The handles which the driver has given are those of the objects and others, `lost`, for which there is no object; no handle is there
    twice. -/
structure Account (s : State) (lost : Multiset Handle) : Prop where
  live : s.live = (ownedHandles s : Multiset Handle) + lost
  nodup : s.live.Nodup
  old : ∀ h ∈ s.live, h.2 < s.next

/-- Which handle a step can lose: a launch its event, a device that cannot be made the allocator, a program that cannot be built itself. -/
def Loses : Op → Kind → Prop
  | .newDevice, k => k = .allocator
  | .newProgram _, k => k = .program
  | .launch _ _, k => k = .event
  | _, _ => False

/-- Whether a step can lose a handle. -/
def isRisky : Op → Bool
  | .newDevice => true
  | .newProgram _ => true
  | .launch _ _ => true
  | _ => false

/-! ### Lemmas -/

/-- The objects stay, new handles are added. -/
structure Grows (s s' : State) (add : Multiset Handle) : Prop where
  devs : s'.devs = s.devs
  progs : s'.progs = s.progs
  kernels : s'.kernels = s.kernels
  live : s'.live = add + s.live
  next : s.next ≤ s'.next
  fresh : ∀ h ∈ add, s.next ≤ h.2 ∧ h.2 < s'.next
  nodup : add.Nodup

/-- The outcome of a statement. -/
def Post {α : Type} (r : Res State α) (P : α → State → Prop) (Q : State → Prop) : Prop :=
  match r with
  | .ok a s => P a s
  | .throw s => Q s
  | .ub => False

theorem Post.bind {α β : Type} {x : M State α} {f : α → M State β} {s : State} {P : α → State → Prop} {Q : State → Prop}
    {P' : β → State → Prop} {Q' : State → Prop} (h : Post (x s) P Q) (hq : ∀ s', Q s' → Q' s')
    (hf : ∀ a s', P a s' → Post (f a s') P' Q') : Post ((x >>= f) s) P' Q' := by
  rw [bind_run]
  cases hx : x s with
  | ok a s' =>
    rw [hx] at h
    exact hf a s' h
  | throw s' =>
    rw [hx] at h
    exact hq s' h
  | ub =>
    rw [hx] at h
    exact h.elim

theorem Post.mono {α : Type} {r : Res State α} {P P' : α → State → Prop} {Q Q' : State → Prop} (h : Post r P Q)
    (hp : ∀ a s, P a s → P' a s) (hq : ∀ s, Q s → Q' s) : Post r P' Q' := by
  cases r with
  | ok a s => exact hp a s h
  | throw s => exact hq s h
  | ub => exact h

theorem Grows.refl (s : State) : Grows s s 0 := ⟨rfl, rfl, rfl, by simp, le_rfl, by simp, by simp⟩

theorem Grows.trans {s s1 s2 : State} {a b : Multiset Handle} (h1 : Grows s s1 a) (h2 : Grows s1 s2 b) : Grows s s2 (b + a) := by
  refine ⟨h2.devs.trans h1.devs, h2.progs.trans h1.progs, h2.kernels.trans h1.kernels, ?_, h1.next.trans h2.next, ?_, ?_⟩
  · rw [h2.live, h1.live, add_assoc]
  · intro h hh
    rcases Multiset.mem_add.1 hh with hh | hh
    · exact ⟨h1.next.trans (h2.fresh h hh).1, (h2.fresh h hh).2⟩
    · exact ⟨(h1.fresh h hh).1, lt_of_lt_of_le (h1.fresh h hh).2 h2.next⟩
  · refine Multiset.nodup_add.2 ⟨h2.nodup, h1.nodup, Multiset.disjoint_left.2 fun {h} hb ha => ?_⟩
    have := (h2.fresh h hb).1
    have := (h1.fresh h ha).2
    omega

/-- A handle that was just added is released. -/
theorem Grows.release {s s' : State} {a : Multiset Handle} (g : Grows s s' a) {h : Handle} (hh : h ∈ a) :
    Post (release h s') (fun _ s2 => Grows s s2 (a.erase h)) (fun _ => False) := by
  have hm : h ∈ s'.live := by
    rw [g.live]
    exact Multiset.mem_add.2 (Or.inl hh)
  rw [ClHandles.release, if_pos hm]
  refine ⟨g.devs, g.progs, g.kernels, ?_, g.next, fun x hx => g.fresh x (Multiset.mem_of_mem_erase hx), g.nodup.erase _⟩
  show s'.live.erase h = _
  rw [g.live, Multiset.erase_add_left_pos _ hh]

theorem check_post (fail : Nat → Bool) (s : State) :
    Post (check fail s) (fun _ s' => Grows s s' 0) (fun s' => Grows s s' 0) := by
  unfold check
  split <;> exact ⟨rfl, rfl, rfl, by simp, le_rfl, by simp, by simp⟩

theorem hold_post (k : Kind) (s : State) : Post (hold k s) (fun a s' => Grows s s' {(k, a)}) (fun _ => False) := by
  refine ⟨rfl, rfl, rfl, ?_, Nat.le_succ _, ?_, Multiset.nodup_singleton _⟩
  · rw [Multiset.singleton_add]
  · intro h hh
    rw [Multiset.mem_singleton] at hh
    subst hh
    exact ⟨le_rfl, Nat.lt_succ_self _⟩

theorem create_post (fail : Nat → Bool) (k : Kind) (s : State) :
    Post (create fail k s) (fun a s' => Grows s s' {(k, a)}) (fun s' => Grows s s' 0) := by
  refine (check_post fail s).bind (fun _ h => h) fun _ s1 h1 => (hold_post k s1).mono (fun a s2 h2 => ?_) (fun _ h => h.elim)
  have := h1.trans h2
  rwa [add_zero] at this

theorem newDevice_post (fail : Nat → Bool) (s : State) :
    Post (newDevice fail s) (fun d s' => Grows s s' (deviceHandles d : List Handle))
      (fun s' => ∃ l, Grows s s' l ∧ (l = 0 ∨ ∃ n, l = {(.allocator, n)})) := by
  refine (create_post fail .context s).bind (fun s' h => ⟨0, h, Or.inl rfl⟩) fun c s1 h1 => ?_
  have body : Post ((do
      check fail
      check fail
      let a ← hold .allocator
      let q ← create fail .queue
      pure ⟨c, [q], a⟩ : M State Dev) s1) (fun d s' => Grows s s' (deviceHandles d : List Handle))
      (fun s' => ∃ l, Grows s s' ((.context, c) ::ₘ l) ∧ (l = 0 ∨ ∃ n, l = {(.allocator, n)})) := by
    refine (check_post fail s1).bind (fun s' h => ⟨0, ?_, Or.inl rfl⟩) fun _ s2 h2 => ?_
    · have := h1.trans h
      rwa [zero_add] at this
    have g2 := h1.trans h2
    rw [zero_add] at g2
    refine (check_post fail s2).bind (fun s' h => ⟨0, ?_, Or.inl rfl⟩) fun _ s3 h3 => ?_
    · have := g2.trans h
      rwa [zero_add] at this
    have g3 := g2.trans h3
    rw [zero_add] at g3
    refine (hold_post .allocator s3).bind (fun _ h => h.elim) fun a s4 h4 => ?_
    have g4 := g3.trans h4
    refine (create_post fail .queue s4).bind (fun s' h => ⟨{(.allocator, a)}, ?_, Or.inr ⟨a, rfl⟩⟩) fun q s5 h5 => ?_
    · have := g4.trans h
      rwa [zero_add, add_comm, Multiset.singleton_add] at this
    have g5 := g4.trans h5
    show Grows s s5 _
    have e : ({(Kind.queue, q)} + ({(Kind.allocator, a)} + {(Kind.context, c)}) : Multiset Handle)
        = ((deviceHandles ⟨c, [q], a⟩ : List Handle) : Multiset Handle) := by
      rw [add_comm, add_comm {(Kind.allocator, a)}, add_assoc]
      rfl
    rwa [e] at g5
  revert body
  rw [unwind]
  generalize ((do
      check fail
      check fail
      let a ← hold .allocator
      let q ← create fail .queue
      pure ⟨c, [q], a⟩ : M State Dev) s1) = r
  intro body
  cases r with
  | ok d s' => exact body
  | ub => exact body
  | throw s' =>
    obtain ⟨l, g, hl⟩ := body
    have := g.release (h := (.context, c)) (Multiset.mem_cons_self _ _)
    rw [Multiset.erase_cons_head] at this
    show Post (match ClHandles.release (.context, c) s' with
      | .ok _ s2 => .throw s2
      | .throw s2 => .throw s2
      | .ub => .ub) _ _
    cases hr : ClHandles.release (.context, c) s' with
    | ok _ s2 =>
      rw [hr] at this
      exact ⟨l, this, hl⟩
    | throw s2 =>
      rw [hr] at this
      exact this.elim
    | ub =>
      rw [hr] at this
      exact this.elim

theorem newProgram_post (fail : Nat → Bool) (s : State) :
    Post (newProgram fail s) (fun p s' => Grows s s' {(.program, p)})
      (fun s' => ∃ l, Grows s s' l ∧ (l = 0 ∨ ∃ n, l = {(.program, n)})) := by
  refine (create_post fail .program s).bind (fun s' h => ⟨0, h, Or.inl rfl⟩) fun p s1 h1 => ?_
  have g1 : Grows s { s1 with calls := s1.calls + 1 } {(.program, p)} := ⟨h1.devs, h1.progs, h1.kernels, h1.live, h1.next, h1.fresh, h1.nodup⟩
  show Post (if fail s1.calls then _ else _) _ _
  split
  · have lost : ∀ s2 s', Grows s s2 {(.program, p)} → Grows s2 s' 0 →
        ∃ l, Grows s s' l ∧ (l = 0 ∨ ∃ n, l = {((.program : Kind), n)}) := fun s2 s' a b => by
      have := a.trans b
      rw [zero_add] at this
      exact ⟨_, this, Or.inr ⟨p, rfl⟩⟩
    refine (check_post fail _).bind (fun s' h => lost _ _ g1 h) fun _ s2 h2 => ?_
    have g2 := g1.trans h2
    rw [zero_add] at g2
    refine (check_post fail _).bind (fun s' h => lost _ _ g2 h) fun _ s3 h3 => ?_
    have g3 := g2.trans h3
    rw [zero_add] at g3
    refine (check_post fail _).bind (fun s' h => lost _ _ g3 h) fun _ s4 h4 => ?_
    have g4 := g3.trans h4
    rw [zero_add] at g4
    refine (g4.release (Multiset.mem_singleton_self _)).bind (fun _ h => h.elim) fun _ s5 h5 => ?_
    refine ⟨0, ?_, Or.inl rfl⟩
    rwa [show ({((.program : Kind), p)} : Multiset Handle).erase (.program, p) = 0 from Multiset.erase_singleton _] at h5
  · exact g1

theorem launch_post (fail : Nat → Bool) (s : State) :
    Post (launch fail s) (fun _ s' => ∃ n, Grows s s' {(.event, n)}) (fun s' => ∃ l, Grows s s' l ∧ (l = 0 ∨ ∃ n, l = {(.event, n)})) := by
  refine (check_post fail s).bind (fun s' h => ⟨0, h, Or.inl rfl⟩) fun _ s1 h1 => ?_
  refine (create_post fail .event s1).bind (fun s' h => ⟨0, ?_, Or.inl rfl⟩) fun n s2 h2 => ?_
  · exact h1.trans h
  have g2 := h1.trans h2
  rw [add_zero] at g2
  refine (check_post fail s2).mono (fun _ s' h => ⟨n, ?_⟩) (fun s' h => ⟨_, ?_, Or.inr ⟨n, rfl⟩⟩)
  · have := g2.trans h
    rwa [zero_add] at this
  · have := g2.trans h
    rwa [zero_add] at this

theorem synchronize_post (fail : Nat → Bool) (l : List Nat) :
    ∀ s, Post (synchronize fail l s) (fun _ s' => Grows s s' 0) (fun s' => Grows s s' 0) := by
  induction l with
  | nil => intro s; exact Grows.refl s
  | cons q l ih =>
    intro s
    exact (check_post fail s).bind (fun _ h => h) fun _ s1 h1 => (ih s1).mono (fun _ _ h => h1.trans h) (fun _ h => h1.trans h)

/-- The account after handles have been added for which there is no object yet. -/
theorem Account.grow {s s' : State} {lost add : Multiset Handle} (a : Account s lost) (g : Grows s s' add) :
    Account s' (add + lost) := by
  refine ⟨?_, ?_, ?_⟩
  · rw [g.live, a.live, ownedHandles, ownedHandles, g.devs, g.progs, g.kernels, add_left_comm]
  · rw [g.live]
    refine Multiset.nodup_add.2 ⟨g.nodup, a.nodup, Multiset.disjoint_left.2 fun {h} hb ha => ?_⟩
    have := (g.fresh h hb).1
    have := a.old h ha
    omega
  · intro h hh
    rw [g.live] at hh
    rcases Multiset.mem_add.1 hh with hh | hh
    · exact (g.fresh h hh).2
    · exact lt_of_lt_of_le (a.old h hh) g.next

/-- Objects are exchanged: the driver does not notice. -/
theorem Account.objects {s s' : State} {lost lost' : Multiset Handle} (a : Account s lost) (hl : s'.live = s.live) (hn : s'.next = s.next)
    (ho : ((ownedHandles s : List Handle) : Multiset Handle) + lost = (ownedHandles s' : List Handle) + lost') : Account s' lost' :=
  ⟨by rw [hl, a.live, ho], by rw [hl]; exact a.nodup, fun h hh => by rw [hn]; exact a.old h (hl ▸ hh)⟩

/-- What the driver has given, all in all. -/
structure Holds (s : State) (H : Multiset Handle) : Prop where
  live : s.live = H
  nodup : s.live.Nodup
  old : ∀ h ∈ s.live, h.2 < s.next

/-- The objects stay. -/
structure Same (s s' : State) : Prop where
  devs : s'.devs = s.devs
  progs : s'.progs = s.progs
  kernels : s'.kernels = s.kernels

theorem Same.trans {s s1 s2 : State} (h1 : Same s s1) (h2 : Same s1 s2) : Same s s2 :=
  ⟨h2.devs.trans h1.devs, h2.progs.trans h1.progs, h2.kernels.trans h1.kernels⟩

theorem Account.holds {s : State} {lost H : Multiset Handle} (a : Account s lost)
    (h : ((ownedHandles s : List Handle) : Multiset Handle) + lost = H) : Holds s H := ⟨a.live.trans h, a.nodup, a.old⟩

theorem Holds.account {s s' : State} {lost H : Multiset Handle} (a : Holds s H) (hl : s'.live = s.live) (hn : s'.next = s.next)
    (h : H = ((ownedHandles s' : List Handle) : Multiset Handle) + lost) : Account s' lost :=
  ⟨by rw [hl, a.live, h], by rw [hl]; exact a.nodup, fun x hx => by rw [hn]; exact a.old x (hl ▸ hx)⟩

theorem release_post {s : State} {H : Multiset Handle} {h : Handle} (a : Holds s (h ::ₘ H)) :
    Post (ClHandles.release h s) (fun _ s' => Holds s' H ∧ Same s s') (fun _ => False) := by
  have hm : h ∈ s.live := by
    rw [a.live]
    exact Multiset.mem_cons_self _ _
  rw [ClHandles.release, if_pos hm]
  refine ⟨⟨?_, a.nodup.erase _, fun x hx => a.old x (Multiset.mem_of_mem_erase hx)⟩, rfl, rfl, rfl⟩
  show s.live.erase h = _
  rw [a.live, Multiset.erase_cons_head]

theorem deleteQueues_post (l : List Nat) :
    ∀ {s : State} {H : Multiset Handle}, Holds s ((l.map fun q => ((.queue, q) : Handle) : List Handle) + H) →
    Post (deleteQueues l s) (fun _ s' => Holds s' H ∧ Same s s') (fun _ => False) := by
  induction l with
  | nil =>
    intro s H a
    simp only [List.map_nil, Multiset.coe_nil, zero_add] at a
    exact ⟨a, rfl, rfl, rfl⟩
  | cons q l ih =>
    intro s H a
    rw [List.map_cons, ← Multiset.cons_coe, Multiset.cons_add] at a
    exact (release_post a).bind (fun _ h => h.elim) fun _ s1 ⟨a1, e1⟩ =>
      (ih a1).mono (fun _ s2 h => ⟨h.1, e1.trans h.2⟩) (fun _ h => h.elim)

theorem deleteDevice_post {s : State} {H : Multiset Handle} {d : Dev} (a : Holds s ((deviceHandles d : List Handle) + H)) :
    Post (deleteDevice d s) (fun _ s' => Holds s' H ∧ Same s s') (fun _ => False) := by
  have e : ((deviceHandles d : List Handle) : Multiset Handle) + H
      = (.allocator, d.alloc) ::ₘ (((d.queues.map fun q => ((.queue, q) : Handle) : List Handle) : Multiset Handle)
        + ((.context, d.ctx) ::ₘ H)) := by
    rw [deviceHandles, ← Multiset.cons_coe, ← Multiset.cons_coe, Multiset.cons_add, Multiset.cons_add, Multiset.cons_swap,
      Multiset.add_cons]
  rw [e] at a
  refine (release_post a).bind (fun _ h => h.elim) fun _ s1 ⟨a1, e1⟩ => ?_
  refine (deleteQueues_post _ a1).bind (fun _ h => h.elim) fun _ s2 ⟨a2, e2⟩ => ?_
  exact (release_post a2).mono (fun _ s3 h => ⟨h.1, e1.trans (e2.trans h.2)⟩) (fun _ h => h.elim)

theorem flatMap_eraseIdx {α β : Type} (f : α → List β) (l : List α) : ∀ {i : Nat} {x : α}, l[i]? = some x →
    ((l.flatMap f : List β) : Multiset β) = (f x : Multiset β) + ((l.eraseIdx i).flatMap f : List β) := by
  induction l with
  | nil => intro i x h; simp at h
  | cons y l ih =>
    intro i x h
    cases i with
    | zero =>
      simp only [List.getElem?_cons_zero, Option.some.injEq] at h
      subst h
      simp only [List.flatMap_cons, List.eraseIdx_zero, List.tail_cons, Multiset.coe_add]
    | succ i =>
      simp only [List.getElem?_cons_succ] at h
      simp only [List.flatMap_cons, List.eraseIdx_cons_succ, ← Multiset.coe_add]
      rw [ih h, add_left_comm]

theorem flatMap_set {α β : Type} (f : α → List β) (l : List α) : ∀ {i : Nat} {x : α} (y : α), l[i]? = some x →
    (((l.set i y).flatMap f : List β) : Multiset β) = (f y : Multiset β) + ((l.eraseIdx i).flatMap f : List β) := by
  induction l with
  | nil => intro i x y h; simp at h
  | cons z l ih =>
    intro i x y h
    cases i with
    | zero => simp only [List.set_cons_zero, List.flatMap_cons, List.eraseIdx_zero, List.tail_cons, Multiset.coe_add]
    | succ i =>
      simp only [List.getElem?_cons_succ] at h
      simp only [List.set_cons_succ, List.flatMap_cons, List.eraseIdx_cons_succ, ← Multiset.coe_add]
      rw [ih y h, add_left_comm]

theorem owned_eq (s : State) : ((ownedHandles s : List Handle) : Multiset Handle)
    = ((s.devs.flatMap deviceHandles : List Handle) : Multiset Handle) + ((s.progs.flatMap programHandles : List Handle) : Multiset Handle)
      + ((s.kernels.map fun k => ((.kernel, k) : Handle) : List Handle) : Multiset Handle) := by
  rw [ownedHandles, ← Multiset.coe_add, ← Multiset.coe_add]

theorem pushQueues_post (fail : Nat → Bool) (i : Nat) (n : Nat) : ∀ {s : State} {d : Dev} {lost : Multiset Handle}, s.devs[i]? = some d →
    Account s lost → Post (pushQueues fail i n d s) (fun _ s' => Account s' lost) (fun s' => Account s' lost) := by
  induction n with
  | zero => intro s d lost _ a; exact a
  | succ n ih =>
    intro s d lost hd a
    refine (create_post fail .queue s).bind (fun s' h => ?_) fun q s1 h1 => ?_
    · have := a.grow h
      rwa [zero_add] at this
    have a1 := a.grow h1
    have hd1 : s1.devs[i]? = some d := by rw [h1.devs]; exact hd
    have hi : i < s1.devs.length := (List.getElem?_eq_some_iff.1 hd1).1
    refine ih (s := { s1 with devs := s1.devs.set i { d with queues := d.queues ++ [q] } }) (List.getElem?_set_self hi) ?_
    refine a1.objects rfl rfl ?_
    rw [owned_eq, owned_eq, flatMap_eraseIdx _ _ hd1]
    show _ = (((s1.devs.set i { d with queues := d.queues ++ [q] }).flatMap deviceHandles : List Handle) : Multiset Handle) + _ + _ + _
    rw [flatMap_set _ _ _ hd1]
    have e : ((deviceHandles { d with queues := d.queues ++ [q] } : List Handle) : Multiset Handle)
        = (deviceHandles d : List Handle) + {(.queue, q)} := by
      simp only [deviceHandles, List.map_append, List.map_cons, List.map_nil]
      rw [← Multiset.coe_singleton, Multiset.coe_add]
      rfl
    rw [e]
    abel

theorem setQueueCount_post (fail : Nat → Bool) {i n : Nat} {s : State} {d : Dev} {lost : Multiset Handle} (hd : s.devs[i]? = some d)
    (a : Account s lost) : Post (setQueueCount fail i d n s) (fun _ s' => Account s' lost) (fun s' => Account s' lost) := by
  rw [setQueueCount]
  generalize (if n > 255 then 255 else n) = n
  split
  · exact pushQueues_post fail i _ hd a
  · -- the queues behind are no longer of the device
    have hi : i < s.devs.length := (List.getElem?_eq_some_iff.1 hd).1
    have e : ((deviceHandles d : List Handle) : Multiset Handle)
        = (deviceHandles { d with queues := d.queues.take n } : List Handle)
          + ((d.queues.drop n).map fun q => ((.queue, q) : Handle) : List Handle) := by
      rw [Multiset.coe_add]
      simp only [deviceHandles, List.cons_append, ← List.map_append, List.take_append_drop]
    have a1 : Holds s (((d.queues.drop n).map fun q => ((.queue, q) : Handle) : List Handle)
        + ((ownedHandles { s with devs := s.devs.set i { d with queues := d.queues.take n } } : List Handle) + lost)) := by
      refine a.holds ?_
      rw [owned_eq, owned_eq, flatMap_eraseIdx _ _ hd]
      show _ = _ + ((((s.devs.set i { d with queues := d.queues.take n }).flatMap deviceHandles : List Handle) : Multiset Handle) + _ + _ + _)
      rw [flatMap_set _ _ _ hd, e]
      abel
    refine (deleteQueues_post _ a1).bind (fun _ h => h.elim) fun _ s1 ⟨a2, e2⟩ => ?_
    refine Holds.account (s' := { s1 with devs := s1.devs.set i { d with queues := d.queues.take n } }) a2 rfl rfl ?_
    simp only [ownedHandles, e2.devs, e2.progs, e2.kernels]

/-- One step of the user. -/
theorem step_post (fail : Nat → Bool) (o : Op) {s : State} {lost : Multiset Handle} (a : Account s lost) :
    Post (step fail o s)
      (fun _ s' => ∃ l, Account s' (l + lost) ∧ (l = 0 ∨ ∃ i k n, o = .launch i k ∧ l = {(.event, n)}))
      (fun s' => ∃ l, Account s' (l + lost) ∧ (l = 0 ∨ ∃ k n, Loses o k ∧ l = {(k, n)})) := by
  have none_lost : ∀ {s' : State}, Account s' lost → ∃ l, Account s' (l + lost) ∧ (l = 0 ∨ ∃ i k n, o = .launch i k ∧ l = {(.event, n)}) :=
    fun h => ⟨0, by rwa [zero_add], Or.inl rfl⟩
  have none_lost' : ∀ {s' : State}, Account s' lost → ∃ l, Account s' (l + lost) ∧ (l = 0 ∨ ∃ k n, Loses o k ∧ l = {(k, n)}) :=
    fun h => ⟨0, by rwa [zero_add], Or.inl rfl⟩
  cases o with
  | newDevice =>
    refine (newDevice_post fail s).bind (fun s' ⟨l, g, hl⟩ => ⟨l, a.grow g, ?_⟩) fun d s1 h1 => none_lost ?_
    · rcases hl with hl | ⟨n, hl⟩
      · exact Or.inl hl
      · exact Or.inr ⟨_, n, rfl, hl⟩
    · refine (a.grow h1).objects rfl rfl ?_
      rw [owned_eq, owned_eq]
      show _ = (((s1.devs ++ [d]).flatMap deviceHandles : List Handle) : Multiset Handle) + _ + _ + _
      rw [List.flatMap_append, ← Multiset.coe_add, List.flatMap_singleton]
      abel
  | closeDevice i =>
    rw [step]
    dsimp only
    cases hd : s.devs[i]? with
    | none => exact none_lost a
    | some d =>
      have hi : i < s.devs.length := (List.getElem?_eq_some_iff.1 hd).1
      have a1 : Holds s ((deviceHandles d : List Handle) + ((ownedHandles { s with devs := s.devs.eraseIdx i } : List Handle) + lost)) := by
        refine a.holds ?_
        rw [owned_eq, owned_eq, flatMap_eraseIdx _ _ hd]
        dsimp only
        abel
      refine (deleteDevice_post a1).bind (fun _ h => h.elim) fun _ s1 ⟨a2, e2⟩ => none_lost ?_
      refine Holds.account (s' := { s1 with devs := s1.devs.eraseIdx i }) a2 rfl rfl ?_
      simp only [ownedHandles, e2.devs, e2.progs, e2.kernels]
  | setQueueCount i n =>
    rw [step]
    dsimp only
    cases hd : s.devs[i]? with
    | none => exact none_lost a
    | some d => exact (setQueueCount_post fail hd a).mono (fun _ _ h => none_lost h) (fun _ h => none_lost' h)
  | synchronize i =>
    rw [step]
    dsimp only
    cases hd : s.devs[i]? with
    | none => exact none_lost a
    | some d =>
      refine (synchronize_post fail _ s).mono (fun _ s' h => ⟨0, a.grow h, Or.inl rfl⟩) (fun s' h => ⟨0, a.grow h, Or.inl rfl⟩)
  | newProgram i =>
    rw [step]
    dsimp only
    cases hd : s.devs[i]? with
    | none => exact none_lost a
    | some d =>
      refine (newProgram_post fail s).bind (fun s' ⟨l, g, hl⟩ => ⟨l, a.grow g, ?_⟩) fun p s1 h1 => none_lost ?_
      · rcases hl with hl | ⟨n, hl⟩
        · exact Or.inl hl
        · exact Or.inr ⟨_, n, rfl, hl⟩
      · refine (a.grow h1).objects rfl rfl ?_
        rw [owned_eq, owned_eq]
        dsimp only
        rw [List.flatMap_append, ← Multiset.coe_add, List.flatMap_singleton]
        show _ = _ + (_ + ({(.program, p)} : Multiset Handle)) + _ + _
        abel
  | moveProgram i =>
    rw [step]
    dsimp only
    cases hp : s.progs[i]? with
    | none => exact none_lost a
    | some p =>
      refine none_lost (a.objects rfl rfl ?_)
      rw [owned_eq, owned_eq]
      dsimp only
      rw [List.flatMap_append, ← Multiset.coe_add, List.flatMap_singleton, flatMap_set _ _ _ hp, flatMap_eraseIdx _ _ hp]
      show _ = _ + (((([] : List Handle) : Multiset Handle)) + _ + _) + _ + _
      rw [Multiset.coe_nil]
      abel
  | dropProgram i =>
    rw [step]
    dsimp only
    cases hp : s.progs[i]? with
    | none => exact none_lost a
    | some p =>
      cases p with
      | none =>
        refine none_lost (a.objects rfl rfl ?_)
        rw [owned_eq, owned_eq, flatMap_eraseIdx _ _ hp]
        dsimp only
        rw [show ((programHandles none : List Handle) : Multiset Handle) = 0 from rfl]
        abel
      | some p =>
        have a1 : Holds s ((.program, p) ::ₘ ((ownedHandles { s with progs := s.progs.eraseIdx i } : List Handle) + lost)) := by
          refine a.holds ?_
          rw [owned_eq, owned_eq, flatMap_eraseIdx _ _ hp]
          dsimp only
          rw [show ((programHandles (some p) : List Handle) : Multiset Handle) = {(.program, p)} from rfl, ← Multiset.singleton_add]
          abel
        refine (release_post a1).bind (fun _ h => h.elim) fun _ s1 ⟨a2, e2⟩ => none_lost ?_
        refine Holds.account (s' := { s1 with progs := s1.progs.eraseIdx i }) a2 rfl rfl ?_
        simp only [ownedHandles, e2.devs, e2.progs, e2.kernels]
  | newKernel i =>
    rw [step]
    dsimp only
    cases hp : s.progs[i]? with
    | none => exact none_lost a
    | some p =>
      cases p with
      | none => exact none_lost' a
      | some p =>
        refine (create_post fail .kernel s).bind (fun s' g => ⟨0, a.grow g, Or.inl rfl⟩) fun k s1 h1 => none_lost ?_
        refine (a.grow h1).objects rfl rfl ?_
        rw [owned_eq, owned_eq]
        dsimp only
        rw [List.map_append, ← Multiset.coe_add]
        show _ = _ + (_ + ({(.kernel, k)} : Multiset Handle)) + _
        abel
  | dropKernel i =>
    rw [step]
    dsimp only
    cases hk : s.kernels[i]? with
    | none => exact none_lost a
    | some k =>
      have e : ∀ l : List Nat, (l.map fun k => ((.kernel, k) : Handle)) = l.flatMap fun k => [((.kernel, k) : Handle)] := by
        intro l
        induction l with
        | nil => rfl
        | cons x l ih => rw [List.map_cons, List.flatMap_cons, ih]; rfl
      have a1 : Holds s ((.kernel, k) ::ₘ ((ownedHandles { s with kernels := s.kernels.eraseIdx i } : List Handle) + lost)) := by
        refine a.holds ?_
        rw [owned_eq, owned_eq, e, e, flatMap_eraseIdx _ _ hk, ← Multiset.singleton_add, Multiset.coe_singleton]
        dsimp only
        abel
      refine (release_post a1).bind (fun _ h => h.elim) fun _ s1 ⟨a2, e2⟩ => none_lost ?_
      refine Holds.account (s' := { s1 with kernels := s1.kernels.eraseIdx i }) a2 rfl rfl ?_
      simp only [ownedHandles, e2.devs, e2.progs, e2.kernels]
  | launch i k =>
    rw [step]
    dsimp only
    cases hd : s.devs[i]? with
    | none => exact none_lost a
    | some d =>
      cases hk : s.kernels[k]? with
      | none => exact none_lost a
      | some kk =>
        refine (launch_post fail s).mono (fun _ s' ⟨n, g⟩ => ⟨_, a.grow g, Or.inr ⟨i, k, n, rfl, rfl⟩⟩) (fun s' ⟨l, g, hl⟩ => ⟨l, a.grow g, ?_⟩)
        rcases hl with hl | ⟨n, hl⟩
        · exact Or.inl hl
        · exact Or.inr ⟨_, n, rfl, hl⟩

/-- A history of the user, from any state: what is lost stays lost. -/
theorem run_account (fail : Nat → Bool) : ∀ (ops : List Op) (s : State) (lost : Multiset Handle), Account s lost →
    ∃ s' l, run fail ops s = some s' ∧ Account s' (l + lost) ∧ (∀ h ∈ l, ∃ o ∈ ops, Loses o h.1) ∧ l.card ≤ (ops.filter isRisky).length := by
  intro ops
  induction ops with
  | nil => intro s lost a; exact ⟨s, 0, rfl, by rwa [zero_add], by simp, by simp⟩
  | cons o ops ih =>
    intro s lost a
    have hs := step_post fail o a
    have go : ∀ s1 l1, (∀ h ∈ l1, Loses o h.1) → l1.card ≤ ([o].filter isRisky).length → Account s1 (l1 + lost) →
        ∃ s' l, run fail ops s1 = some s' ∧ Account s' (l + lost) ∧ (∀ h ∈ l, ∃ p ∈ o :: ops, Loses p h.1) ∧
          l.card ≤ ((o :: ops).filter isRisky).length := by
      intro s1 l1 hl hc a1
      obtain ⟨s', l, h1, h2, h3, h4⟩ := ih s1 (l1 + lost) a1
      refine ⟨s', l + l1, h1, by rwa [add_assoc], fun h hh => ?_, ?_⟩
      · rcases Multiset.mem_add.1 hh with hh | hh
        · obtain ⟨p, hp, hq⟩ := h3 h hh
          exact ⟨p, List.mem_cons_of_mem _ hp, hq⟩
        · exact ⟨o, List.mem_cons_self .., hl h hh⟩
      · rw [Multiset.card_add, show o :: ops = [o] ++ ops from rfl, List.filter_append, List.length_append]
        omega
    rw [run]
    cases hr : step fail o s with
    | ok u s1 =>
      rw [hr] at hs
      obtain ⟨l1, a1, hl⟩ := hs
      refine go s1 l1 ?_ ?_ a1
      · rcases hl with rfl | ⟨i, k, n, rfl, rfl⟩
        · simp
        · intro h hh
          rw [Multiset.mem_singleton.1 hh]
          rfl
      · rcases hl with rfl | ⟨i, k, n, rfl, rfl⟩
        · simp
        · exact le_rfl
    | throw s1 =>
      rw [hr] at hs
      obtain ⟨l1, a1, hl⟩ := hs
      refine go s1 l1 ?_ ?_ a1
      · rcases hl with rfl | ⟨k, n, hk, rfl⟩
        · simp
        · intro h hh
          rw [Multiset.mem_singleton.1 hh]
          exact hk
      · rcases hl with rfl | ⟨k, n, hk, rfl⟩
        · simp
        · cases o <;> first | exact le_rfl | exact hk.elim
    | ub =>
      rw [hr] at hs
      exact hs.elim

theorem start_account : Account start 0 := ⟨rfl, by simp [start], by simp [start]⟩

theorem owned_kind {s : State} {h : Handle} (hh : h ∈ ownedHandles s) : h.1 ≠ .event := by
  simp only [ownedHandles, List.mem_append, List.mem_flatMap, List.mem_map] at hh
  rcases hh with (⟨d, _, hd⟩ | ⟨p, _, hp⟩) | ⟨k, _, rfl⟩
  · simp only [deviceHandles, List.mem_cons, List.mem_map] at hd
    rcases hd with rfl | rfl | ⟨q, _, rfl⟩ <;> exact fun h => by cases h
  · cases p with
    | none => cases hp
    | some p =>
      rw [programHandles, List.mem_singleton] at hp
      subst hp
      exact fun h => by cases h
  · exact fun h => by cases h

/-! ### The property -/

/-- **C175.** For all histories and whatever calls of the driver fail: no handle is released twice or after it was released (nothing is
    undefined), all handles of existing objects are held, and the other handles held are events of launches, allocators of devices which
    could not be made and programs which could not be built, at most one for each such step. -/
theorem C175_handles (fail : Nat → Bool) (ops : List Op) :
    ∃ s lost, run fail ops start = some s ∧ Account s lost ∧ (∀ h ∈ lost, ∃ o ∈ ops, Loses o h.1) ∧
      lost.card ≤ (ops.filter isRisky).length := by
  obtain ⟨s', l, h1, h2, h3, h4⟩ := run_account fail ops start 0 start_account
  rw [add_zero] at h2
  exact ⟨s', l, h1, h2, h3, h4⟩

/-- **C175.** Contexts, queues and kernels are never lost, whatever fails: those held are those of the objects which exist. -/
theorem C175_never_lost (fail : Nat → Bool) (ops : List Op) {s : State} (h : run fail ops start = some s) (x : Handle)
    (hx : x.1 = .context ∨ x.1 = .queue ∨ x.1 = .kernel) : x ∈ s.live ↔ x ∈ ownedHandles s := by
  obtain ⟨s', lost, h1, a, h3, _⟩ := C175_handles fail ops
  rw [h] at h1
  injection h1 with h1
  subst h1
  rw [a.live, Multiset.mem_add, Multiset.mem_coe]
  refine ⟨fun hm => hm.resolve_right fun hl => ?_, Or.inl⟩
  obtain ⟨o, _, ho⟩ := h3 x hl
  cases o <;> simp only [Loses] at ho <;> rcases hx with e | e | e <;> rw [e] at ho <;> cases ho

/-- **C175.** Everything is given back.  Partial: no launches, and the driver makes all devices and programs (nothing else is lost by
    `C175_handles`; what is lost otherwise: `C175_events_kept`, `C175_device_wrong`, `C175_program_wrong`). -/
theorem C175_released_partial {fail : Nat → Bool} (hf : ∀ n, fail n = false) {ops : List Op} (hl : ∀ i k, .launch i k ∉ ops) {s : State}
    (h : run fail ops start = some s) (hd : s.devs = []) (hp : s.progs = []) (hk : s.kernels = []) : s.live = 0 := by
  have key : ∀ (ops : List Op) (s s' : State), (∀ i k, .launch i k ∉ ops) → Account s 0 → run fail ops s = some s' → Account s' 0 := by
    intro ops
    induction ops with
    | nil =>
      intro s s' _ a h
      injection h with h
      exact h ▸ a
    | cons o ops ih =>
      intro s s' hl a h
      have hs := step_post fail o a
      rw [run] at h
      cases hr : step fail o s with
      | ok u s1 =>
        rw [hr] at hs h
        obtain ⟨l1, a1, e⟩ := hs
        rcases e with rfl | ⟨i, k, n, rfl, _⟩
        · exact ih s1 s' (fun i k hm => hl i k (List.mem_cons_of_mem _ hm)) (by rwa [add_zero] at a1) h
        · exact (hl i k (List.mem_cons_self ..)).elim
      | throw s1 =>
        rw [hr] at hs h
        obtain ⟨l1, a1, e⟩ := hs
        rcases e with rfl | ⟨k, n, hk, rfl⟩
        · exact ih s1 s' (fun i k hm => hl i k (List.mem_cons_of_mem _ hm)) (by rwa [add_zero] at a1) h
        · exfalso
          have hf' : fail = fun _ => false := funext hf
          subst hf'
          cases o with
          | newDevice => cases hr
          | newProgram i =>
            cases hdv : s.devs[i]? with
            | none =>
              simp only [step, hdv] at hr
              cases hr
            | some d =>
              simp only [step, hdv] at hr
              cases hr
          | launch i k => exact hl i k (List.mem_cons_self ..)
          | closeDevice | setQueueCount | synchronize | moveProgram | dropProgram | newKernel | dropKernel => exact hk
      | ub =>
        rw [hr] at hs
        exact hs.elim
  have a := key ops start s hl start_account h
  rw [a.live, ownedHandles, hd, hp, hk]
  rfl

/-- Whether the step is a launch, of a kernel which exists on a device which exists. -/
def launches (s : State) : Op → Nat
  | .launch i k => if i < s.devs.length ∧ k < s.kernels.length then 1 else 0
  | _ => 0

/-- The number of launches of a history which return normally. -/
def launchesDone (fail : Nat → Bool) : List Op → State → Nat
  | [], _ => 0
  | o :: l, s =>
    match step fail o s with
    | .ok _ s1 =>
      launches s o + launchesDone fail l s1
    | .throw s1 => launchesDone fail l s1
    | .ub => 0

/-- **C175.** Every launch which returns normally leaves an event in the driver for ever: after any history there are at least as many
    as launches. -/
theorem C175_events_kept (fail : Nat → Bool) (ops : List Op) {s : State} (h : run fail ops start = some s) :
    launchesDone fail ops start ≤ (s.live.filter fun x => x.1 = .event).card := by
  have key : ∀ (ops : List Op) (s s' : State) (lost : Multiset Handle), Account s lost → run fail ops s = some s' →
      (lost.filter fun x => x.1 = .event).card + launchesDone fail ops s ≤ (s'.live.filter fun x => x.1 = .event).card := by
    intro ops
    induction ops with
    | nil =>
      intro s s' lost a h
      injection h with h
      subst h
      rw [a.live, Multiset.filter_add, Multiset.card_add]
      simp only [launchesDone]
      omega
    | cons o ops ih =>
      intro s s' lost a h
      have hs := step_post fail o a
      rw [run] at h
      cases hr : step fail o s with
      | ok u s1 =>
        rw [hr] at hs h
        obtain ⟨l1, a1, e⟩ := hs
        have i1 := ih s1 s' _ a1 h
        rw [Multiset.filter_add, Multiset.card_add] at i1
        rw [launchesDone, hr]
        dsimp only
        cases o with
        | launch i k =>
          rw [launches]
          split
          · rename_i hlen
            -- the launch took place
            have a2 : ∃ n, l1 = {((.event, n) : Handle)} := by
              rcases e with rfl | ⟨_, _, n, _, rfl⟩
              · exfalso
                rw [step] at hr
                dsimp only at hr
                rw [List.getElem?_eq_getElem hlen.1, List.getElem?_eq_getElem hlen.2] at hr
                have hp := launch_post fail s
                dsimp only at hr
                rw [hr] at hp
                obtain ⟨n, g⟩ := hp
                have e1 := g.live
                have e2 := a1.live
                rw [zero_add, ownedHandles, g.devs, g.progs, g.kernels, ← ownedHandles, ← a.live] at e2
                rw [e2, Multiset.singleton_add] at e1
                have e3 := congrArg Multiset.card e1
                rw [Multiset.card_cons] at e3
                omega
              · exact ⟨n, rfl⟩
            obtain ⟨n, rfl⟩ := a2
            rw [Multiset.filter_singleton, if_pos rfl, Multiset.card_singleton] at i1
            omega
          · omega
        | newDevice | newProgram | closeDevice | setQueueCount | synchronize | moveProgram | dropProgram | newKernel | dropKernel =>
          simp only [launches]
          omega
      | throw s1 =>
        rw [hr] at hs h
        obtain ⟨l1, a1, _⟩ := hs
        have i1 := ih s1 s' _ a1 h
        rw [Multiset.filter_add, Multiset.card_add] at i1
        rw [launchesDone, hr]
        dsimp only
        omega
      | ub =>
        rw [hr] at hs
        exact hs.elim
  have := key ops start s 0 start_account h
  simpa using this

/-- A device, a program, a kernel, a launch, and everything is destroyed. -/
def oneLaunch : List Op := [.newDevice, .newProgram 0, .newKernel 0, .launch 0 0, .dropKernel 0, .dropProgram 0, .closeDevice 0]

/-- **C175.** One launch, everything destroyed: the event is still held. -/
theorem C175_event_wrong : (run (fun _ => false) oneLaunch start).map (fun s => (s.live, s.devs, s.progs, s.kernels))
    = some ({(.event, 5)}, [], [], []) := by
  decide +kernel

/-- **C175.** The first queue of a device cannot be made: the allocator is lost. -/
theorem C175_device_wrong : (run (fun n => n == 3) [.newDevice] start).map (fun s => (s.live, s.devs, s.progs, s.kernels))
    = some ({(.allocator, 1)}, [], [], []) := by
  decide +kernel

/-- **C175.** A program cannot be built and the devices of its context cannot be asked for: the program is lost. -/
theorem C175_program_wrong : (run (fun n => n == 5 || n == 6) [.newDevice, .newProgram 0, .closeDevice 0] start).map
    (fun s => (s.live, s.devs, s.progs, s.kernels)) = some ({(.program, 3)}, [], [], []) := by
  decide +kernel

/-- Two devices with queues, a moved program and a kernel, closed in another order. -/
def manyObjects : List Op := [.newDevice, .newDevice, .setQueueCount 1 4, .newProgram 1, .moveProgram 0, .newKernel 1, .setQueueCount 1 2,
  .synchronize 1, .closeDevice 1, .dropProgram 0, .dropKernel 0, .dropProgram 0, .closeDevice 0]

example : (run (fun _ => false) manyObjects start).map (fun s => s.live) = some 0 := by
  have e : (run (fun _ => false) manyObjects start).map (fun s => (s.devs, s.progs, s.kernels)) = some ([], [], []) := by decide +kernel
  cases h : run (fun _ => false) manyObjects start with
  | none => rw [h] at e; cases e
  | some s =>
    rw [h] at e
    simp only [Option.map_some, Option.some.injEq, Prod.mk.injEq] at e
    rw [Option.map_some, C175_released_partial (fun _ => rfl) (by simp [manyObjects]) h e.1 e.2.1 e.2.2]

example : launchesDone (fun _ => false) (oneLaunch ++ oneLaunch) start = 2 := by decide +kernel

end PV.Props
