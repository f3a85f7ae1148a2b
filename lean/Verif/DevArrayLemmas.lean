import Verif.DevArray
/-
  Lemmas about the arrays of DevArray.lean.
-/
namespace PV.DevArray
open PV

variable {α : Type}

theorem upd_same {β : Type} (f : Nat → β) (i : Nat) (x : β) : upd f i x i = x := if_pos rfl

theorem upd_other {β : Type} (f : Nat → β) {i j : Nat} (x : β) (h : j ≠ i) : upd f i x j = f j := if_neg h

theorem upd_self {β : Type} (f : Nat → β) {i : Nat} {x : β} (h : f i = x) : upd f i x = f := by
  funext j
  by_cases hj : j = i
  · rw [hj, upd_same, h]
  · rw [upd_other _ _ hj]

theorem upd_upd {β : Type} (f : Nat → β) (i : Nat) (x y : β) : upd (upd f i x) i y = upd f i y := by
  funext j
  by_cases hj : j = i
  · rw [hj, upd_same, upd_same]
  · rw [upd_other _ _ hj, upd_other _ _ hj, upd_other _ _ hj]

/-- Every object has a block of its own of the right length, or none; addresses not given out yet have no blocks. -/
structure Inv (w : World α) : Prop where
  own : ∀ i o, w.objs i = some o → o.data ≠ 0 → o.size ≠ 0 ∧ ∃ l, w.heap o.data = some l ∧ l.length = o.size
  dist : ∀ i j o p, w.objs i = some o → w.objs j = some p → o.data = p.data → o.data ≠ 0 → i = j
  fresh : ∀ b, w.heap b ≠ none → 0 < b ∧ b < w.next
  next : 0 < w.next

/-- An object without a block has size 0, and every block belongs to an object. -/
structure Tight (w : World α) : Prop where
  size : ∀ i o, w.objs i = some o → o.data = 0 → o.size = 0
  used : ∀ b, w.heap b ≠ none → ∃ i o, w.objs i = some o ∧ o.data = b

/-- What an array contains; the default value for sizes without a block. -/
def view [Inhabited α] (w : World α) (i : Nat) : Option (List α) :=
  (w.objs i).map fun o => if o.data = 0 then List.replicate o.size default else (w.heap o.data).getD []

theorem obj_ok {w : World α} {i : Nat} {o : Obj} (h : w.objs i = some o) : obj i w = .ok o w := by
  rw [obj, h]

theorem block_ok {w : World α} {b : Nat} {l : List α} (h : w.heap b = some l) : block b w = .ok l w := by
  rw [block, h]

/-- After `_free` -/
def freed (w : World α) (i : Nat) (o : Obj) : World α :=
  ⟨upd w.objs i (some ⟨0, o.size⟩), if o.data = 0 then w.heap else upd w.heap o.data none, w.next⟩

/-- After `_allocate` with another size, not 0 -/
def allocd (e : Env α) (w : World α) (i : Nat) (o : Obj) (n : Nat) : World α :=
  ⟨upd w.objs i (some ⟨w.next, n⟩), upd (freed w i o).heap w.next (some ((List.range n).map e.junk)), w.next + 1⟩

/-- After `_allocate` with 0 -/
def emptied (w : World α) (i : Nat) (o : Obj) : World α :=
  ⟨upd w.objs i (some ⟨0, 0⟩), (freed w i o).heap, w.next⟩

theorem freeO_ok {w : World α} (h : Inv w) {i : Nat} {o : Obj} (ho : w.objs i = some o) : freeO i w = .ok () (freed w i o) := by
  rw [freeO, bind_ok (obj_ok ho)]
  by_cases hd : o.data = 0
  · rw [if_neg (by simpa using hd), freed, if_pos hd, upd_self w.objs (by rw [ho, ← hd])]
    rfl
  · obtain ⟨_, l, hl, _⟩ := h.own i o ho hd
    rw [if_pos hd]
    have : freeBlock o.data w = .ok () { w with heap := upd w.heap o.data none } := by rw [freeBlock, hl]
    rw [bind_ok this, freed, if_neg hd]
    rfl

theorem allocateO_ok {w : World α} (h : Inv w) (e : Env α) {i : Nat} {o : Obj} (ho : w.objs i = some o) (n : Nat) :
    allocateO e i n w =
      if o.size = n then .ok () w
      else if n = 0 then .ok () (emptied w i o)
      else if e.room then .ok () (allocd e w i o n)
      else .throw (freed w i o) := by
  rw [allocateO, bind_ok (obj_ok ho)]
  by_cases hs : o.size = n
  · rw [if_neg (by simpa using hs), if_pos hs]
    rfl
  have ho1 : (freed w i o).objs i = some ⟨0, o.size⟩ := upd_same _ _ _
  rw [if_pos hs, if_neg hs, bind_ok (freeO_ok h ho)]
  by_cases hn : n = 0
  · subst hn
    rw [if_pos rfl]
    have : newBlock e i 0 (freed w i o) = .ok () (freed w i o) := rfl
    rw [bind_ok this, bind_ok (obj_ok ho1)]
    show Res.ok () _ = _
    simp only [freed, emptied, upd_upd]
  · rw [if_neg hn]
    by_cases hr : e.room = true
    · rw [if_pos hr]
      have : newBlock e i n (freed w i o) = .ok () ⟨upd (freed w i o).objs i (some ⟨w.next, o.size⟩),
          upd (freed w i o).heap w.next (some ((List.range n).map e.junk)), w.next + 1⟩ := by
        rw [newBlock, if_pos hn]
        have ha : allocBlock e n (freed w i o) = .ok w.next ⟨(freed w i o).objs,
            upd (freed w i o).heap w.next (some ((List.range n).map e.junk)), w.next + 1⟩ := if_pos hr
        have ho2 : (⟨(freed w i o).objs, upd (freed w i o).heap w.next (some ((List.range n).map e.junk)), w.next + 1⟩ : World α).objs i = some ⟨0, o.size⟩ := ho1
        rw [bind_ok ha, bind_ok (obj_ok ho2)]
        rfl
      rw [bind_ok this, bind_ok (obj_ok (o := ⟨w.next, o.size⟩) (upd_same _ _ _))]
      show Res.ok () _ = _
      simp only [freed, allocd, upd_upd]
    · rw [if_neg hr]
      have : newBlock e i n (freed w i o) = .throw (freed w i o) := by
        rw [newBlock, if_pos hn]
        exact bind_throw (if_neg hr)
      exact bind_throw this

theorem Inv.freed_heap {w : World α} (h : Inv w) {i j : Nat} {o p : Obj} (ho : w.objs i = some o) (hp : w.objs j = some p) (hij : j ≠ i) (hd : p.data ≠ 0) :
    (freed w i o).heap p.data = w.heap p.data := by
  unfold freed
  dsimp only
  split
  · rfl
  · refine upd_other _ _ fun hc => hij (h.dist j i p o hp ho hc hd)

theorem Inv.freed_sub {w : World α} (i : Nat) {o : Obj} {b : Nat} (hb : (freed w i o).heap b ≠ none) : w.heap b ≠ none ∧ (o.data = 0 ∨ b ≠ o.data) := by
  unfold freed at hb
  dsimp only at hb
  split at hb
  · rename_i h0
    exact ⟨hb, .inl h0⟩
  · by_cases hc : b = o.data
    · rw [hc, upd_same] at hb
      exact absurd rfl hb
    · rw [upd_other _ _ hc] at hb
      exact ⟨hb, .inr hc⟩

/-- Inv for a state in which object i got the block b. -/
theorem Inv.set {w : World α} (h : Inv w) {i : Nat} {o : Obj} (ho : w.objs i = some o) {n : Nat} : Inv (⟨upd w.objs i (some ⟨0, n⟩), (freed w i o).heap, w.next⟩ : World α) := by
  refine ⟨?_, ?_, fun b hb => h.fresh b (Inv.freed_sub i hb).1, h.next⟩
  · intro j p hp hd
    by_cases hj : j = i
    · subst hj
      replace hp := Eq.trans (Eq.symm (upd_same _ _ _)) hp
      injection hp with hp
      rw [← hp] at hd
      exact absurd rfl hd
    · replace hp := Eq.trans (Eq.symm (upd_other _ _ hj)) hp
      obtain ⟨h1, l, h2, h3⟩ := h.own j p hp hd
      exact ⟨h1, l, (h.freed_heap ho hp hj hd).trans h2, h3⟩
  · intro j k p q hp hq he hd
    by_cases hj : j = i
    · subst hj
      replace hp := Eq.trans (Eq.symm (upd_same _ _ _)) hp
      injection hp with hp
      rw [← hp] at hd
      exact absurd rfl hd
    · replace hp := Eq.trans (Eq.symm (upd_other _ _ hj)) hp
      by_cases hk : k = i
      · subst hk
        replace hq := Eq.trans (Eq.symm (upd_same _ _ _)) hq
        injection hq with hq
        rw [← hq] at he
        exact absurd he hd
      · replace hq := Eq.trans (Eq.symm (upd_other _ _ hk)) hq
        exact h.dist j k p q hp hq he hd

theorem Inv.freed {w : World α} (h : Inv w) {i : Nat} {o : Obj} (ho : w.objs i = some o) : Inv (freed w i o) := h.set ho

theorem Inv.emptied {w : World α} (h : Inv w) {i : Nat} {o : Obj} (ho : w.objs i = some o) : Inv (emptied w i o) := h.set ho

theorem Inv.allocd {w : World α} (h : Inv w) (e : Env α) {i : Nat} {o : Obj} (ho : w.objs i = some o) {n : Nat} (hn : n ≠ 0) : Inv (allocd e w i o n) := by
  have hlt : ∀ j p, w.objs j = some p → p.data ≠ 0 → p.data < w.next := fun j p hp hd => by
    obtain ⟨_, l, hl, _⟩ := h.own j p hp hd
    exact (h.fresh p.data (by rw [hl]; simp)).2
  refine ⟨?_, ?_, ?_, Nat.succ_pos _⟩
  · intro j p hp hd
    by_cases hj : j = i
    · subst hj
      rw [show (DevArray.allocd e w j o n).objs j = _ from upd_same _ _ _] at hp
      injection hp with hp
      subst hp
      exact ⟨hn, _, upd_same _ _ _, by simp⟩
    · rw [show (DevArray.allocd e w i o n).objs j = _ from upd_other _ _ hj] at hp
      obtain ⟨h1, l, h2, h3⟩ := h.own j p hp hd
      have := hlt j p hp hd
      exact ⟨h1, l, (upd_other _ _ (by omega)).trans ((h.freed_heap ho hp hj hd).trans h2), h3⟩
  · intro j k p q hp hq he hd
    by_cases hj : j = i
    · by_cases hk : k = i
      · rw [hj, hk]
      · subst hj
        rw [show (DevArray.allocd e w j o n).objs j = _ from upd_same _ _ _] at hp
        rw [show (DevArray.allocd e w j o n).objs k = _ from upd_other _ _ hk] at hq
        injection hp with hp
        subst hp
        dsimp only at he hd
        have := hlt k q hq (by omega)
        omega
    · rw [show (DevArray.allocd e w i o n).objs j = _ from upd_other _ _ hj] at hp
      by_cases hk : k = i
      · subst hk
        rw [show (DevArray.allocd e w k o n).objs k = _ from upd_same _ _ _] at hq
        injection hq with hq
        subst hq
        dsimp only at he
        have := hlt j p hp hd
        omega
      · rw [show (DevArray.allocd e w i o n).objs k = _ from upd_other _ _ hk] at hq
        exact h.dist j k p q hp hq he hd
  · intro b hb
    show 0 < b ∧ b < w.next + 1
    have h0 := h.next
    by_cases hc : b = w.next
    · omega
    · rw [show (DevArray.allocd e w i o n).heap b = _ from upd_other _ _ hc] at hb
      have := h.fresh b (Inv.freed_sub i hb).1
      omega

/-- A block of an object gets new values. -/
theorem Inv.fill {w : World α} (h : Inv w) {i : Nat} {o : Obj} (ho : w.objs i = some o) (hd : o.data ≠ 0) {l : List α} (hl : l.length = o.size) :
    Inv ({ w with heap := upd w.heap o.data (some l) } : World α) := by
  refine ⟨?_, h.dist, ?_, h.next⟩
  · intro j p hp hpd
    obtain ⟨h1, k, h2, h3⟩ := h.own j p hp hpd
    refine ⟨h1, ?_⟩
    by_cases hj : p.data = o.data
    · have hij := h.dist j i p o hp ho hj hpd
      subst hij
      rw [ho] at hp
      injection hp with hp
      subst hp
      exact ⟨l, upd_same _ _ _, hl⟩
    · exact ⟨k, (upd_other _ _ hj).trans h2, h3⟩
  · intro b hb
    by_cases hc : b = o.data
    · obtain ⟨_, k, h2, _⟩ := h.own i o ho hd
      rw [hc]
      exact h.fresh o.data (by rw [h2]; simp)
    · dsimp only at hb
      rw [upd_other _ _ hc] at hb
      exact h.fresh b hb

/-! ### Contents -/

variable [Inhabited α]

theorem view_freed {w : World α} (h : Inv w) {i j : Nat} {o : Obj} (ho : w.objs i = some o) (hj : j ≠ i) {n : Nat} :
    view (⟨upd w.objs i (some ⟨0, n⟩), (DevArray.freed w i o).heap, w.next⟩ : World α) j = view w j := by
  unfold view
  dsimp only
  rw [upd_other _ _ hj]
  cases hp : w.objs j with
  | none => rfl
  | some p =>
    simp only [Option.map_some]
    congr 1
    by_cases hd : p.data = 0
    · rw [if_pos hd, if_pos hd]
    · rw [if_neg hd, if_neg hd, h.freed_heap ho hp hj hd]

theorem view_allocd {w : World α} (h : Inv w) (e : Env α) {i j : Nat} {o : Obj} (ho : w.objs i = some o) {n : Nat} (hj : j ≠ i) :
    view (DevArray.allocd e w i o n) j = view w j := by
  unfold view
  rw [show (DevArray.allocd e w i o n).objs j = _ from upd_other _ _ hj]
  cases hp : w.objs j with
  | none => rfl
  | some p =>
    simp only [Option.map_some]
    congr 1
    by_cases hd : p.data = 0
    · rw [if_pos hd, if_pos hd]
    · obtain ⟨_, l, hl, _⟩ := h.own j p hp hd
      have := (h.fresh p.data (by rw [hl]; simp)).2
      rw [if_neg hd, if_neg hd, show (DevArray.allocd e w i o n).heap p.data = _ from upd_other _ _ (by omega), h.freed_heap ho hp hj hd]

theorem view_allocd_same {w : World α} (h : Inv w) (e : Env α) {i : Nat} {o : Obj} {n : Nat} :
    view (DevArray.allocd e w i o n) i = some ((List.range n).map e.junk) := by
  unfold view
  rw [show (DevArray.allocd e w i o n).objs i = _ from upd_same _ _ _]
  simp only [Option.map_some]
  rw [if_neg (by have := h.next; omega), show (DevArray.allocd e w i o n).heap w.next = _ from upd_same _ _ _]
  rfl

theorem view_fill {w : World α} (h : Inv w) {i : Nat} {o : Obj} (ho : w.objs i = some o) (hd : o.data ≠ 0) {l : List α} (j : Nat) :
    view ({ w with heap := upd w.heap o.data (some l) } : World α) j = if j = i then some l else view w j := by
  by_cases hj : j = i
  · subst hj
    rw [if_pos rfl, view]
    simp only
    rw [ho, Option.map_some, if_neg hd, upd_same]
    rfl
  · rw [if_neg hj]
    unfold view
    dsimp only
    cases hp : w.objs j with
    | none => rfl
    | some p =>
      simp only [Option.map_some]
      congr 1
      by_cases hpd : p.data = 0
      · rw [if_pos hpd, if_pos hpd]
      · rw [if_neg hpd, if_neg hpd, upd_other _ _ fun hc => hj (h.dist j i p o hp ho hc hpd)]

theorem view_of {w : World α} {i : Nat} {o : Obj} (ho : w.objs i = some o) {l : List α} (hd : o.data ≠ 0) (hl : w.heap o.data = some l) : view w i = some l := by
  rw [view, ho, Option.map_some, if_neg hd, hl]
  rfl

/-! ### Without failures -/

theorem Tight.emptied {w : World α} (h : Inv w) (t : Tight w) {i : Nat} {o : Obj} (ho : w.objs i = some o) : Tight (emptied w i o) := by
  constructor
  · intro j p hp hd
    by_cases hj : j = i
    · subst hj
      rw [show (DevArray.emptied w j o).objs j = _ from upd_same _ _ _] at hp
      injection hp with hp
      rw [← hp]
    · rw [show (DevArray.emptied w i o).objs j = _ from upd_other _ _ hj] at hp
      exact t.size j p hp hd
  · intro b hb
    obtain ⟨h1, h2⟩ := Inv.freed_sub i hb
    obtain ⟨j, p, hp, hpb⟩ := t.used b h1
    have hj : j ≠ i := by
      rintro rfl
      rw [ho] at hp
      injection hp with hp
      subst hp
      have := (h.fresh b h1).1
      omega
    exact ⟨j, p, (upd_other _ _ hj).trans hp, hpb⟩

theorem Tight.allocd {w : World α} (h : Inv w) (t : Tight w) (e : Env α) {i : Nat} {o : Obj} (ho : w.objs i = some o) {n : Nat} : Tight (allocd e w i o n) := by
  constructor
  · intro j p hp hd
    by_cases hj : j = i
    · subst hj
      rw [show (DevArray.allocd e w j o n).objs j = _ from upd_same _ _ _] at hp
      injection hp with hp
      rw [← hp] at hd
      have := h.next
      dsimp only at hd
      omega
    · rw [show (DevArray.allocd e w i o n).objs j = _ from upd_other _ _ hj] at hp
      exact t.size j p hp hd
  · intro b hb
    by_cases hc : b = w.next
    · exact ⟨i, _, upd_same _ _ _, hc.symm⟩
    · rw [show (DevArray.allocd e w i o n).heap b = _ from upd_other _ _ hc] at hb
      obtain ⟨h1, h2⟩ := Inv.freed_sub i hb
      obtain ⟨j, p, hp, hpb⟩ := t.used b h1
      have hj : j ≠ i := by
        rintro rfl
        rw [ho] at hp
        injection hp with hp
        subst hp
        have := (h.fresh b h1).1
        omega
      exact ⟨j, p, (upd_other _ _ hj).trans hp, hpb⟩

theorem Tight.fill {w : World α} (t : Tight w) {i : Nat} {o : Obj} (ho : w.objs i = some o) {l : List α} :
    Tight ({ w with heap := upd w.heap o.data (some l) } : World α) := by
  refine ⟨t.size, fun b hb => ?_⟩
  by_cases hc : b = o.data
  · exact ⟨i, o, ho, hc.symm⟩
  · dsimp only at hb
    rw [upd_other _ _ hc] at hb
    exact t.used b hb

/-! ### The parts of the operations

`Out r w'`: the operation ends in w', normally or with an exception. -/

def Out {β : Type} (r : Res (World α) β) (w' : World α) : Prop := (∃ b, r = .ok b w') ∨ r = .throw w'

/-- What every operation on object i keeps. -/
structure Keeps (w w' : World α) (i : Nat) : Prop where
  inv : Inv w'
  objs : ∀ j, j ≠ i → w'.objs j = w.objs j
  views : ∀ j, j ≠ i → view w' j = view w j
  alive : ∃ o, w'.objs i = some o

theorem Keeps.trans {w w' w'' : World α} {i : Nat} (h : Keeps w w' i) (h' : Keeps w' w'' i) : Keeps w w'' i :=
  ⟨h'.inv, fun j hj => (h'.objs j hj).trans (h.objs j hj), fun j hj => (h'.views j hj).trans (h.views j hj), h'.alive⟩

theorem allocateO_any {w : World α} (h : Inv w) (e : Env α) {i : Nat} {o : Obj} (ho : w.objs i = some o) (n : Nat) :
    ∃ w', Keeps w w' i ∧ ((allocateO e i n w = .ok () w' ∧ ∃ o', w'.objs i = some o' ∧ o'.size = n) ∨ allocateO e i n w = .throw w') := by
  rw [allocateO_ok h e ho]
  by_cases h1 : o.size = n
  · rw [if_pos h1]
    exact ⟨w, ⟨h, fun _ _ => rfl, fun _ _ => rfl, o, ho⟩, .inl ⟨rfl, o, ho, h1⟩⟩
  rw [if_neg h1]
  by_cases h2 : n = 0
  · rw [if_pos h2]
    exact ⟨_, ⟨h.emptied ho, fun j hj => upd_other _ _ hj, fun j hj => view_freed h ho hj, _, upd_same _ _ _⟩, .inl ⟨rfl, _, upd_same _ _ _, h2.symm⟩⟩
  rw [if_neg h2]
  by_cases h3 : e.room = true
  · rw [if_pos h3]
    exact ⟨_, ⟨h.allocd e ho h2, fun j hj => upd_other _ _ hj, fun j hj => view_allocd h e ho hj, _, upd_same _ _ _⟩, .inl ⟨rfl, _, upd_same _ _ _, rfl⟩⟩
  · rw [if_neg h3]
    exact ⟨_, ⟨h.freed ho, fun j hj => upd_other _ _ hj, fun j hj => view_freed h ho hj, _, upd_same _ _ _⟩, .inr rfl⟩

theorem keeps_fill {w : World α} (h : Inv w) {i : Nat} {o : Obj} (ho : w.objs i = some o) (hd : o.data ≠ 0) {l : List α} (hl : l.length = o.size) :
    Keeps w { w with heap := upd w.heap o.data (some l) } i :=
  ⟨h.fill ho hd hl, fun _ _ => rfl, fun j hj => by rw [view_fill h ho hd, if_neg hj], o, ho⟩

theorem copyFrom_any {w : World α} (h : Inv w) (e : Env α) {i : Nat} {o : Obj} (ho : w.objs i = some o) (v : List α) :
    ∃ w', Keeps w w' i ∧ (copyFrom e i v w = .ok () w' ∨ copyFrom e i v w = .throw w') := by
  rw [copyFrom, bind_ok (obj_ok ho)]
  by_cases h1 : o.data ≠ 0 ∧ o.size = v.length
  · rw [if_pos h1]
    by_cases h2 : e.copies = true
    · obtain ⟨_, l, hl, hlen⟩ := h.own i o ho h1.1
      rw [if_pos h2, bind_ok (block_ok hl), if_pos (by omega)]
      refine ⟨_, keeps_fill h ho h1.1 (l := v ++ l.drop o.size) ?_, .inl rfl⟩
      rw [List.length_append, List.length_drop]
      omega
    · rw [if_neg h2]
      exact ⟨w, ⟨h, fun _ _ => rfl, fun _ _ => rfl, o, ho⟩, .inr rfl⟩
  · rw [if_neg h1]
    exact ⟨w, ⟨h, fun _ _ => rfl, fun _ _ => rfl, o, ho⟩, .inl rfl⟩

theorem copyO_any {w : World α} (h : Inv w) (kind : Kind) (e : Env α) {i j : Nat} {o p : Obj} (ho : w.objs i = some o) (hp : w.objs j = some p) (hij : i ≠ j) :
    ∃ w', Keeps w w' i ∧ (copyO kind e i j w = .ok () w' ∨ copyO kind e i j w = .throw w') := by
  cases kind with
  | openCl => exact ⟨w, ⟨h, fun _ _ => rfl, fun _ _ => rfl, o, ho⟩, .inr rfl⟩
  | cuda =>
    show ∃ w', Keeps w w' i ∧ ((obj j >>= fun p => allocateO e i p.size >>= fun _ => obj j >>= fun p => obj i >>= fun o =>
      if p.data ≠ 0 then copyBlock e o.data p.data o.size else throwE) w = .ok () w' ∨ (obj j >>= fun p => allocateO e i p.size >>= fun _ => obj j >>= fun p => obj i >>= fun o =>
      if p.data ≠ 0 then copyBlock e o.data p.data o.size else throwE) w = .throw w')
    rw [bind_ok (obj_ok hp)]
    obtain ⟨w1, k1, h1⟩ := allocateO_any h e ho p.size
    rcases h1 with ⟨h1, o1, ho1, hs1⟩ | h1
    · have hp1 : w1.objs j = some p := (k1.objs j (Ne.symm hij)).trans hp
      rw [bind_ok h1, bind_ok (obj_ok hp1), bind_ok (obj_ok ho1)]
      by_cases hd : p.data ≠ 0
      · rw [if_pos hd, copyBlock]
        by_cases hz : o1.data = 0 ∨ e.copies = false
        · rw [if_pos hz]
          exact ⟨w1, k1, .inr rfl⟩
        · have hz1 : o1.data ≠ 0 := fun hc => hz (.inl hc)
          have hne : o1.data ≠ p.data := fun hc => hij (k1.inv.dist i j o1 p ho1 hp1 hc hz1)
          obtain ⟨_, l, hl, hlen⟩ := k1.inv.own j p hp1 hd
          obtain ⟨_, k, hk, hklen⟩ := k1.inv.own i o1 ho1 hz1
          rw [if_neg hz, if_neg hne, bind_ok (block_ok hl), bind_ok (block_ok hk), if_pos (by omega)]
          refine ⟨_, k1.trans (keeps_fill k1.inv ho1 hz1 (l := l.take o1.size ++ k.drop o1.size) ?_), .inl rfl⟩
          rw [List.length_append, List.length_take, List.length_drop]
          omega
      · rw [if_neg hd]
        exact ⟨w1, k1, .inr rfl⟩
    · exact ⟨w1, k1, .inr (bind_throw h1)⟩

/-! ### Exchange, constructors, destructors -/

/-- Objects under other names. -/
theorem Inv.perm {w : World α} (h : Inv w) (s : Nat → Nat) (hs : ∀ k, s (s k) = k) (f : Nat → Option Obj) (hf : ∀ k, f k = w.objs (s k)) : Inv ({ w with objs := f } : World α) := by
  refine ⟨fun k o ho hd => h.own (s k) o ((hf k).symm.trans ho) hd, fun k l o p ho hp he hd => ?_, h.fresh, h.next⟩
  have := h.dist (s k) (s l) o p ((hf k).symm.trans ho) ((hf l).symm.trans hp) he hd
  rw [← hs k, this, hs l]

theorem Tight.perm {w : World α} (h : Tight w) (s : Nat → Nat) (hs : ∀ k, s (s k) = k) (f : Nat → Option Obj) (hf : ∀ k, f k = w.objs (s k)) : Tight ({ w with objs := f } : World α) := by
  refine ⟨fun k o ho hd => h.size (s k) o ((hf k).symm.trans ho) hd, fun b hb => ?_⟩
  obtain ⟨i, o, ho, hd⟩ := h.used b hb
  exact ⟨s i, o, by dsimp only; rw [hf, hs, ho], hd⟩

theorem view_perm {w : World α} (s : Nat → Nat) (f : Nat → Option Obj) (hf : ∀ k, f k = w.objs (s k)) (k : Nat) : view ({ w with objs := f } : World α) k = view w (s k) := by
  unfold view
  dsimp only
  rw [hf]

def swapIx (i j k : Nat) : Nat := if k = j then i else if k = i then j else k

theorem swapIx_swapIx (i j k : Nat) : swapIx i j (swapIx i j k) = k := by
  unfold swapIx
  split <;> split <;> (try split) <;> omega

def swapped (w : World α) (i j : Nat) (o p : Obj) : World α := { w with objs := upd (upd w.objs i (some p)) j (some o) }

theorem swapped_objs {w : World α} {i j : Nat} {o p : Obj} (ho : w.objs i = some o) (hp : w.objs j = some p) (k : Nat) : (swapped w i j o p).objs k = w.objs (swapIx i j k) := by
  unfold swapped swapIx upd
  dsimp only
  split
  · exact ho.symm
  split
  · exact hp.symm
  · rfl

theorem swapO_ok {w : World α} {i j : Nat} {o p : Obj} (ho : w.objs i = some o) (hp : w.objs j = some p) : swapO i j w = .ok () (swapped w i j o p) := by
  rw [swapO, bind_ok (obj_ok ho), bind_ok (obj_ok hp)]
  rfl

theorem Inv.swapped {w : World α} (h : Inv w) {i j : Nat} {o p : Obj} (ho : w.objs i = some o) (hp : w.objs j = some p) : Inv (swapped w i j o p) :=
  h.perm (swapIx i j) (swapIx_swapIx i j) _ (swapped_objs ho hp)

theorem Tight.swapped {w : World α} (h : Tight w) {i j : Nat} {o p : Obj} (ho : w.objs i = some o) (hp : w.objs j = some p) : Tight (swapped w i j o p) :=
  h.perm (swapIx i j) (swapIx_swapIx i j) _ (swapped_objs ho hp)

theorem view_swapped {w : World α} {i j : Nat} {o p : Obj} (ho : w.objs i = some o) (hp : w.objs j = some p) (k : Nat) : view (swapped w i j o p) k = view w (swapIx i j k) :=
  view_perm (swapIx i j) _ (swapped_objs ho hp) k

/-- Without the object i -/
def dropped (w : World α) (i : Nat) : World α := { w with objs := upd w.objs i none }

/-- With an empty object i -/
def added (w : World α) (i : Nat) : World α := { w with objs := upd w.objs i (some ⟨0, 0⟩) }

theorem dropped_objs {w : World α} {i k : Nat} {o : Obj} (h : (dropped w i).objs k = some o) : k ≠ i ∧ w.objs k = some o := by
  by_cases hk : k = i
  · rw [hk] at h
    exact absurd ((upd_same _ _ _).symm.trans h) (by simp)
  · exact ⟨hk, (upd_other _ _ hk).symm.trans h⟩

theorem added_objs {w : World α} {i k : Nat} {o : Obj} (h : (added w i).objs k = some o) : (k = i ∧ o = ⟨0, 0⟩) ∨ (k ≠ i ∧ w.objs k = some o) := by
  by_cases hk : k = i
  · rw [hk] at h
    exact .inl ⟨hk, Option.some.inj (((upd_same _ _ _).symm.trans h).symm)⟩
  · exact .inr ⟨hk, (upd_other _ _ hk).symm.trans h⟩

theorem Inv.dropped {w : World α} (h : Inv w) (i : Nat) : Inv (dropped w i) :=
  ⟨fun k o ho hd => h.own k o (dropped_objs ho).2 hd, fun k l o p ho hp he hd => h.dist k l o p (dropped_objs ho).2 (dropped_objs hp).2 he hd, h.fresh, h.next⟩

theorem Inv.added {w : World α} (h : Inv w) (i : Nat) : Inv (added w i) := by
  refine ⟨fun k o ho hd => ?_, fun k l o p ho hp he hd => ?_, h.fresh, h.next⟩
  · rcases added_objs ho with ⟨_, h2⟩ | ⟨_, h2⟩
    · rw [h2] at hd
      exact absurd rfl hd
    · exact h.own k o h2 hd
  · rcases added_objs ho with ⟨_, h2⟩ | ⟨_, h2⟩
    · rw [h2] at hd
      exact absurd rfl hd
    · rcases added_objs hp with ⟨_, h3⟩ | ⟨_, h3⟩
      · rw [h3] at he
        exact absurd he hd
      · exact h.dist k l o p h2 h3 he hd

theorem Tight.added {w : World α} (h : Tight w) {i : Nat} (hi : w.objs i = none) : Tight (added w i) := by
  refine ⟨fun k o ho hd => ?_, fun b hb => ?_⟩
  · rcases added_objs ho with ⟨_, h2⟩ | ⟨_, h2⟩
    · rw [h2]
    · exact h.size k o h2 hd
  · obtain ⟨k, o, ho, hd⟩ := h.used b hb
    refine ⟨k, o, (upd_other _ _ ?_).trans ho, hd⟩
    rintro rfl
    rw [hi] at ho
    exact absurd ho (by simp)

theorem Tight.dropped {w : World α} (hI : Inv w) (h : Tight w) {i : Nat} {o : Obj} (hi : w.objs i = some o) (hd : o.data = 0) : Tight (dropped w i) := by
  refine ⟨fun k o ho hd => h.size k o (dropped_objs ho).2 hd, fun b hb => ?_⟩
  obtain ⟨k, p, hp, hpd⟩ := h.used b hb
  refine ⟨k, p, (upd_other _ _ ?_).trans hp, hpd⟩
  rintro rfl
  rw [hi] at hp
  injection hp with hp
  subst hp
  have := (hI.fresh b hb).1
  omega

theorem view_dropped (w : World α) (i k : Nat) : view (dropped w i) k = if k = i then none else view w k := by
  by_cases hk : k = i
  · rw [if_pos hk, view, hk, show (dropped w i).objs i = none from upd_same _ _ _]
    rfl
  · rw [if_neg hk, view, view, show (dropped w i).objs k = _ from upd_other _ _ hk]
    rfl

theorem view_added (w : World α) (i k : Nat) : view (added w i) k = if k = i then some [] else view w k := by
  by_cases hk : k = i
  · rw [if_pos hk, view, hk, show (added w i).objs i = _ from upd_same _ _ _]
    rfl
  · rw [if_neg hk, view, view, show (added w i).objs k = _ from upd_other _ _ hk]
    rfl

theorem dropped_added {w : World α} {i : Nat} (h : w.objs i = none) : dropped (added w i) i = w := by
  unfold dropped added
  dsimp only
  rw [upd_upd, upd_self w.objs h]

theorem ctor_ok {w w' : World α} {i : Nat} (h : w.objs i = none) {body : M (World α) Unit} (hb : body (added w i) = .ok () w') : ctor i body w = .ok () w' := by
  rw [ctor, h]
  dsimp only
  rw [show body { w with objs := upd w.objs i (some ⟨0, 0⟩) } = _ from hb]

theorem ctor_throw {w w' : World α} {i : Nat} (h : w.objs i = none) {body : M (World α) Unit} (hb : body (added w i) = .throw w') : ctor i body w = .throw (dropped w' i) := by
  rw [ctor, h]
  dsimp only
  rw [show body { w with objs := upd w.objs i (some ⟨0, 0⟩) } = _ from hb]
  rfl

theorem destroy_ok {w : World α} (h : Inv w) (kind : Kind) (e : Env α) {i : Nat} {o : Obj} (ho : w.objs i = some o) : step kind e (.destroy i) w = .ok () (dropped (emptied w i o) i) := by
  show (freeO i >>= fun _ => dropObj i) w = _
  rw [bind_ok (freeO_ok h ho)]
  show Res.ok () _ = _
  simp only [freed, emptied, dropped, upd_upd]

/-! ### Operations without failures -/

theorem data_zero {w : World α} (h : Inv w) (t : Tight w) {i : Nat} {o : Obj} (ho : w.objs i = some o) : o.data = 0 ↔ o.size = 0 := by
  refine ⟨t.size i o ho, fun hs => ?_⟩
  by_cases hd : o.data = 0
  · exact hd
  · exact absurd hs (h.own i o ho hd).1

theorem view_len {w : World α} (h : Inv w) {i : Nat} {o : Obj} (ho : w.objs i = some o) : ∃ l, view w i = some l ∧ l.length = o.size := by
  by_cases hd : o.data = 0
  · exact ⟨_, by rw [view, ho, Option.map_some, if_pos hd], by simp⟩
  · obtain ⟨_, l, h1, h2⟩ := h.own i o ho hd
    exact ⟨l, view_of ho hd h1, h2⟩

theorem allocateO_good {w : World α} (h : Inv w) (t : Tight w) {e : Env α} (he : e.room = true) {i : Nat} {o : Obj} (ho : w.objs i = some o) (n : Nat) :
    ∃ w', allocateO e i n w = .ok () w' ∧ Keeps w w' i ∧ Tight w' ∧ (∃ o', w'.objs i = some o' ∧ o'.size = n)
      ∧ view w' i = if o.size = n then view w i else some ((List.range n).map e.junk) := by
  rw [allocateO_ok h e ho]
  by_cases h1 : o.size = n
  · rw [if_pos h1, if_pos h1]
    exact ⟨w, rfl, ⟨h, fun _ _ => rfl, fun _ _ => rfl, o, ho⟩, t, ⟨o, ho, h1⟩, rfl⟩
  rw [if_neg h1, if_neg h1]
  by_cases h2 : n = 0
  · rw [if_pos h2]
    refine ⟨_, rfl, ⟨h.emptied ho, fun j hj => upd_other _ _ hj, fun j hj => view_freed h ho hj, _, upd_same _ _ _⟩, t.emptied h ho, ⟨_, upd_same _ _ _, h2.symm⟩, ?_⟩
    rw [view, show (emptied w i o).objs i = _ from upd_same _ _ _, h2]
    rfl
  rw [if_neg h2, if_pos he]
  exact ⟨_, rfl, ⟨h.allocd e ho h2, fun j hj => upd_other _ _ hj, fun j hj => view_allocd h e ho hj, _, upd_same _ _ _⟩, t.allocd h e ho, ⟨_, upd_same _ _ _, rfl⟩, view_allocd_same h e⟩

theorem copyFrom_good {w : World α} (h : Inv w) (t : Tight w) {e : Env α} (he : e.copies = true) {i : Nat} {o : Obj} (ho : w.objs i = some o) {v : List α} (hv : o.size = v.length) :
    ∃ w', copyFrom e i v w = .ok () w' ∧ Keeps w w' i ∧ Tight w' ∧ view w' i = some v := by
  rw [copyFrom, bind_ok (obj_ok ho)]
  by_cases h1 : o.data = 0
  · rw [if_neg (fun hc => hc.1 h1)]
    refine ⟨w, rfl, ⟨h, fun _ _ => rfl, fun _ _ => rfl, o, ho⟩, t, ?_⟩
    have hs := t.size i o ho h1
    have hv0 : v = [] := List.length_eq_zero_iff.mp (by omega)
    rw [view, ho, Option.map_some, if_pos h1, hs, hv0]
    rfl
  · obtain ⟨_, l, hl, hlen⟩ := h.own i o ho h1
    rw [if_pos ⟨h1, hv⟩, if_pos he, bind_ok (block_ok hl), if_pos (by omega)]
    have hd : v ++ l.drop o.size = v := by rw [← hlen, List.drop_length, List.append_nil]
    rw [hd]
    refine ⟨_, rfl, keeps_fill h ho h1 hv.symm, t.fill ho, ?_⟩
    rw [view_fill h ho h1, if_pos rfl]

theorem copyO_good {w : World α} (h : Inv w) (t : Tight w) {e : Env α} (hr : e.room = true) (he : e.copies = true) {i j : Nat} {o p : Obj} (ho : w.objs i = some o) (hp : w.objs j = some p) (hij : i ≠ j) :
    ∃ w', copyO .cuda e i j w = (if p.size = 0 then .throw w' else .ok () w') ∧ Keeps w w' i ∧ Tight w' ∧ view w' i = view w j ∧ (o = ⟨0, 0⟩ → p.size = 0 → w' = w) := by
  obtain ⟨w1, a1, k1, t1, ⟨o1, ho1, hs1⟩, v1⟩ := allocateO_good h t hr ho p.size
  have hp1 : w1.objs j = some p := (k1.objs j (Ne.symm hij)).trans hp
  have hc : copyO .cuda e i j w = (if p.data ≠ 0 then copyBlock e o1.data p.data o1.size else throwE) w1 := by
    show (obj j >>= fun p => allocateO e i p.size >>= fun _ => obj j >>= fun p => obj i >>= fun o =>
      if p.data ≠ 0 then copyBlock e o.data p.data o.size else throwE) w = _
    rw [bind_ok (obj_ok hp), bind_ok a1, bind_ok (obj_ok hp1), bind_ok (obj_ok ho1)]
  rw [hc]
  by_cases hd : p.data = 0
  · have hz := (data_zero h t hp).mp hd
    rw [if_neg (not_not_intro hd)]
    refine ⟨w1, (if_pos hz).symm, k1, t1, ?_, ?_⟩
    · obtain ⟨l1, hl1, hn1⟩ := view_len k1.inv ho1
      obtain ⟨l2, hl2, hn2⟩ := view_len h hp
      have e1 : l1 = [] := List.length_eq_zero_iff.mp (by omega)
      have e2 : l2 = [] := List.length_eq_zero_iff.mp (by omega)
      rw [hl1, hl2, e1, e2]
    · intro hoz _
      rw [allocateO_ok h e ho, if_pos (by rw [hoz, hz])] at a1
      injection a1 with _ a1
      exact a1.symm
  · have hz : p.size ≠ 0 := fun hz => hd ((data_zero h t hp).mpr hz)
    have hz1 : o1.data ≠ 0 := fun hc => by
      have := (data_zero k1.inv t1 ho1).mp hc
      omega
    have hne : o1.data ≠ p.data := fun hc => hij (k1.inv.dist i j o1 p ho1 hp1 hc hz1)
    obtain ⟨_, l, hl, hlen⟩ := k1.inv.own j p hp1 hd
    obtain ⟨_, k, hk, hklen⟩ := k1.inv.own i o1 ho1 hz1
    rw [if_pos hd, copyBlock, if_neg (by rw [he]; simp [hz1]), if_neg hne, bind_ok (block_ok hl), bind_ok (block_ok hk), if_pos (by omega)]
    have hll : l.take o1.size ++ k.drop o1.size = l := by
      rw [← hklen, List.drop_length, List.append_nil, List.take_of_length_le (by omega)]
    rw [hll]
    refine ⟨_, (if_neg hz).symm, k1.trans (keeps_fill k1.inv ho1 hz1 (by omega)), t1.fill ho1, ?_, fun _ hc => absurd hc hz⟩
    rw [view_fill k1.inv ho1 hz1, if_pos rfl, ← k1.views j (Ne.symm hij), view_of hp1 hd hl]

end PV.DevArray
