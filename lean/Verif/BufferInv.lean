import Verif.Buffer
/-
  The storage invariant of the image container and how every call keeps it.
-/
namespace PV.Buffer

open PV

variable {α : Type} {s s' : St α}

/-- `r` is the least multiple of the alignment which is at least `w * cc`, and it fits into 32
    bits. -/
def RowIs (w cc align r : Nat) : Prop :=
  w * cc ≤ r ∧ r < w * cc + align ∧ r % align = 0 ∧ r < 4294967296

instance (w cc align r : Nat) : Decidable (RowIs w cc align r) := inferInstanceAs (Decidable (_ ∧ _))

/-- The shape of one image. -/
structure Shape (s : St α) (o : Obj) : Prop where
  cc : 0 < o.cc
  align : 0 < o.align
  empty : o.data = 0 → o.width = 0 ∧ o.height = 0 ∧ o.row = 0
  block : o.data ≠ 0 → s.live o.data = true ∧ o.height * o.row ≤ s.mem.size o.data ∧ 0 < o.width ∧
    0 < o.height ∧ RowIs o.width o.cc o.align o.row

/-- The invariant. -/
structure Inv (s : St α) : Prop where
  shape : ∀ i o, s.obj i = some o → Shape s o
  own : ∀ i j o p, s.obj i = some o → s.obj j = some p → o.data = p.data → o.data ≠ 0 → i = j
  ext : ∀ b, s.ext b = true → s.live b = true ∧ ∀ i o, s.obj i = some o → o.data ≠ b
  leak : ∀ b, s.live b = true → s.ext b = true ∨ ∃ i o, s.obj i = some o ∧ o.data = b
  used : ∀ b, s.live b = true → 0 < b ∧ b < s.next
  pos : 0 < s.next

theorem inv_start (mem : Mem α) : Inv (start mem) :=
  ⟨fun _ _ h => by simp [start] at h, fun _ _ _ _ h => by simp [start] at h, fun _ h => by simp [start] at h,
    fun _ h => by simp [start] at h, fun _ h => by simp [start] at h, Nat.zero_lt_one⟩

/-- An object and its pixels are the same in both states. -/
def Same (s s' : St α) (j : Nat) : Prop :=
  s'.obj j = s.obj j ∧ ∀ o, s.obj j = some o → o.data ≠ 0 →
    s'.live o.data = true ∧ s'.mem.size o.data = s.mem.size o.data ∧
    ∀ k, k < s.mem.size o.data → s'.mem.byte o.data k = s.mem.byte o.data k

/-- The effect of a call on the objects in `P`. -/
structure Good (P : List Nat) (s s' : St α) : Prop where
  inv : Inv s'
  frame : ∀ j, j ∉ P → Same s s' j

theorem Same.refl (I : Inv s) (j : Nat) : Same s s j :=
  ⟨rfl, fun o h hd => ⟨((I.shape j o h).block hd).1, rfl, fun _ _ => rfl⟩⟩

theorem Same.trans {s'' : St α} {j : Nat} (a : Same s s' j) (b : Same s' s'' j) : Same s s'' j := by
  refine ⟨b.1.trans a.1, fun o h hd => ?_⟩
  obtain ⟨_, a2, a3⟩ := a.2 o h hd
  obtain ⟨b1, b2, b3⟩ := b.2 o (a.1.trans h) hd
  exact ⟨b1, b2.trans a2, fun k hk => (b3 k (by rw [a2]; exact hk)).trans (a3 k hk)⟩

theorem Good.refl (P : List Nat) (I : Inv s) : Good P s s :=
  ⟨I, fun j _ => Same.refl I j⟩

/-! ### Elementary changes -/

/-- The object store with one object replaced. -/
def St.put (s : St α) (i : Nat) (o : Option Obj) : St α :=
  { s with obj := fun j => if j = i then o else s.obj j }

theorem setObj_run (i : Nat) (o : Obj) : setObj i o s = .ok () (s.put i (some o)) := rfl

theorem St.put_same (i : Nat) (o : Option Obj) : (s.put i o).obj i = o := by simp [St.put]
theorem St.put_ne {i j : Nat} (o : Option Obj) (h : j ≠ i) : (s.put i o).obj j = s.obj j := by simp [St.put, h]
theorem St.put_put (i : Nat) (o p : Option Obj) : (s.put i o).put i p = s.put i p := by
  simp only [St.put, St.mk.injEq, and_true]
  funext j
  split <;> simp_all

theorem getObj_run {i : Nat} {o : Obj} (h : s.obj i = some o) : getObj i s = .ok o s := by
  rw [getObj, h]

def Obj.cleared (o : Obj) : Obj := { o with data := 0, width := 0, height := 0, row := 0 }

/-- The state after `clear`. -/
def clearSt (s : St α) (i : Nat) (o : Obj) : St α :=
  { s with live := fun c => if o.data ≠ 0 ∧ c = o.data then false else s.live c
           obj := fun j => if j = i then some o.cleared else s.obj j }

theorem clear_run {i : Nat} {o : Obj} (I : Inv s) (h : s.obj i = some o) :
    clear i s = .ok () (clearSt s i o) := by
  rw [clear, bind_ok (getObj_run h)]
  by_cases hd : o.data = 0
  · simp only [hd, ne_eq, not_true_eq_false, ↓reduceIte, pure_bind']
    rw [setObj_run]
    simp only [clearSt, hd, ne_eq, not_true_eq_false, false_and, ↓reduceIte]
    rfl
  · have hl := ((I.shape i o h).block hd).1
    simp only [ne_eq, hd, not_false_eq_true, ↓reduceIte]
    rw [bind_ok (show deallocate o.data s = .ok () { s with live := fun c => if c = o.data then false else s.live c } by
      rw [deallocate, if_pos hl]), setObj_run]
    simp only [clearSt, ne_eq, hd, not_false_eq_true, true_and]
    rfl

theorem clearSt_obj (s : St α) (i : Nat) (o : Obj) : (clearSt s i o).obj i = some o.cleared := by simp [clearSt]
theorem clearSt_obj_ne {i j : Nat} (o : Obj) (h : j ≠ i) : (clearSt s i o).obj j = s.obj j := by simp [clearSt, h]

theorem shape_cleared {o : Obj} (hs : Shape s o) : Shape s' o.cleared :=
  ⟨hs.cc, hs.align, fun _ => ⟨rfl, rfl, rfl⟩, fun h => absurd rfl h⟩

theorem good_clear {i : Nat} {o : Obj} (I : Inv s) (h : s.obj i = some o) : Good [i] s (clearSt s i o) := by
  have keep : ∀ j p, j ≠ i → s.obj j = some p → p.data ≠ 0 → (clearSt s i o).live p.data = true := by
    intro j p hj hp hd
    have : p.data ≠ o.data := fun e => hj (I.own j i p o hp h e hd)
    simp only [clearSt, this, and_false, ↓reduceIte]
    exact ((I.shape j p hp).block hd).1
  constructor
  · constructor
    · intro j p hp
      by_cases hj : j = i
      · subst hj
        rw [clearSt_obj] at hp
        obtain rfl := Option.some.inj hp
        exact shape_cleared (I.shape j o h)
      · rw [clearSt_obj_ne o hj] at hp
        have sp := I.shape j p hp
        exact ⟨sp.cc, sp.align, sp.empty, fun hd => ⟨keep j p hj hp hd, (sp.block hd).2⟩⟩
    · intro j k p q hp hq he hd
      have nz : ∀ j p, (clearSt s i o).obj j = some p → p.data ≠ 0 → j ≠ i ∧ s.obj j = some p := by
        intro j p hp hd
        by_cases hj : j = i
        · subst hj
          rw [clearSt_obj] at hp
          obtain rfl := Option.some.inj hp
          exact absurd rfl hd
        · rw [clearSt_obj_ne o hj] at hp
          exact ⟨hj, hp⟩
      exact I.own j k p q (nz j p hp hd).2 (nz k q hq (he ▸ hd)).2 he hd
    · intro b hb
      obtain ⟨e1, e2⟩ := I.ext b hb
      have hne : b ≠ o.data := fun e => e2 i o h e.symm
      refine ⟨?_, ?_⟩
      · simp only [clearSt, hne, and_false, ↓reduceIte]
        exact e1
      · intro j p hp
        by_cases hj : j = i
        · subst hj
          rw [clearSt_obj] at hp
          obtain rfl := Option.some.inj hp
          have := (I.used b e1).1
          simp only [Obj.cleared]
          omega
        · rw [clearSt_obj_ne o hj] at hp
          exact e2 j p hp
    · intro b hb
      simp only [clearSt] at hb
      split at hb
      · exact absurd hb (by decide)
      · rename_i hne
        rcases I.leak b hb with he | ⟨j, p, hp, rfl⟩
        · exact Or.inl he
        · refine Or.inr ⟨j, p, ?_, rfl⟩
          by_cases hj : j = i
          · subst hj
            rw [h] at hp
            obtain rfl := Option.some.inj hp
            have := (I.used _ hb).1
            exact absurd ⟨by omega, rfl⟩ hne
          · rw [clearSt_obj_ne o hj]
            exact hp
    · intro b hb
      simp only [clearSt] at hb ⊢
      split at hb
      · exact absurd hb (by decide)
      · exact I.used b hb
    · exact I.pos
  · intro j hj
    have hj : j ≠ i := by simpa using hj
    refine ⟨clearSt_obj_ne o hj, fun p hp hd => ⟨keep j p hj hp hd, rfl, fun _ _ => rfl⟩⟩

/-- Replacing an object without storage by another one without storage, or creating one. -/
theorem good_put {i : Nat} {o : Obj} (I : Inv s) (h : ∀ p, s.obj i = some p → p.data = 0)
    (hcc : 0 < o.cc) (hal : 0 < o.align) (hd : o.data = 0) (he : o.width = 0 ∧ o.height = 0 ∧ o.row = 0) :
    Good [i] s (s.put i (some o)) := by
  have nz : ∀ j p, (s.put i (some o)).obj j = some p → p.data ≠ 0 → j ≠ i ∧ s.obj j = some p := by
    intro j p hp hpd
    by_cases hj : j = i
    · subst hj
      rw [St.put_same] at hp
      obtain rfl := Option.some.inj hp
      exact absurd hd hpd
    · rw [St.put_ne _ hj] at hp
      exact ⟨hj, hp⟩
  constructor
  · constructor
    · intro j p hp
      by_cases hj : j = i
      · subst hj
        rw [St.put_same] at hp
        obtain rfl := Option.some.inj hp
        exact ⟨hcc, hal, fun _ => he, fun hn => absurd hd hn⟩
      · rw [St.put_ne _ hj] at hp
        have sp := I.shape j p hp
        exact ⟨sp.cc, sp.align, sp.empty, sp.block⟩
    · intro j k p q hp hq he hd
      exact I.own j k p q (nz j p hp hd).2 (nz k q hq (he ▸ hd)).2 he hd
    · intro b hb
      obtain ⟨e1, e2⟩ := I.ext b hb
      refine ⟨e1, fun j p hp e => ?_⟩
      have := (I.used b e1).1
      exact e2 j p (nz j p hp (by omega)).2 e
    · intro b hb
      rcases I.leak b hb with he | ⟨j, p, hp, rfl⟩
      · exact Or.inl he
      · refine Or.inr ⟨j, p, ?_, rfl⟩
        have hj : j ≠ i := by
          intro e
          subst e
          have := h p hp
          have := (I.used _ hb).1
          omega
        rw [St.put_ne _ hj]
        exact hp
    · exact I.used
    · exact I.pos
  · intro j hj
    have hj : j ≠ i := by simpa using hj
    exact ⟨St.put_ne _ hj, fun p hp hd => ⟨((I.shape j p hp).block hd).1, rfl, fun _ _ => rfl⟩⟩

/-- The state after `allocate`. -/
def allocSt (s : St α) (n : Nat) : St α :=
  { s with mem := { s.mem with size := fun b => if b = s.next then n else s.mem.size b }
           live := fun b => if b = s.next then true else s.live b
           next := s.next + 1 }

theorem allocate_run (n : Nat) : allocate n s = .ok s.next (allocSt s n) := rfl

/-- An object without storage gets a new block. -/
theorem good_attach {i n : Nat} {o : Obj} (I : Inv s) (h : ∀ p, s.obj i = some p → p.data = 0)
    (hcc : 0 < o.cc) (hal : 0 < o.align) (hd : o.data = s.next) (hsz : o.height * o.row ≤ n)
    (hw : 0 < o.width) (hh : 0 < o.height) (hrow : RowIs o.width o.cc o.align o.row) : Good [i] s ((allocSt s n).put i (some o)) := by
  have get_ne : ∀ {j}, j ≠ i → ((allocSt s n).put i (some o)).obj j = s.obj j := fun {j} hj => by
    rw [St.put_ne _ hj]
    rfl
  have old : ∀ b, s.live b = true → b ≠ s.next ∧ ((allocSt s n).put i (some o)).live b = true ∧
      ((allocSt s n).put i (some o)).mem.size b = s.mem.size b := by
    intro b hb
    have := (I.used b hb).2
    have hne : b ≠ s.next := by omega
    simp only [St.put, allocSt, hne, ↓reduceIte]
    exact ⟨hne, hb, trivial⟩
  constructor
  · constructor
    · intro j p hp
      by_cases hj : j = i
      · subst hj
        rw [St.put_same] at hp
        obtain rfl := Option.some.inj hp
        refine ⟨hcc, hal, fun e => by have := I.pos; omega, fun _ => ⟨?_, ?_, hw, hh, hrow⟩⟩
        · simp [St.put, allocSt, hd]
        · simp only [St.put, allocSt, hd, ↓reduceIte]
          exact hsz
      · rw [get_ne hj] at hp
        have sp := I.shape j p hp
        refine ⟨sp.cc, sp.align, sp.empty, fun hpd => ?_⟩
        obtain ⟨b1, b2⟩ := sp.block hpd
        obtain ⟨_, o2, o3⟩ := old _ b1
        exact ⟨o2, by rw [o3]; exact b2.1, b2.2⟩
    · intro j k p q hp hq he hpd
      have old' : ∀ j p, j ≠ i → ((allocSt s n).put i (some o)).obj j = some p → p.data ≠ 0 →
          s.obj j = some p ∧ p.data ≠ s.next := by
        intro j p hj hp hpd
        rw [get_ne hj] at hp
        have := (I.used _ ((I.shape j p hp).block hpd).1).2
        exact ⟨hp, by omega⟩
      have self : ∀ p, ((allocSt s n).put i (some o)).obj i = some p → p.data = s.next := by
        intro p hp
        rw [St.put_same] at hp
        obtain rfl := Option.some.inj hp
        exact hd
      by_cases hj : j = i <;> by_cases hk : k = i
      · rw [hj, hk]
      · subst hj
        have := self p hp
        have := (old' k q hk hq (he ▸ hpd)).2
        omega
      · subst hk
        have := self q hq
        have := (old' j p hj hp hpd).2
        omega
      · exact I.own j k p q (old' j p hj hp hpd).1 (old' k q hk hq (he ▸ hpd)).1 he hpd
    · intro b hb
      obtain ⟨e1, e2⟩ := I.ext b hb
      obtain ⟨o1, o2, _⟩ := old b e1
      refine ⟨o2, fun j p hp e => ?_⟩
      by_cases hj : j = i
      · subst hj
        rw [St.put_same] at hp
        obtain rfl := Option.some.inj hp
        omega
      · rw [get_ne hj] at hp
        exact e2 j p hp e
    · intro b hb
      by_cases hb' : b = s.next
      · exact Or.inr ⟨i, o, St.put_same _ _, by rw [hd, hb']⟩
      · have hbo : s.live b = true := by
          simp only [St.put, allocSt, hb', ↓reduceIte] at hb
          exact hb
        rcases I.leak b hbo with he | ⟨j, p, hp, rfl⟩
        · exact Or.inl he
        · refine Or.inr ⟨j, p, ?_, rfl⟩
          have hj : j ≠ i := by
            intro e
            subst e
            have := h p hp
            have := (I.used _ hbo).1
            omega
          rw [get_ne hj]
          exact hp
    · intro b hb
      simp only [St.put, allocSt] at hb ⊢
      split at hb
      · have := I.pos
        omega
      · have := I.used b hb
        omega
    · exact Nat.succ_pos _
  · intro j hj
    have hj : j ≠ i := by simpa using hj
    refine ⟨get_ne hj, fun p hp hpd => ?_⟩
    obtain ⟨_, o2, o3⟩ := old _ ((I.shape j p hp).block hpd).1
    exact ⟨o2, o3, fun _ _ => rfl⟩

theorem Good.trans {s'' : St α} {P : List Nat} (a : Good P s s') (b : Good P s' s'') : Good P s s'' :=
  ⟨b.inv, fun j hj => (a.frame j hj).trans (b.frame j hj)⟩

/-! ### Row size -/

theorem rowSize_run {w cc align r : Nat} (ha : 0 < align) (hr : RowIs w cc align r) :
    (rowSize w cc align : M (St α) Nat) = pure r := by
  obtain ⟨h1, h2, h3, h4⟩ := hr
  have hu : u32 (w * cc) = w * cc := u32_of_lt (by omega)
  rw [rowSize, if_neg (by omega)]
  simp only [hu]
  have hd := Nat.div_add_mod (w * cc) align
  have hrd := Nat.div_add_mod r align
  rw [h3, Nat.add_zero] at hrd
  have hmod := Nat.mod_lt (w * cc) ha
  have cmp : ∀ a b : Nat, align * a < align * b → a < b := fun a b h => by
    rcases Nat.lt_or_ge a b with h' | h'
    · exact h'
    · have := Nat.mul_le_mul_left align h'
      omega
  by_cases hm : w * cc % align = 0
  · have he : r / align = w * cc / align := by
      have a1 := cmp (r / align) (w * cc / align + 1) (by rw [Nat.mul_succ]; omega)
      have a2 := cmp (w * cc / align) (r / align + 1) (by rw [Nat.mul_succ]; omega)
      omega
    rw [if_neg (by simp [hm])]
    have : r = w * cc := by rw [← hrd, he]; omega
    rw [this]
  · have he : r / align = w * cc / align + 1 := by
      have a1 := cmp (r / align) (w * cc / align + 1 + 1) (by rw [Nat.mul_succ, Nat.mul_succ]; omega)
      have a2 := cmp (w * cc / align) (r / align) (by omega)
      omega
    have hle : r / align ≤ r := Nat.div_le_self _ _
    rw [if_pos hm, u32_of_lt (show w * cc / align + 1 < 4294967296 by omega), ← he, Nat.mul_comm, hrd,
      u32_of_lt h4]

/-! ### Changes of contents, permutations, removal -/

/-- Only the elements of the block of one image change. -/
theorem good_bytes {i : Nat} {o : Obj} (f : Nat → Nat → α) (I : Inv s) (h : s.obj i = some o)
    (hf : ∀ b k, b ≠ o.data → f b k = s.mem.byte b k) :
    Good [i] s { s with mem := { s.mem with byte := f } } := by
  refine ⟨⟨fun j p hp => ?_, I.own, I.ext, I.leak, I.used, I.pos⟩, fun j hj => ?_⟩
  · have sp := I.shape j p hp
    exact ⟨sp.cc, sp.align, sp.empty, sp.block⟩
  · have hj : j ≠ i := by simpa using hj
    refine ⟨rfl, fun p hp hpd => ⟨((I.shape j p hp).block hpd).1, rfl, fun k _ => ?_⟩⟩
    exact hf _ _ fun e => hj (I.own j i p o hp h e hpd)

/-- Two images exchange their members. -/
def swapSt (s : St α) (i j : Nat) : St α :=
  { s with obj := fun k => if k = i then s.obj j else if k = j then s.obj i else s.obj k }

theorem swap_run {i j : Nat} {o p : Obj} (h : s.obj i = some o) (h' : s.obj j = some p) :
    swap i j s = .ok () (swapSt s i j) := by
  rw [swap, bind_ok (getObj_run h), bind_ok (getObj_run h'), bind_ok (setObj_run i p), setObj_run]
  refine congrArg (Res.ok ()) ?_
  simp only [St.put, swapSt, St.mk.injEq, and_true]
  funext k
  by_cases hk : k = j
  · by_cases hk' : k = i
    · simp only [hk, ↓reduceIte]
      rw [← hk, hk', h]
      split <;> rfl
    · have : j ≠ i := fun e => hk' (hk.trans e)
      simp [hk, h, this]
  · by_cases hk' : k = i <;> simp [hk, hk', h']
    exact fun e => absurd (hk'.trans e) hk

theorem good_swap {i j : Nat} (I : Inv s) : Good [i, j] s (swapSt s i j) := by
  let σ : Nat → Nat := fun k => if k = i then j else if k = j then i else k
  have hσ : ∀ k, (swapSt s i j).obj k = s.obj (σ k) := by
    intro k
    simp only [swapSt, σ]
    split
    · rfl
    · split <;> rfl
  have hσσ : ∀ k, σ (σ k) = k := by
    intro k
    simp only [σ]
    repeat' split
    all_goals simp_all
  refine ⟨⟨fun k o h => ?_, fun k l o p h h' e hd => ?_, fun b hb => ?_, fun b hb => ?_, I.used, I.pos⟩,
    fun k hk => ?_⟩
  · rw [hσ] at h
    have sp := I.shape _ o h
    exact ⟨sp.cc, sp.align, sp.empty, sp.block⟩
  · rw [hσ] at h h'
    have := I.own _ _ o p h h' e hd
    rw [← hσσ k, this, hσσ]
  · obtain ⟨e1, e2⟩ := I.ext b hb
    refine ⟨e1, fun k o h => ?_⟩
    rw [hσ] at h
    exact e2 _ o h
  · rcases I.leak b hb with he | ⟨k, o, h, hd⟩
    · exact Or.inl he
    · exact Or.inr ⟨σ k, o, by rw [hσ, hσσ]; exact h, hd⟩
  · have hki : k ≠ i := fun e => hk (by simp [e])
    have hkj : k ≠ j := fun e => hk (by simp [e])
    refine ⟨by simp [swapSt, hki, hkj], fun o h hd => ⟨((I.shape k o h).block hd).1, rfl, fun _ _ => rfl⟩⟩

/-- An image without storage disappears. -/
theorem good_remove {i : Nat} (I : Inv s) (h : ∀ p, s.obj i = some p → p.data = 0) :
    Good [i] s (s.put i none) := by
  have nz : ∀ j p, (s.put i none).obj j = some p → j ≠ i ∧ s.obj j = some p := by
    intro j p hp
    by_cases hj : j = i
    · subst hj
      rw [St.put_same] at hp
      exact absurd hp (by simp)
    · rw [St.put_ne _ hj] at hp
      exact ⟨hj, hp⟩
  refine ⟨⟨fun k o hk => ?_, fun k l o p hk hl e hd => ?_, fun b hb => ?_, fun b hb => ?_, I.used, I.pos⟩,
    fun k hk => ?_⟩
  · have sp := I.shape _ o (nz k o hk).2
    exact ⟨sp.cc, sp.align, sp.empty, sp.block⟩
  · exact I.own _ _ o p (nz k o hk).2 (nz l p hl).2 e hd
  · obtain ⟨e1, e2⟩ := I.ext b hb
    exact ⟨e1, fun k o hk => e2 _ o (nz k o hk).2⟩
  · rcases I.leak b hb with he | ⟨k, o, hk, rfl⟩
    · exact Or.inl he
    · refine Or.inr ⟨k, o, ?_, rfl⟩
      have hki : k ≠ i := by
        intro e
        subst e
        have := h o hk
        have := (I.used _ hb).1
        omega
      rw [St.put_ne _ hki]
      exact hk
  · have hki : k ≠ i := by simpa using hk
    exact ⟨St.put_ne _ hki, fun o h hd => ⟨((I.shape k o h).block hd).1, rfl, fun _ _ => rfl⟩⟩

/-- The caller allocates a block. -/
theorem callerBlock_run (n : Nat) :
    callerBlock n s = .ok () { allocSt s n with ext := fun c => if c = s.next then true else s.ext c } := rfl

theorem good_callerBlock (n : Nat) (I : Inv s) :
    Good [] s { allocSt s n with ext := fun c => if c = s.next then true else s.ext c } := by
  have old : ∀ b, s.live b = true → b ≠ s.next ∧ (allocSt s n).live b = true ∧
      (allocSt s n).mem.size b = s.mem.size b := by
    intro b hb
    have := (I.used b hb).2
    have hne : b ≠ s.next := by omega
    simp only [allocSt, hne, ↓reduceIte]
    exact ⟨hne, hb, trivial⟩
  refine ⟨⟨fun j p hp => ?_, I.own, fun b hb => ?_, fun b hb => ?_, fun b hb => ?_, Nat.succ_pos _⟩,
    fun j _ => ⟨rfl, fun p hp hpd => ?_⟩⟩
  · have sp := I.shape j p hp
    refine ⟨sp.cc, sp.align, sp.empty, fun hpd => ?_⟩
    obtain ⟨b1, b2⟩ := sp.block hpd
    obtain ⟨_, o2, o3⟩ := old _ b1
    exact ⟨o2, show _ ≤ (allocSt s n).mem.size _ by rw [o3]; exact b2.1, b2.2⟩
  · by_cases hb' : b = s.next
    · refine ⟨show (allocSt s n).live b = true by simp [allocSt, hb'], fun j p hp => ?_⟩
      intro e
      have hz : p.data ≠ 0 := by have := I.pos; omega
      have := (I.used _ ((I.shape j p hp).block hz).1).2
      omega
    · have hb : s.ext b = true := by simpa [hb'] using hb
      obtain ⟨e1, e2⟩ := I.ext b hb
      exact ⟨(old b e1).2.1, e2⟩
  · by_cases hb' : b = s.next
    · exact Or.inl (by simp [hb'])
    · have hb : s.live b = true := by simpa [allocSt, hb'] using hb
      rcases I.leak b hb with he | ho
      · exact Or.inl (by simp [hb', he])
      · exact Or.inr ho
  · have hb : (allocSt s n).live b = true := hb
    simp only [allocSt] at hb ⊢
    split at hb
    · have := I.pos
      omega
    · have := I.used b hb
      omega
  · obtain ⟨_, o2, o3⟩ := old _ ((I.shape j p hp).block hpd).1
    exact ⟨o2, o3, fun _ _ => rfl⟩

/-- A block of the caller becomes the storage of an image without storage. -/
theorem good_adopt {i b : Nat} {o : Obj} (I : Inv s) (h : ∀ p, s.obj i = some p → p.data = 0) (hb : s.ext b = true)
    (hcc : 0 < o.cc) (hal : 0 < o.align) (hd : o.data = b) (hsz : o.height * o.row ≤ s.mem.size b)
    (hw : 0 < o.width) (hh : 0 < o.height) (hrow : RowIs o.width o.cc o.align o.row) :
    Good [i] s (St.put { s with ext := fun c => if c = b then false else s.ext c } i (some o)) := by
  obtain ⟨hlb, hob⟩ := I.ext b hb
  have hb0 := (I.used b hlb).1
  have get_ne : ∀ {j}, j ≠ i →
      (St.put { s with ext := fun c => if c = b then false else s.ext c } i (some o)).obj j = s.obj j := fun {j} hj => by
    rw [St.put_ne _ hj]
  refine ⟨⟨fun j p hp => ?_, fun j k p q hp hq he hpd => ?_, fun c hc => ?_, fun c hc => ?_, I.used, I.pos⟩,
    fun j hj => ?_⟩
  · by_cases hj : j = i
    · subst hj
      rw [St.put_same] at hp
      obtain rfl := Option.some.inj hp
      exact ⟨hcc, hal, fun e => by omega, fun _ => ⟨by rw [hd]; exact hlb, by rw [hd]; exact hsz, hw, hh, hrow⟩⟩
    · rw [get_ne hj] at hp
      have sp := I.shape j p hp
      exact ⟨sp.cc, sp.align, sp.empty, sp.block⟩
  · have self : ∀ p, (St.put { s with ext := fun c => if c = b then false else s.ext c } i (some o)).obj i = some p →
        p.data = b := by
      intro p hp
      rw [St.put_same] at hp
      obtain rfl := Option.some.inj hp
      exact hd
    by_cases hj : j = i <;> by_cases hk : k = i
    · rw [hj, hk]
    · subst hj
      rw [get_ne hk] at hq
      exact absurd (he.symm.trans (self p hp)) (hob k q hq)
    · subst hk
      rw [get_ne hj] at hp
      exact absurd (he.trans (self q hq)) (hob j p hp)
    · rw [get_ne hj] at hp
      rw [get_ne hk] at hq
      exact I.own j k p q hp hq he hpd
  · have hc : (if c = b then false else s.ext c) = true := hc
    split at hc
    · exact absurd hc (by decide)
    · rename_i hne
      obtain ⟨e1, e2⟩ := I.ext c hc
      refine ⟨e1, fun j p hp e => ?_⟩
      by_cases hj : j = i
      · subst hj
        rw [St.put_same] at hp
        obtain rfl := Option.some.inj hp
        omega
      · rw [get_ne hj] at hp
        exact e2 j p hp e
  · by_cases hcb : c = b
    · exact Or.inr ⟨i, o, St.put_same _ _, by omega⟩
    · rcases I.leak c hc with he | ⟨j, p, hp, rfl⟩
      · exact Or.inl (by simp [St.put, hcb, he])
      · refine Or.inr ⟨j, p, ?_, rfl⟩
        have hj : j ≠ i := by
          intro e
          subst e
          have := h p hp
          have := (I.used _ hc).1
          omega
        rw [get_ne hj]
        exact hp
  · have hj : j ≠ i := by simpa using hj
    exact ⟨get_ne hj, fun p hp hpd => ⟨((I.shape j p hp).block hpd).1, rfl, fun _ _ => rfl⟩⟩

/-- An image gets another shape on the same block. -/
theorem good_relabel {i : Nat} {o q : Obj} (I : Inv s) (h : s.obj i = some o) (hd : q.data = o.data) (h0 : o.data ≠ 0)
    (hcc : 0 < q.cc) (hal : 0 < q.align) (hsz : q.height * q.row ≤ o.height * o.row)
    (hw : 0 < q.width) (hh : 0 < q.height) (hrow : RowIs q.width q.cc q.align q.row) :
    Good [i] s (s.put i (some q)) := by
  have so := (I.shape i o h).block h0
  have key : ∀ j p, (s.put i (some q)).obj j = some p → ∃ p', s.obj j = some p' ∧ p'.data = p.data := by
    intro j p hp
    by_cases hj : j = i
    · subst hj
      rw [St.put_same] at hp
      obtain rfl := Option.some.inj hp
      exact ⟨o, h, hd.symm⟩
    · rw [St.put_ne _ hj] at hp
      exact ⟨p, hp, rfl⟩
  refine ⟨⟨fun j p hp => ?_, fun j k p r hp hr he hpd => ?_, fun c hc => ?_, fun c hc => ?_, I.used, I.pos⟩,
    fun j hj => ?_⟩
  · by_cases hj : j = i
    · subst hj
      rw [St.put_same] at hp
      obtain rfl := Option.some.inj hp
      exact ⟨hcc, hal, fun e => absurd (hd ▸ e) h0, fun _ => ⟨by rw [hd]; exact so.1,
        Nat.le_trans hsz (by rw [hd]; exact so.2.1), hw, hh, hrow⟩⟩
    · rw [St.put_ne _ hj] at hp
      have sp := I.shape j p hp
      exact ⟨sp.cc, sp.align, sp.empty, sp.block⟩
  · obtain ⟨p', hp', e1⟩ := key j p hp
    obtain ⟨r', hr', e2⟩ := key k r hr
    exact I.own j k p' r' hp' hr' (by omega) (by omega)
  · obtain ⟨e1, e2⟩ := I.ext c hc
    refine ⟨e1, fun j p hp e => ?_⟩
    obtain ⟨p', hp', e1⟩ := key j p hp
    exact e2 j p' hp' (by omega)
  · rcases I.leak c hc with he | ⟨j, p, hp, rfl⟩
    · exact Or.inl he
    · by_cases hj : j = i
      · subst hj
        rw [h] at hp
        obtain rfl := Option.some.inj hp
        exact Or.inr ⟨j, q, St.put_same _ _, hd⟩
      · exact Or.inr ⟨j, p, by rw [St.put_ne _ hj]; exact hp, rfl⟩
  · have hj : j ≠ i := by simpa using hj
    exact ⟨St.put_ne _ hj, fun p hp hpd => ⟨((I.shape j p hp).block hpd).1, rfl, fun _ _ => rfl⟩⟩

end PV.Buffer
