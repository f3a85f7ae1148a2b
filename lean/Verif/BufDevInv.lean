import Verif.BufDev
/-
  The invariant of images in device memory and how every call keeps it.
-/
namespace PV.BufDev

open PV

variable {α : Type} {s s' : St α}

/-- The invariant. -/
structure Inv (s : St α) : Prop where
  block : ∀ i o, s.obj i = some o → o.data ≠ 0 →
    s.live o.data = true ∧ s.place o.data = placeOf o.type s.active ∧ s.mem.size o.data = o.height * o.row
  own : ∀ i j o p, s.obj i = some o → s.obj j = some p → o.data = p.data → o.data ≠ 0 → i = j
  leak : ∀ b, s.live b = true → ∃ i o, s.obj i = some o ∧ o.data = b
  used : ∀ b, s.live b = true → 0 < b ∧ b < s.next
  pos : 0 < s.next
  align : ∀ i o, s.obj i = some o → 0 < o.align
  reg : ∀ i o, s.obj i = some o → s.reg o.type = true ∧ s.reg 0 = true

theorem inv_start (mem : Mem α) : Inv (start mem) :=
  ⟨fun _ _ h => by simp [start] at h, fun _ _ _ _ h => by simp [start] at h, fun _ h => by simp [start] at h,
    fun _ h => by simp [start] at h, Nat.zero_lt_one, fun _ _ h => by simp [start] at h, fun _ _ h => by simp [start] at h⟩

/-- An image and its elements are the same in both states. -/
def Same (s s' : St α) (j : Nat) : Prop :=
  s'.obj j = s.obj j ∧ ∀ o, s.obj j = some o → o.data ≠ 0 → ∀ k, s'.mem.byte o.data k = s.mem.byte o.data k

/-- The effect of a call on the objects in `P`. -/
structure Good (P : List Nat) (s s' : St α) : Prop where
  inv : Inv s'
  frame : ∀ j, j ∉ P → Same s s' j

theorem Same.trans {s'' : St α} {j : Nat} (a : Same s s' j) (b : Same s' s'' j) : Same s s'' j :=
  ⟨b.1.trans a.1, fun o h hd k => (b.2 o (a.1.trans h) hd k).trans (a.2 o h hd k)⟩

theorem Good.refl (P : List Nat) (I : Inv s) : Good P s s := ⟨I, fun _ _ => ⟨rfl, fun _ _ _ _ => rfl⟩⟩

theorem Good.trans {P : List Nat} {s'' : St α} (a : Good P s s') (b : Good P s' s'') : Good P s s'' :=
  ⟨b.inv, fun j hj => (a.frame j hj).trans (b.frame j hj)⟩

theorem Good.mono {P Q : List Nat} (g : Good P s s') (h : ∀ j, j ∈ P → j ∈ Q) : Good Q s s' :=
  ⟨g.inv, fun j hj => g.frame j fun hp => hj (h j hp)⟩

theorem put_same (s : St α) (i : Nat) (o : Option Obj) : (s.put i o).obj i = o := by simp [St.put]
theorem put_ne (s : St α) {i j : Nat} (o : Option Obj) (h : j ≠ i) : (s.put i o).obj j = s.obj j := by simp [St.put, h]
theorem put_put (s : St α) (i : Nat) (o p : Option Obj) : (s.put i o).put i p = s.put i p := by
  simp only [St.put, St.mk.injEq, and_true]
  funext j
  split <;> simp_all

theorem getObj_run {i : Nat} {o : Obj} (h : s.obj i = some o) : getObj i s = .ok o s := by
  rw [getObj, h]

/-- There is no memory at `i`. -/
def NoData (s : St α) (i : Nat) : Prop := ∀ o, s.obj i = some o → o.data = 0

/-- An image without memory is replaced by one without memory. -/
theorem good_put {i : Nat} {q : Obj} (I : Inv s) (h : NoData s i) (hq : q.data = 0) (ha : 0 < q.align)
    (hr : s.reg q.type = true ∧ s.reg 0 = true) : Good [i] s (s.put i (some q)) := by
  have at_i : ∀ p, (s.put i (some q)).obj i = some p → p = q := fun p hp => by
    rw [put_same] at hp
    exact (Option.some.inj hp).symm
  refine ⟨⟨?_, ?_, ?_, I.used, I.pos, ?_, ?_⟩, fun j hj => ⟨put_ne s _ (by simpa using hj), fun _ _ _ _ => rfl⟩⟩
  · intro j p hp hd
    by_cases hj : j = i
    · subst hj
      rw [at_i p hp] at hd
      exact absurd hq hd
    · rw [put_ne s _ hj] at hp
      exact I.block j p hp hd
  · intro j k p r hp hr he hd
    by_cases hj : j = i
    · subst hj
      rw [at_i p hp] at hd
      exact absurd hq hd
    · by_cases hk : k = i
      · subst hk
        rw [at_i r hr] at he
        rw [he] at hd
        exact absurd hq hd
      · rw [put_ne s _ hj] at hp
        rw [put_ne s _ hk] at hr
        exact I.own j k p r hp hr he hd
  · intro b hb
    obtain ⟨j, p, hp, he⟩ := I.leak b hb
    have hj : j ≠ i := by
      rintro rfl
      have h0 := h p hp
      have := (I.used b hb).1
      omega
    exact ⟨j, p, by rw [put_ne s _ hj]; exact hp, he⟩
  · intro j p hp
    by_cases hj : j = i
    · subst hj
      rw [at_i p hp]
      exact ha
    · rw [put_ne s _ hj] at hp
      exact I.align j p hp
  · intro j p hp
    by_cases hj : j = i
    · subst hj
      rw [at_i p hp]
      exact hr
    · rw [put_ne s _ hj] at hp
      exact I.reg j p hp

/-- An image without memory goes. -/
theorem good_drop {i : Nat} (I : Inv s) (h : NoData s i) : Good [i] s (s.put i none) := by
  have other : ∀ j p, (s.put i none).obj j = some p → j ≠ i ∧ s.obj j = some p := by
    intro j p hp
    by_cases hj : j = i
    · subst hj
      rw [put_same] at hp
      cases hp
    · rw [put_ne s _ hj] at hp
      exact ⟨hj, hp⟩
  refine ⟨⟨fun j p hp => I.block j p (other j p hp).2, fun j k p r hp hr => I.own j k p r (other j p hp).2 (other k r hr).2,
    ?_, I.used, I.pos, fun j p hp => I.align j p (other j p hp).2, fun j p hp => I.reg j p (other j p hp).2⟩,
    fun j hj => ⟨put_ne s _ (by simpa using hj), fun _ _ _ _ => rfl⟩⟩
  intro b hb
  obtain ⟨j, p, hp, he⟩ := I.leak b hb
  have hj : j ≠ i := by
    rintro rfl
    have h0 := h p hp
    have := (I.used b hb).1
    omega
  exact ⟨j, p, by rw [put_ne s _ hj]; exact hp, he⟩

/-! ### `clear` -/

def Obj.cleared (o : Obj) : Obj := { o with data := 0, width := 0, height := 0, row := 0 }

/-- The state after `clear`. -/
def clearSt (s : St α) (i : Nat) (o : Obj) : St α :=
  { s with live := fun c => if o.data ≠ 0 ∧ c = o.data then false else s.live c
           obj := fun j => if j = i then some o.cleared else s.obj j }

theorem clearSt_obj (s : St α) (i : Nat) (o : Obj) : (clearSt s i o).obj i = some o.cleared := by simp [clearSt]
theorem clearSt_obj_ne {i j : Nat} (o : Obj) (h : j ≠ i) : (clearSt s i o).obj j = s.obj j := by simp [clearSt, h]

theorem needReg_run {t : Nat} (h : s.reg t = true) : needReg t s = .ok () s := by
  rw [needReg, if_pos h]

theorem clear_run {i : Nat} {o : Obj} (I : Inv s) (h : s.obj i = some o) :
    clear i s = .ok () (clearSt s i o) := by
  rw [clear, bind_ok (getObj_run h)]
  by_cases hd : o.data = 0
  · rw [if_neg (by simp [hd])]
    show setObj i _ s = _
    simp only [clearSt, hd, ne_eq, not_true_eq_false, false_and, ↓reduceIte]
    rfl
  · obtain ⟨h1, h2, _⟩ := I.block i o h hd
    rw [if_pos hd, bind_ok (show deallocate o.type o.data s = .ok () { s with live := fun c => if c = o.data then false else s.live c } by
      rw [deallocate, bind_ok (needReg_run (I.reg i o h).1), freeNow, if_pos ⟨h1, h2⟩])]
    simp only [clearSt, ne_eq, hd, not_false_eq_true, true_and]
    rfl

theorem good_clear {i : Nat} {o : Obj} (I : Inv s) (h : s.obj i = some o) : Good [i] s (clearSt s i o) := by
  have at_i : ∀ p, (clearSt s i o).obj i = some p → p = o.cleared := fun p hp => by
    rw [clearSt_obj] at hp
    exact (Option.some.inj hp).symm
  refine ⟨⟨?_, ?_, ?_, ?_, I.pos, ?_, ?_⟩, fun j hj => ⟨clearSt_obj_ne o (by simpa using hj), fun _ _ _ _ => rfl⟩⟩
  · intro j p hp hd
    by_cases hj : j = i
    · subst hj
      rw [at_i p hp] at hd
      exact absurd rfl hd
    · rw [clearSt_obj_ne o hj] at hp
      obtain ⟨h1, h2, h3⟩ := I.block j p hp hd
      refine ⟨?_, h2, h3⟩
      have : p.data ≠ o.data := fun e => hj (I.own j i p o hp h e hd)
      simp only [clearSt, this, and_false, ↓reduceIte]
      exact h1
  · intro j k p r hp hr he hd
    by_cases hj : j = i
    · subst hj
      rw [at_i p hp] at hd
      exact absurd rfl hd
    · by_cases hk : k = i
      · subst hk
        rw [at_i r hr] at he
        rw [he] at hd
        exact absurd rfl hd
      · rw [clearSt_obj_ne o hj] at hp
        rw [clearSt_obj_ne o hk] at hr
        exact I.own j k p r hp hr he hd
  · intro b hb
    simp only [clearSt] at hb
    split at hb
    · cases hb
    · rename_i hn
      obtain ⟨j, p, hp, he⟩ := I.leak b hb
      have hj : j ≠ i := by
        rintro rfl
        rw [h] at hp
        cases hp
        have := (I.used b hb).1
        exact hn ⟨by omega, he.symm⟩
      exact ⟨j, p, by rw [clearSt_obj_ne o hj]; exact hp, he⟩
  · intro b hb
    simp only [clearSt] at hb
    split at hb
    · cases hb
    · exact I.used b hb
  · intro j p hp
    by_cases hj : j = i
    · subst hj
      rw [at_i p hp]
      exact I.align j o h
    · rw [clearSt_obj_ne o hj] at hp
      exact I.align j p hp
  · intro j p hp
    by_cases hj : j = i
    · subst hj
      rw [at_i p hp]
      exact I.reg j o h
    · rw [clearSt_obj_ne o hj] at hp
      exact I.reg j p hp

/-! ### Memory for an image -/

/-- The state after an allocation. -/
def allocSt (s : St α) (type n : Nat) : St α := { s with
  mem := { s.mem with size := fun b => if b = s.next then n else s.mem.size b }
  live := fun b => if b = s.next then true else s.live b
  place := fun b => if b = s.next then placeOf type s.active else s.place b
  next := s.next + 1 }

theorem allocate_run {f : Fails} {type n : Nat} (hf : f.alloc = false) (hr : s.reg type = true) :
    allocate f type n s = .ok s.next (allocSt s type n) := by
  rw [allocate, bind_ok (needReg_run hr), allocNow, hf]
  rfl

theorem allocate_throw {f : Fails} {type n : Nat} (hf : f.alloc = true) (hr : s.reg type = true) :
    allocate f type n s = .throw s := by
  rw [allocate, bind_ok (needReg_run hr), allocNow, hf]
  rfl

theorem good_alloc {i n : Nat} {q : Obj} (I : Inv s) (h : NoData s i) (ha : 0 < q.align)
    (hr : s.reg q.type = true ∧ s.reg 0 = true) (hn : n = q.height * q.row) :
    Good [i] s ((allocSt s q.type n).put i (some { q with data := s.next })) := by
  have at_i : ∀ p, ((allocSt s q.type n).put i (some { q with data := s.next })).obj i = some p → p = { q with data := s.next } :=
    fun p hp => by
      rw [put_same] at hp
      exact (Option.some.inj hp).symm
  have old : ∀ j p, s.obj j = some p → p.data ≠ 0 → p.data ≠ s.next := fun j p hp hd e => by
    have := (I.used _ (I.block j p hp hd).1).2
    omega
  refine ⟨⟨?_, ?_, ?_, ?_, Nat.succ_pos _, ?_, ?_⟩, fun j hj => ⟨put_ne _ _ (by simpa using hj), fun _ _ _ _ => rfl⟩⟩
  · intro j p hp hd
    by_cases hj : j = i
    · subst hj
      rw [at_i p hp]
      simp [allocSt, St.put, hn]
    · rw [put_ne _ _ hj] at hp
      obtain ⟨h1, h2, h3⟩ := I.block j p hp hd
      simp [allocSt, St.put, old j p hp hd, h1, h2, h3]
  · intro j k p r hp hr he hd
    by_cases hj : j = i
    · by_cases hk : k = i
      · rw [hj, hk]
      · subst hj
        rw [at_i p hp] at he hd
        rw [put_ne _ _ hk] at hr
        exact absurd he.symm (old k r hr (by rw [← he]; exact hd))
    · rw [put_ne _ _ hj] at hp
      by_cases hk : k = i
      · subst hk
        rw [at_i r hr] at he
        exact absurd he (old j p hp hd)
      · rw [put_ne _ _ hk] at hr
        exact I.own j k p r hp hr he hd
  · intro b hb
    by_cases hb' : b = s.next
    · exact ⟨i, _, put_same _ _ _, hb'.symm⟩
    · simp only [allocSt, St.put, hb', ↓reduceIte] at hb
      obtain ⟨j, p, hp, he⟩ := I.leak b hb
      have hj : j ≠ i := by
        rintro rfl
        have h0 := h p hp
        have := (I.used b hb).1
        omega
      exact ⟨j, p, by rw [put_ne _ _ hj]; exact hp, he⟩
  · intro b hb
    by_cases hb' : b = s.next
    · have := I.pos
      subst hb'
      exact ⟨this, Nat.lt_succ_self _⟩
    · simp only [allocSt, St.put, hb', ↓reduceIte] at hb
      obtain ⟨h1, h2⟩ := I.used b hb
      exact ⟨h1, Nat.lt_succ_of_lt h2⟩
  · intro j p hp
    by_cases hj : j = i
    · subst hj
      rw [at_i p hp]
      exact ha
    · rw [put_ne _ _ hj] at hp
      exact I.align j p hp
  · intro j p hp
    by_cases hj : j = i
    · subst hj
      rw [at_i p hp]
      exact hr
    · rw [put_ne _ _ hj] at hp
      exact I.reg j p hp

/-- Other contents of one block. -/
theorem good_bytes {i : Nat} {o : Obj} {f : Nat → Nat → α} (I : Inv s) (ho : s.obj i = some o) (hd : o.data ≠ 0)
    (hf : ∀ b k, b ≠ o.data → f b k = s.mem.byte b k) : Good [i] s { s with mem := { s.mem with byte := f } } :=
  ⟨⟨I.block, I.own, I.leak, I.used, I.pos, I.align, I.reg⟩, fun j hj => ⟨rfl, fun p hp hpd k => hf _ _ fun e => by
    have : j ≠ i := by simpa using hj
    exact this (I.own j i p o hp ho e hpd)⟩⟩

/-! ### Outcomes of calls -/

/-- Type of device and class are the same. -/
def Kind (o o' : Obj) : Prop := o'.type = o.type ∧ o'.cls = o.cls

theorem Kind.trans {o p q : Obj} (a : Kind o p) (b : Kind p q) : Kind o q := ⟨b.1.trans a.1, b.2.trans a.2⟩

/-- A call on image `i` ends or throws; when it throws and `strict` holds the image has no memory. -/
inductive Ends (strict : Prop) (P : List Nat) (i : Nat) (s : St α) : Res (St α) Unit → Prop where
  | ok {s' : St α} (g : Good P s s') (e : ∃ o o', s.obj i = some o ∧ s'.obj i = some o' ∧ Kind o o') : Ends strict P i s (.ok () s')
  | throw {s' : St α} (g : Good P s s') (e : ∃ o o', s.obj i = some o ∧ s'.obj i = some o' ∧ Kind o o' ∧ (strict → o'.data = 0)) :
      Ends strict P i s (.throw s')

theorem Ends.bind {strict : Prop} {P : List Nat} {i : Nat} {act k : M (St α) Unit} (h : Ends strict P i s (act s))
    (hk : ∀ s' o, Inv s' → s'.obj i = some o → Ends strict P i s' (k s')) : Ends strict P i s ((act >>= fun _ => k) s) := by
  generalize hr : act s = r at h
  cases h with
  | ok g e =>
    rw [bind_ok hr]
    obtain ⟨o, o1, e, e1, k1⟩ := e
    have h2 := hk _ o1 g.inv e1
    generalize hr2 : k _ = r2 at h2
    cases h2 with
    | ok g2 e2 =>
      obtain ⟨o1', o2, e1', e2, k2⟩ := e2
      rw [e1] at e1'
      cases e1'
      exact .ok (g.trans g2) ⟨o, o2, e, e2, k1.trans k2⟩
    | throw g2 e2 =>
      obtain ⟨o1', o2, e1', e2, k2, d2⟩ := e2
      rw [e1] at e1'
      cases e1'
      exact .throw (g.trans g2) ⟨o, o2, e, e2, k1.trans k2, d2⟩
  | throw g e =>
    rw [bind_throw hr]
    exact .throw g e

theorem Ends.weaken {strict : Prop} {P Q : List Nat} {i : Nat} {r : Res (St α) Unit} (h : Ends True P i s r)
    (hPQ : ∀ j, j ∈ P → j ∈ Q) : Ends strict Q i s r := by
  cases h with
  | ok g e => exact .ok (g.mono hPQ) e
  | throw g e =>
    obtain ⟨o, o', h1, h2, h3, h4⟩ := e
    exact .throw (g.mono hPQ) ⟨o, o', h1, h2, h3, fun _ => h4 trivial⟩

theorem Ends.after {strict : Prop} {P : List Nat} {i : Nat} {r : Res (St α) Unit} (h : Ends strict P i s r) :
    ∃ s', BufDev.after r = some s' ∧ Good P s s' ∧ ∃ o o', s.obj i = some o ∧ s'.obj i = some o' ∧ Kind o o' := by
  cases h with
  | ok g e => exact ⟨_, rfl, g, e⟩
  | throw g e =>
    obtain ⟨o, o', h1, h2, h3, _⟩ := e
    exact ⟨_, rfl, g, o, o', h1, h2, h3⟩

theorem clear_ends {i : Nat} {o : Obj} (I : Inv s) (h : s.obj i = some o) : Ends True [i] i s (clear i s) := by
  rw [clear_run I h]
  exact .ok (good_clear I h) ⟨o, _, h, clearSt_obj s i o, rfl, rfl⟩

theorem noData_clear (i : Nat) (o : Obj) : NoData (clearSt s i o) i := fun p hp => by
  rw [clearSt_obj] at hp
  rw [← Option.some.inj hp]
  rfl

theorem setColorCount_ends {i cc : Nat} {o : Obj} (I : Inv s) (h : s.obj i = some o) :
    Ends True [i] i s (setColorCount i cc s) := by
  rw [setColorCount, bind_ok (getObj_run h)]
  split
  · rw [bind_ok (clear_run I h), bind_ok (getObj_run (clearSt_obj s i o))]
    have g := good_clear I h
    exact .ok (g.trans (good_put g.inv (noData_clear i o) rfl (I.align i o h) (I.reg i o h))) ⟨o, _, h, put_same _ _ _, rfl, rfl⟩
  · exact .ok (Good.refl _ I) ⟨o, o, h, h, rfl, rfl⟩

theorem setAlignment_ends {i align : Nat} {o : Obj} (I : Inv s) (h : s.obj i = some o) :
    Ends True [i] i s (setAlignment i align s) := by
  rw [setAlignment, bind_ok (getObj_run h)]
  split
  · rename_i hc
    rw [bind_ok (clear_run I h), bind_ok (getObj_run (clearSt_obj s i o))]
    have g := good_clear I h
    exact .ok (g.trans (good_put g.inv (noData_clear i o) rfl hc.1 (I.reg i o h))) ⟨o, _, h, put_same _ _ _, rfl, rfl⟩
  · exact .ok (Good.refl _ I) ⟨o, o, h, h, rfl, rfl⟩

/-- The row size that is computed. -/
def rowOf (w cc align : Nat) : Nat :=
  if u32 (w * cc) % align ≠ 0 then u32 (u32 (u32 (w * cc) / align + 1) * align) else u32 (w * cc)

theorem rowSize_run {w cc align : Nat} (h : 0 < align) : (rowSize w cc align : M (St α) Nat) = pure (rowOf w cc align) := by
  rw [rowSize, if_neg (by omega), rowOf]

/-- The image after `resize` without memory. -/
def Obj.sized (o : Obj) (w h : Nat) : Obj :=
  { o with width := w, height := h, row := rowOf w o.cc o.align, data := 0 }

/-- The state after a `resize` whose allocation failed. -/
def failedSt (s : St α) (i : Nat) (o : Obj) (w h : Nat) : St α := (clearSt s i o).put i (some (o.sized w h))

/-- The state after `resize`. -/
def resizedSt (s : St α) (i : Nat) (o : Obj) (w h : Nat) : St α :=
  (allocSt (failedSt s i o w h) o.type (h * rowOf w o.cc o.align)).put i (some { o.sized w h with data := s.next })

theorem resize_run {f : Fails} {i w h : Nat} {o : Obj} (I : Inv s) (ho : s.obj i = some o)
    (hc : 0 < w ∧ 0 < h ∧ (w ≠ o.width ∨ h ≠ o.height)) :
    resize f i w h s = if f.alloc then .throw (failedSt s i o w h) else .ok () (resizedSt s i o w h) := by
  rw [resize, bind_ok (getObj_run ho), if_pos hc, bind_ok (clear_run I ho), bind_ok (getObj_run (clearSt_obj s i o)),
    rowSize_run (show 0 < o.cleared.align from I.align i o ho), pure_bind',
    bind_ok (show setObj i { o.cleared with width := w, height := h, row := rowOf w o.cleared.cc o.cleared.align } (clearSt s i o)
      = .ok () (failedSt s i o w h) from rfl)]
  have hr : (failedSt s i o w h).reg o.cleared.type = true := (I.reg i o ho).1
  cases hf : f.alloc with
  | true => rw [bind_throw (allocate_throw hf hr)]; rfl
  | false => rw [bind_ok (allocate_run hf hr)]; rfl

theorem resize_idle {f : Fails} {i w h : Nat} {o : Obj} (ho : s.obj i = some o)
    (hc : ¬ (0 < w ∧ 0 < h ∧ (w ≠ o.width ∨ h ≠ o.height))) : resize f i w h s = .ok () s := by
  rw [resize, bind_ok (getObj_run ho), if_neg hc]
  rfl

theorem good_failed {i : Nat} {o : Obj} (w h : Nat) (I : Inv s) (ho : s.obj i = some o) : Good [i] s (failedSt s i o w h) := by
  have g := good_clear I ho
  exact g.trans (good_put g.inv (noData_clear i o) rfl (I.align i o ho) (I.reg i o ho))

theorem noData_failed (i : Nat) (o : Obj) (w h : Nat) : NoData (failedSt s i o w h) i := fun p hp => by
  rw [failedSt, put_same] at hp
  rw [← Option.some.inj hp]
  rfl

theorem good_resized {i : Nat} {o : Obj} (w h : Nat) (I : Inv s) (ho : s.obj i = some o) : Good [i] s (resizedSt s i o w h) := by
  have g := good_failed w h I ho
  exact g.trans (good_alloc (q := o.sized w h) g.inv (noData_failed i o w h) (I.align i o ho) (I.reg i o ho) rfl)

theorem resize_ends {f : Fails} {i w h : Nat} {o : Obj} (I : Inv s) (ho : s.obj i = some o) :
    Ends True [i] i s (resize f i w h s) := by
  by_cases hc : 0 < w ∧ 0 < h ∧ (w ≠ o.width ∨ h ≠ o.height)
  · rw [resize_run I ho hc]
    split
    · exact .throw (good_failed w h I ho) ⟨o, _, ho, put_same _ _ _, ⟨rfl, rfl⟩, fun _ => rfl⟩
    · exact .ok (good_resized w h I ho) ⟨o, _, ho, put_same _ _ _, rfl, rfl⟩
  · rw [resize_idle ho hc]
    exact .ok (Good.refl _ I) ⟨o, o, ho, ho, rfl, rfl⟩

theorem shape_ends {f : Fails} {i w h cc align : Nat} {o : Obj} (I : Inv s) (ho : s.obj i = some o) :
    Ends True [i] i s (shape f i w h cc align s) :=
  (setColorCount_ends I ho).bind fun _ _ I ho => (setAlignment_ends I ho).bind fun _ _ I ho => resize_ends I ho

/-- Setting the colour count and alignment of an image which is new. -/
theorem shape_start {f : Fails} {i w h cc align type cls : Nat} (I : Inv s) (ho : s.obj i = some (fresh type cls))
    (hc : 0 < cc) (ha : 0 < align) :
    ∃ t, Inv t ∧ t.next = s.next ∧ t.obj i = some { fresh type cls with cc := cc, align := align } ∧
      shape f i w h cc align s = resize f i w h t := by
  have color : ∃ t, Inv t ∧ t.next = s.next ∧ t.obj i = some { fresh type cls with cc := cc } ∧
      setColorCount i cc s = .ok () t := by
    have e := setColorCount_ends (cc := cc) I ho
    by_cases h1 : cc = 1
    · subst h1
      refine ⟨s, I, rfl, ho, ?_⟩
      rw [setColorCount, bind_ok (getObj_run ho)]
      rfl
    · have hr : setColorCount i cc s = .ok () ((clearSt s i (fresh type cls)).put i (some { fresh type cls with cc := cc })) := by
        rw [setColorCount, bind_ok (getObj_run ho), if_pos ⟨hc, fun h => h1 h.symm⟩, bind_ok (clear_run I ho),
          bind_ok (getObj_run (clearSt_obj s i _))]
        rfl
      rw [hr] at e
      obtain ⟨s', e', g, -⟩ := e.after
      cases Option.some.inj e'
      exact ⟨_, g.inv, rfl, put_same _ _ _, hr⟩
  obtain ⟨t, It, hn, ht, er⟩ := color
  have al : ∃ u, Inv u ∧ u.next = t.next ∧ u.obj i = some { fresh type cls with cc := cc, align := align } ∧
      setAlignment i align t = .ok () u := by
    have e := setAlignment_ends (align := align) It ht
    by_cases h1 : align = 1
    · subst h1
      refine ⟨t, It, rfl, ht, ?_⟩
      rw [setAlignment, bind_ok (getObj_run ht)]
      rfl
    · have hr : setAlignment i align t = .ok () ((clearSt t i { fresh type cls with cc := cc }).put i
          (some { fresh type cls with cc := cc, align := align })) := by
        rw [setAlignment, bind_ok (getObj_run ht), if_pos ⟨ha, h1⟩, bind_ok (clear_run It ht),
          bind_ok (getObj_run (clearSt_obj t i _))]
        rfl
      rw [hr] at e
      obtain ⟨s', e', g, -⟩ := e.after
      cases Option.some.inj e'
      exact ⟨_, g.inv, rfl, put_same _ _ _, hr⟩
  obtain ⟨u, Iu, hu, hou, eu⟩ := al
  exact ⟨u, Iu, hu.trans hn, hou, by rw [shape, bind_ok er, bind_ok eu]⟩

theorem shape_new {i w h cc align type cls : Nat} (I : Inv s) (ho : s.obj i = some (fresh type cls))
    (hw : 0 < w) (hh : 0 < h) (hc : 0 < cc) (ha : 0 < align) :
    ∃ s', shape noFail i w h cc align s = .ok () s' ∧
      s'.obj i = some ⟨w, h, cc, align, rowOf w cc align, s.next, type, cls⟩ := by
  obtain ⟨t, It, hn, ht, e⟩ := shape_start (f := noFail) (w := w) (h := h) I ho hc ha
  rw [e, resize_run It ht ⟨hw, hh, Or.inl (Nat.pos_iff_ne_zero.mp hw)⟩]
  refine ⟨_, rfl, ?_⟩
  rw [resizedSt, put_same, hn]
  rfl

theorem shape_empty {f : Fails} {i w h cc align type cls : Nat} (I : Inv s) (ho : s.obj i = some (fresh type cls))
    (hw : w = 0 ∨ h = 0) (hc : 0 < cc) (ha : 0 < align) :
    ∃ s', shape f i w h cc align s = .ok () s' ∧ s'.obj i = some ⟨0, 0, cc, align, 0, 0, type, cls⟩ := by
  obtain ⟨t, It, hn, ht, e⟩ := shape_start (f := f) (w := w) (h := h) I ho hc ha
  rw [e, resize_idle ht (by omega)]
  exact ⟨t, rfl, ht⟩

/-! ### `copy` -/

/-- The state after copying an image without memory, or when the allocation for the copy failed. -/
def copyFailedSt (s : St α) (i : Nat) (o p : Obj) : St α :=
  (clearSt s i o).put i (some { p with data := 0, type := o.type, cls := o.cls })

/-- The state when there is memory for the copy. -/
def copyRoomSt (s : St α) (i : Nat) (o p : Obj) : St α :=
  (allocSt (copyFailedSt s i o p) o.type (p.height * p.row)).put i (some { p with data := s.next, type := o.type, cls := o.cls })

/-- The state after the copy. -/
def copySt (s : St α) (i : Nat) (o p : Obj) : St α :=
  let t := copyRoomSt s i o p
  { t with mem := { t.mem with byte := fun b k =>
      if b = s.next ∧ k < p.height * p.row then t.mem.byte p.data k else t.mem.byte b k } }

theorem copy_throw {f : Fails} {i j : Nat} {o p : Obj} (ho : s.obj i = some o) (hp : s.obj j = some p)
    (ht : o.type ≠ p.type) : copy f i j s = .throw s := by
  rw [copy, bind_ok (getObj_run ho), bind_ok (getObj_run hp)]
  have : (o.type != p.type) = true := by simpa using ht
  rw [this]
  rfl

theorem good_copyFailed {i : Nat} {o p : Obj} (I : Inv s) (ho : s.obj i = some o) (hp : 0 < p.align) :
    Good [i] s (copyFailedSt s i o p) := by
  have g := good_clear I ho
  exact g.trans (good_put g.inv (noData_clear i o) rfl hp (I.reg i o ho))

theorem noData_copyFailed (i : Nat) (o p : Obj) : NoData (copyFailedSt s i o p) i := fun q hq => by
  rw [copyFailedSt, put_same] at hq
  rw [← Option.some.inj hq]

theorem good_copyRoom {i : Nat} {o p : Obj} (I : Inv s) (ho : s.obj i = some o) (hp : 0 < p.align) :
    Good [i] s (copyRoomSt s i o p) := by
  have g := good_copyFailed (p := p) I ho hp
  exact g.trans (good_alloc (q := { p with data := 0, type := o.type, cls := o.cls }) g.inv (noData_copyFailed i o p) hp (I.reg i o ho) rfl)

theorem copyRoom_obj (s : St α) (i : Nat) (o p : Obj) :
    (copyRoomSt s i o p).obj i = some { p with data := s.next, type := o.type, cls := o.cls } := put_same _ _ _

theorem copyRoom_obj_ne {i j : Nat} (o p : Obj) (h : j ≠ i) : (copyRoomSt s i o p).obj j = s.obj j := by
  rw [copyRoomSt, put_ne _ _ h]
  show (copyFailedSt s i o p).obj j = _
  rw [copyFailedSt, put_ne _ _ h, clearSt_obj_ne o h]

/-- `copy` of another image. -/
theorem copy_run {f : Fails} {i j : Nat} {o p : Obj} (I : Inv s) (ho : s.obj i = some o) (hp : s.obj j = some p)
    (hij : i ≠ j) (ht : o.type = p.type) :
    copy f i j s = if p.data = 0 then .ok () (copyFailedSt s i o p)
      else if f.alloc then .throw (copyFailedSt s i o p)
      else if f.copy then .throw (copyRoomSt s i o p) else .ok () (copySt s i o p) := by
  have hji : j ≠ i := Ne.symm hij
  rw [copy, bind_ok (getObj_run ho), bind_ok (getObj_run hp)]
  have h0 : (o.type != p.type) = false := by simpa using ht
  rw [h0, bind_ok (show throwIf false s = .ok () s from rfl), bind_ok (clear_run I ho), bind_ok (getObj_run (clearSt_obj s i o)),
    bind_ok (getObj_run (show (clearSt s i o).obj j = some p by rw [clearSt_obj_ne o hji]; exact hp)),
    bind_ok (show setObj i { o.cleared with width := p.width, height := p.height, cc := p.cc, row := p.row, align := p.align } (clearSt s i o)
      = .ok () (copyFailedSt s i o p) from rfl),
    bind_ok (getObj_run (show (copyFailedSt s i o p).obj j = some p by
      rw [copyFailedSt, put_ne _ _ hji, clearSt_obj_ne o hji]; exact hp))]
  by_cases hd : p.data = 0
  · rw [if_neg (by simp [hd]), if_pos hd]
    rfl
  · have hr : (copyFailedSt s i o p).reg o.cleared.type = true := (I.reg i o ho).1
    rw [if_pos hd, if_neg hd]
    cases hf : f.alloc with
    | true => rw [bind_throw (allocate_throw hf hr)]; rfl
    | false =>
      rw [bind_ok (allocate_run hf hr)]
      refine (bind_ok (show setObj i { p with data := s.next, type := o.type, cls := o.cls }
        (allocSt (copyFailedSt s i o p) o.type (p.height * p.row)) = .ok () (copyRoomSt s i o p) from rfl)).trans ?_
      rw [bind_ok (getObj_run (show (copyRoomSt s i o p).obj j = some p by rw [copyRoom_obj_ne o p hji]; exact hp))]
      show copyBlock f o.type s.next p.data (p.height * p.row) (copyRoomSt s i o p) = _
      rw [copyBlock, bind_ok (needReg_run (show (copyRoomSt s i o p).reg o.type = true from (I.reg i o ho).1)), copyNow]
      cases hc : f.copy with
      | true => rfl
      | false =>
        have G := (good_copyRoom (p := p) I ho (I.align j p hp)).inv
        have hn : s.next ≠ 0 := by have := I.pos; omega
        obtain ⟨a1, a2, a3⟩ := G.block i _ (copyRoom_obj s i o p) hn
        obtain ⟨b1, b2, b3⟩ := G.block j p (by rw [copyRoom_obj_ne o p hji]; exact hp) hd
        have hne : s.next ≠ p.data := fun e => by
          have := (I.used _ (I.block j p hp hd).1).2
          omega
        rw [if_neg (by simp), if_pos ⟨a1, b1, a2, by rw [ht]; exact b2, Nat.le_of_eq a3.symm, Nat.le_of_eq b3.symm, hne⟩]
        rfl

theorem good_copySt {i j : Nat} {o p : Obj} (I : Inv s) (ho : s.obj i = some o) (hp : s.obj j = some p) :
    Good [i] s (copySt s i o p) := by
  have g := good_copyRoom (p := p) I ho (I.align j p hp)
  refine g.trans (good_bytes g.inv (copyRoom_obj s i o p) (by have := I.pos; show s.next ≠ 0; omega) fun b k hb => ?_)
  exact if_neg fun h => hb h.1

/-- `copy` of an image to itself. -/
theorem copy_self {f : Fails} {i : Nat} {o : Obj} (I : Inv s) (ho : s.obj i = some o) :
    copy f i i s = .ok () (clearSt s i o) := by
  rw [copy, bind_ok (getObj_run ho), bind_ok (getObj_run ho)]
  have h0 : (o.type != o.type) = false := by simp
  rw [h0, bind_ok (show throwIf false s = .ok () s from rfl), bind_ok (clear_run I ho), bind_ok (getObj_run (clearSt_obj s i o)),
    bind_ok (getObj_run (clearSt_obj s i o))]
  refine (bind_ok (show setObj i o.cleared (clearSt s i o) = .ok () ((clearSt s i o).put i (some o.cleared)) from rfl)).trans ?_
  rw [bind_ok (getObj_run (put_same _ _ _)), if_neg (by simp [Obj.cleared])]
  refine congrArg (Res.ok ()) ?_
  simp only [St.put, clearSt, St.mk.injEq, and_true]
  funext j
  split <;> simp_all

theorem copy_ends {f : Fails} {i j : Nat} {o p : Obj} (I : Inv s) (ho : s.obj i = some o) (hp : s.obj j = some p) :
    Ends (f.copy = false ∧ NoData s i) [i] i s (copy f i j s) := by
  by_cases hij : i = j
  · subst hij
    rw [copy_self I ho]
    exact .ok (good_clear I ho) ⟨o, _, ho, clearSt_obj s i o, rfl, rfl⟩
  · by_cases ht : o.type = p.type
    · rw [copy_run I ho hp hij ht]
      have hpa := I.align j p hp
      split
      · exact .ok (good_copyFailed I ho hpa) ⟨o, _, ho, put_same _ _ _, rfl, rfl⟩
      · split
        · exact .throw (good_copyFailed I ho hpa) ⟨o, _, ho, put_same _ _ _, ⟨rfl, rfl⟩, fun _ => rfl⟩
        · split
          · rename_i h3
            exact .throw (good_copyRoom I ho hpa) ⟨o, _, ho, copyRoom_obj s i o p, ⟨rfl, rfl⟩, fun h => by simp [h.1] at h3⟩
          · exact .ok (good_copySt I ho hp) ⟨o, _, ho, copyRoom_obj s i o p, rfl, rfl⟩
    · rw [copy_throw ho hp ht]
      exact .throw (Good.refl _ I) ⟨o, o, ho, ho, ⟨rfl, rfl⟩, fun h => h.2 o ho⟩

/-! ### `swap` -/

/-- The state after `swap`. -/
def swapSt (s : St α) (i j : Nat) (o p : Obj) : St α :=
  (s.put i (some { p with cls := o.cls })).put j (some { o with cls := p.cls })

theorem swap_run {i j : Nat} {o p : Obj} (ho : s.obj i = some o) (hp : s.obj j = some p) :
    swap i j s = .ok () (swapSt s i j o p) := by
  rw [swap, bind_ok (getObj_run ho), bind_ok (getObj_run hp),
    bind_ok (show setObj i _ s = .ok () (s.put i (some { p with cls := o.cls })) from rfl)]
  by_cases hij : j = i
  · subst hij
    rw [ho] at hp
    cases hp
    rw [bind_ok (getObj_run (put_same _ _ _))]
    rfl
  · rw [bind_ok (getObj_run (show (s.put i (some { p with cls := o.cls })).obj j = some p by rw [put_ne _ _ hij]; exact hp))]
    rfl

/-- Each object after `swap` has the members of an object before it, up to the class. -/
theorem swapSt_obj {i j k : Nat} {o p q : Obj} (ho : s.obj i = some o) (hp : s.obj j = some p)
    (h : (swapSt s i j o p).obj k = some q) :
    ∃ k' q', s.obj k' = some q' ∧ q = { q' with cls := q.cls } ∧
      ((k = j ∧ k' = i) ∨ (k = i ∧ k ≠ j ∧ k' = j) ∨ (k ≠ i ∧ k ≠ j ∧ k' = k)) := by
  by_cases hj : k = j
  · subst hj
    rw [swapSt, put_same] at h
    obtain rfl := Option.some.inj h
    exact ⟨i, o, ho, rfl, Or.inl ⟨rfl, rfl⟩⟩
  · rw [swapSt, put_ne _ _ hj] at h
    by_cases hi : k = i
    · subst hi
      rw [put_same] at h
      obtain rfl := Option.some.inj h
      exact ⟨j, p, hp, rfl, Or.inr (Or.inl ⟨rfl, hj, rfl⟩)⟩
    · rw [put_ne _ _ hi] at h
      exact ⟨k, q, h, rfl, Or.inr (Or.inr ⟨hi, hj, rfl⟩)⟩

theorem swapSt_at {i j : Nat} {o p : Obj} (ho : s.obj i = some o) (hp : s.obj j = some p) {k' : Nat} {q' : Obj}
    (h : s.obj k' = some q') : ∃ k q, (swapSt s i j o p).obj k = some q ∧ q = { q' with cls := q.cls } := by
  by_cases hi : k' = i
  · subst hi
    rw [ho] at h
    cases h
    exact ⟨j, _, put_same _ _ _, rfl⟩
  · by_cases hj : k' = j
    · subst hj
      rw [hp] at h
      cases h
      exact ⟨i, _, by rw [swapSt, put_ne _ _ (Ne.symm hi), put_same], rfl⟩
    · exact ⟨k', q', by rw [swapSt, put_ne _ _ hj, put_ne _ _ hi]; exact h, rfl⟩

theorem good_swap {i j : Nat} {o p : Obj} (I : Inv s) (ho : s.obj i = some o) (hp : s.obj j = some p) :
    Good [i, j] s (swapSt s i j o p) := by
  refine ⟨⟨?_, ?_, ?_, I.used, I.pos, ?_, ?_⟩, fun k hk => ⟨?_, fun _ _ _ _ => rfl⟩⟩
  · intro k q hq hd
    obtain ⟨k', q', h1, h2, _⟩ := swapSt_obj ho hp hq
    rw [h2] at hd ⊢
    exact I.block k' q' h1 hd
  · intro k l q r hq hr he hd
    obtain ⟨k', q', h1, h2, h3⟩ := swapSt_obj ho hp hq
    obtain ⟨l', r', h4, h5, h6⟩ := swapSt_obj ho hp hr
    rw [h2] at he hd
    rw [h5] at he
    have := I.own k' l' q' r' h1 h4 he hd
    omega
  · intro b hb
    obtain ⟨k', q', h1, h2⟩ := I.leak b hb
    obtain ⟨k, q, h3, h4⟩ := swapSt_at ho hp h1
    exact ⟨k, q, h3, by rw [h4]; exact h2⟩
  · intro k q hq
    obtain ⟨k', q', h1, h2, _⟩ := swapSt_obj ho hp hq
    rw [h2]
    exact I.align k' q' h1
  · intro k q hq
    obtain ⟨k', q', h1, h2, _⟩ := swapSt_obj ho hp hq
    rw [h2]
    exact I.reg k' q' h1
  · simp only [List.mem_cons, List.not_mem_nil, or_false, not_or] at hk
    rw [swapSt, put_ne _ _ hk.2, put_ne _ _ hk.1]

/-! ### Constructors and the destructor -/

theorem destroy_run {i : Nat} {o : Obj} (I : Inv s) (h : s.obj i = some o) :
    destroy i s = .ok () ((clearSt s i o).put i none) := by
  rw [destroy, bind_ok (clear_run I h)]
  rfl

theorem good_destroy {i : Nat} {o : Obj} (I : Inv s) (h : s.obj i = some o) : Good [i] s ((clearSt s i o).put i none) := by
  have g := good_clear I h
  exact g.trans (good_drop g.inv (noData_clear i o))

/-- If there is an image `i` in the end it has the kind it had in `t`. -/
def Stays (t s' : St α) (i : Nat) : Prop := ∀ o', s'.obj i = some o' → ∃ o, t.obj i = some o ∧ Kind o o'

theorem Stays.of {t : St α} {i : Nat} (e : ∃ o o', t.obj i = some o ∧ s'.obj i = some o' ∧ Kind o o') : Stays t s' i := by
  obtain ⟨o, o', h1, h2, h3⟩ := e
  intro q hq
  rw [h2] at hq
  cases hq
  exact ⟨o, h1, h3⟩

/-- A new image has the class and the type of device given; `cls` 0 may have any type. -/
def Consistent (s' : St α) (i : Nat) : Prop := ∀ o', s'.obj i = some o' → o'.cls ≠ 0 → o'.type = o'.cls

theorem Stays.consistent {t : St α} {i : Nat} {o : Obj} (h : Stays t s' i) (ho : t.obj i = some o)
    (hc : o.cls ≠ 0 → o.type = o.cls) : Consistent s' i := by
  intro o' ho' h0
  obtain ⟨q, h1, h2⟩ := h o' ho'
  rw [ho] at h1
  cases h1
  rw [h2.1, h2.2]
  exact hc (by rw [← h2.2]; exact h0)

/-- A constructor ends with an object or throws without one. -/
theorem inBase_after {i : Nat} {P : List Nat} {t : St α} {act : M (St α) Unit} (hP : i ∈ P) (g0 : Good P s t)
    (h : Ends True P i t (act s)) : ∃ s', after (inBase i act s) = some s' ∧ Good P s s' ∧ Stays t s' i := by
  rw [inBase]
  generalize act s = r at h
  cases h with
  | ok g e => exact ⟨_, rfl, g0.trans g, Stays.of e⟩
  | throw g e =>
    refine ⟨_, rfl, (g0.trans g).trans ((good_drop g.inv fun o ho => ?_).mono (by simpa using hP)), fun o' h => ?_⟩
    · obtain ⟨_, o', _, h1, _, h2⟩ := e
      rw [h1] at ho
      cases ho
      exact h2 trivial
    · rw [put_same] at h
      cases h

theorem inDerived_after {i : Nat} {strict : Prop} {P : List Nat} {t : St α} {act : M (St α) Unit} (hP : i ∈ P) (g0 : Good P s t)
    (h : Ends strict P i t (act s)) : ∃ s', after (inDerived i act s) = some s' ∧ Good P s s' ∧ Stays t s' i := by
  rw [inDerived]
  generalize act s = r at h
  cases h with
  | ok g e => exact ⟨_, rfl, g0.trans g, Stays.of e⟩
  | throw g e =>
    obtain ⟨_, o, _, h1, _⟩ := e
    simp only [destroy_run g.inv h1]
    refine ⟨_, rfl, (g0.trans g).trans ((good_destroy g.inv h1).mono (by simpa using hP)), fun o' h => ?_⟩
    rw [put_same] at h
    cases h

/-- The state after the default constructor of the base class. -/
def baseSt (s : St α) (i cls : Nat) : St α :=
  { s.put i (some (fresh 0 cls)) with reg := fun t => if t = 0 then true else s.reg t }

theorem defaultBase_run (i cls : Nat) : defaultBase i cls s = .ok () (baseSt s i cls) := rfl

theorem base_obj (s : St α) (i cls : Nat) : (baseSt s i cls).obj i = some (fresh 0 cls) := put_same _ _ _

theorem Inv.register (I : Inv s) (t : Nat) : Inv { s with reg := fun u => if u = t then true else s.reg u } :=
  ⟨I.block, I.own, I.leak, I.used, I.pos, I.align, fun i o h => by
    obtain ⟨h1, h2⟩ := I.reg i o h
    show (if _ then _ else _) = _ ∧ (if _ then _ else _) = _
    rw [h1, h2]
    simp⟩

theorem good_base {i cls : Nat} (I : Inv s) (hi : s.obj i = none) : Good [i] s (baseSt s i cls) := by
  have g := good_put (i := i) (q := fresh 0 cls) (I.register 0) (fun o ho => by rw [show s.obj i = some o from ho] at hi; cases hi)
    rfl Nat.one_pos ⟨rfl, rfl⟩
  exact ⟨g.inv, g.frame⟩

/-- The state of a derived class before its shape is set. -/
def derivedSt (s : St α) (i cls type : Nat) : St α :=
  { (baseSt s i cls).put i (some (fresh type cls)) with reg := fun t => if t = type then true else if t = 0 then true else s.reg t }

theorem good_derived {i cls type : Nat} (I : Inv s) (hi : s.obj i = none) : Good [i] s (derivedSt s i cls type) := by
  have g0 := good_base (cls := cls) I hi
  have g := good_put (i := i) (q := fresh type cls) (g0.inv.register type) (fun o ho => by
      have : (baseSt s i cls).obj i = some (fresh 0 cls) := put_same _ _ _
      rw [show (baseSt s i cls).obj i = some o from ho] at this
      rw [Option.some.inj this]
      rfl)
    rfl Nat.one_pos 
      ⟨show (if type = type then true else _) = true from if_pos rfl, by
        show (if 0 = type then true else if (0 : Nat) = 0 then true else s.reg 0) = true
        simp⟩
  exact ⟨g.inv, fun j hj => (g0.frame j hj).trans (g.frame j hj)⟩

theorem construct_after {f : Fails} {cls i w h cc align : Nat} (I : Inv s) (hi : s.obj i = none) :
    ∃ s', after (construct f cls i w h cc align s) = some s' ∧ Good [i] s s' ∧ Consistent s' i := by
  rw [construct]
  split
  · refine (fun ⟨s', h1, h2, h3⟩ => ⟨s', h1, h2, h3.consistent (put_same _ _ _) fun h => absurd rfl h⟩)
      (inBase_after (t := baseSt s i 0) (by simp) (good_base I hi) ?_)
    rw [bind_ok (defaultBase_run i 0)]
    exact shape_ends (good_base I hi).inv (put_same _ _ _)
  · refine (fun ⟨s', h1, h2, h3⟩ => ⟨s', h1, h2, h3.consistent (put_same _ _ _) fun _ => rfl⟩)
      (inDerived_after (strict := True) (t := derivedSt s i cls cls) (by simp) (good_derived I hi) ?_)
    rw [bind_ok (defaultBase_run i cls), bind_ok (show setObj i _ _ = .ok () ((baseSt s i cls).put i (some (fresh cls cls))) from rfl),
      bind_ok (show register cls _ = .ok () (derivedSt s i cls cls) from rfl)]
    exact shape_ends (good_derived I hi).inv (put_same _ _ _)

theorem generate_after {f : Fails} {i j w h cc align : Nat} {p : Obj} (I : Inv s) (hi : s.obj i = none) (hp : s.obj j = some p) :
    ∃ s', after (generate f i j w h cc align s) = some s' ∧ Good [i] s s' ∧ Consistent s' i := by
  rw [generate, bind_ok (getObj_run hp)]
  have g0 := good_base (cls := 0) I hi
  have g : Good [i] (baseSt s i 0) ((baseSt s i 0).put i (some (fresh p.type 0))) := by
    refine good_put g0.inv (fun o ho => ?_) rfl Nat.one_pos ?_
    · rw [show (baseSt s i 0).obj i = some (fresh 0 0) from put_same _ _ _] at ho
      rw [← Option.some.inj ho]
      rfl
    · refine ⟨?_, rfl⟩
      show (if _ then _ else _) = _
      split
      · rfl
      · exact (I.reg j p hp).1
  refine (fun ⟨s', h1, h2, h3⟩ => ⟨s', h1, h2, h3.consistent (put_same _ _ _) fun h => absurd rfl h⟩)
    (inDerived_after (strict := True) (t := (baseSt s i 0).put i (some (fresh p.type 0))) (by simp) (g0.trans g) ?_)
  rw [bind_ok (defaultBase_run i 0), bind_ok (show setObj i _ _ = .ok () ((baseSt s i 0).put i (some (fresh p.type 0))) from rfl)]
  exact shape_ends g.inv (put_same _ _ _)

theorem copyConstruct_after {f : Fails} {cls i j : Nat} {p : Obj} (I : Inv s) (hi : s.obj i = none) (hp : s.obj j = some p)
    (hf : cls = 0 → f.copy = false) :
    ∃ s', after (copyConstruct f cls i j s) = some s' ∧ Good [i] s s' ∧ (cls = 0 → Consistent s' i) := by
  have hij : j ≠ i := by
    rintro rfl
    rw [hi] at hp
    cases hp
  rw [copyConstruct]
  split
  · rename_i hc
    have g : Good [i] s (s.put i (some (fresh p.type 0))) :=
      good_put I (fun o ho => by rw [hi] at ho; cases ho) rfl Nat.one_pos (I.reg j p hp)
    refine (fun ⟨s', h1, h2, h3⟩ => ⟨s', h1, h2, fun _ => h3.consistent (put_same _ _ _) fun h => absurd rfl h⟩)
      (inBase_after (t := s.put i (some (fresh p.type 0))) (by simp) g ?_)
    rw [bind_ok (getObj_run hp), bind_ok (show setObj i _ _ = .ok () (s.put i (some (fresh p.type 0))) from rfl)]
    have e := copy_ends (f := f) g.inv (put_same _ _ _) (show (s.put i (some (fresh p.type 0))).obj j = some p by
      rw [put_ne _ _ hij]; exact hp)
    generalize copy f i j _ = r at e
    cases e with
    | ok a b => exact .ok a b
    | throw a b =>
      obtain ⟨o, o', h0, h1, hk, h2⟩ := b
      refine .throw a ⟨o, o', h0, h1, hk, fun _ => h2 ⟨hf hc, fun q hq => ?_⟩⟩
      rw [put_same] at hq
      rw [← Option.some.inj hq]
      rfl
  · rename_i hc
    have g := good_base (cls := cls) I hi
    refine (fun ⟨s', h1, h2, _⟩ => ⟨s', h1, h2, fun h => absurd h hc⟩)
      (inDerived_after (strict := f.copy = false ∧ NoData (baseSt s i cls) i) (t := baseSt s i cls) (by simp) g ?_)
    rw [bind_ok (defaultBase_run i cls)]
    exact copy_ends g.inv (put_same _ _ _) (show (baseSt s i cls).obj j = some p by
      show (s.put i _).obj j = _
      rw [put_ne _ _ hij]; exact hp)

theorem moveConstruct_after {cls i j : Nat} {p : Obj} (I : Inv s) (hi : s.obj i = none) (hp : s.obj j = some p) :
    ∃ s', after (moveConstruct cls i j s) = some s' ∧ Good [i, j] s s' := by
  have hij : j ≠ i := by
    rintro rfl
    rw [hi] at hp
    cases hp
  rw [moveConstruct]
  split
  · have g : Good [i] s (s.put i (some (fresh 0 0))) :=
      good_put I (fun o ho => by rw [hi] at ho; cases ho) rfl Nat.one_pos ⟨(I.reg j p hp).2, (I.reg j p hp).2⟩
    have hp' : (s.put i (some (fresh 0 0))).obj j = some p := by rw [put_ne _ _ hij]; exact hp
    rw [bind_ok (show setObj i _ _ = .ok () (s.put i (some (fresh 0 0))) from rfl), swap_run (put_same _ _ _) hp']
    exact ⟨_, rfl, (g.mono (by simp)).trans (good_swap g.inv (put_same _ _ _) hp')⟩
  · have g := good_base (cls := cls) I hi
    have hp' : (baseSt s i cls).obj j = some p := by
      show (s.put i _).obj j = _
      rw [put_ne _ _ hij]; exact hp
    rw [bind_ok (defaultBase_run i cls), swap_run (base_obj s i cls) hp']
    exact ⟨_, rfl, (g.mono (by simp)).trans (good_swap g.inv (base_obj s i cls) hp')⟩

/-! ### Histories -/

/-- No image has memory of a device. -/
def NoDeviceMemory (s : St α) : Prop := ∀ i o, s.obj i = some o → o.type = 1 ∨ o.type = 3 → o.data = 0

/-- What is asked of calls: objects exist or not, classes fit, the copying of memory does not fail in the copy
    constructor of `ImageTemplate`, and the active device changes only without images on devices. -/
def Legal (s : St α) : Op α → Prop
  | .construct _ _ i _ _ _ _ => s.obj i = none
  | .copyConstruct f cls i j => s.obj i = none ∧ (∃ p, s.obj j = some p ∧ (cls = 0 ∨ p.cls = cls)) ∧ (cls = 0 → f.copy = false)
  | .moveConstruct cls i j => s.obj i = none ∧ ∃ p, s.obj j = some p ∧ (cls = 0 ∨ p.cls = cls)
  | .generate _ i j _ _ _ _ => s.obj i = none ∧ (s.obj j).isSome
  | .copyAssign _ i j => (s.obj i).isSome ∧ (s.obj j).isSome
  | .moveAssign i j => (s.obj i).isSome ∧ (s.obj j).isSome
  | .resize _ i _ _ => (s.obj i).isSome
  | .clear i => (s.obj i).isSome
  | .setColorCount i _ => (s.obj i).isSome
  | .setAlignment i _ => (s.obj i).isSome
  | .fill i _ => (s.obj i).isSome
  | .destroy i => (s.obj i).isSome
  | .write i k _ => ∃ o, s.obj i = some o ∧ o.data ≠ 0 ∧ k < o.height * o.row
  | .activate _ => NoDeviceMemory s

/-- The images a call may change. -/
def Op.objs : Op α → List Nat
  | .construct _ _ i .. => [i]
  | .copyConstruct _ _ i _ => [i]
  | .moveConstruct _ i j => [i, j]
  | .generate _ i .. => [i]
  | .copyAssign _ i _ => [i]
  | .moveAssign i j => [i, j]
  | .resize _ i .. => [i]
  | .clear i => [i]
  | .setColorCount i _ => [i]
  | .setAlignment i _ => [i]
  | .fill i _ => [i]
  | .destroy i => [i]
  | .write i .. => [i]
  | .activate _ => []

theorem fill_ends {splat : Nat → α → α} {i : Nat} {v : α} {o : Obj} (I : Inv s) (h : s.obj i = some o) :
    Ends True [i] i s (fill splat i v s) := by
  rw [fill, bind_ok (getObj_run h)]
  split
  · exact .ok (Good.refl _ I) ⟨o, o, h, h, rfl, rfl⟩
  · rename_i hd
    obtain ⟨h1, h2, h3⟩ := I.block i o h hd
    rw [setBlock, bind_ok (needReg_run (I.reg i o h).1), setNow, if_pos ⟨h1, h2, Nat.le_of_eq h3.symm⟩]
    exact .ok (good_bytes I h hd fun b k hb => if_neg fun h => hb h.1) ⟨o, o, h, h, rfl, rfl⟩

theorem good_activate {d : Nat} (I : Inv s) (h : NoDeviceMemory s) : Good [] s { s with active := d } := by
  refine ⟨⟨fun i o ho hd => ?_, I.own, I.leak, I.used, I.pos, I.align, I.reg⟩, fun _ _ => ⟨rfl, fun _ _ _ _ => rfl⟩⟩
  obtain ⟨h1, h2, h3⟩ := I.block i o ho hd
  refine ⟨h1, ?_, h3⟩
  have hn : ¬ (o.type = 1 ∨ o.type = 3) := fun ht => hd (h i o ho ht)
  show s.place o.data = placeOf o.type d
  rw [h2, placeOf, if_neg hn, placeOf, if_neg hn]

/-- Calls which are not moves and not copy constructions of derived classes. -/
def Op.keepsType : Op α → Prop
  | .moveConstruct .. => False
  | .moveAssign .. => False
  | .copyConstruct _ cls _ _ => cls = 0
  | _ => True

theorem legal_step {splat : Nat → α → α} (I : Inv s) (op : Op α) (hl : Legal s op) :
    ∃ s', after (op.exec splat s) = some s' ∧ Good op.objs s s' ∧
      (op.keepsType → (∀ i, Consistent s i) → ∀ i, Consistent s' i) := by
  have step : ∀ {i : Nat} {P : List Nat} {s' : St α}, (∀ j, j ∉ P → j ≠ i → s'.obj j = s.obj j) → (∀ j, j ∈ P → j = i) →
      Consistent s' i → (∀ i, Consistent s i) → ∀ i, Consistent s' i := by
    intro i P s' hs hP hc h k o ho
    by_cases hk : k = i
    · subst hk
      exact hc o ho
    · rw [hs k (fun hm => hk (hP k hm)) hk] at ho
      exact h k o ho
  have frame : ∀ {i : Nat} {s' : St α}, Good [i] s s' → Consistent s' i → (∀ i, Consistent s i) → ∀ i, Consistent s' i :=
    fun {i} {s'} g => step (P := [i]) (fun j hj _ => (g.frame j hj).1) (by simp)
  have kept : ∀ {i : Nat} {s' : St α}, Good [i] s s' → (∃ o o', s.obj i = some o ∧ s'.obj i = some o' ∧ Kind o o') →
      (∀ i, Consistent s i) → ∀ i, Consistent s' i := by
    intro i s' g e h
    obtain ⟨o, _, ho, _⟩ := id e
    exact frame g ((Stays.of e).consistent ho (h i o ho)) h
  have some_of : ∀ {i : Nat}, (s.obj i).isSome → ∃ o, s.obj i = some o := fun h => Option.isSome_iff_exists.1 h
  cases op with
  | construct f cls i w h cc align =>
    obtain ⟨s', a, b, c⟩ := construct_after (f := f) (cls := cls) (w := w) (h := h) (cc := cc) (align := align) I hl
    exact ⟨s', a, b, fun _ => frame b c⟩
  | copyConstruct f cls i j =>
    obtain ⟨h1, ⟨p, h2, _⟩, h3⟩ := hl
    obtain ⟨s', a, b, c⟩ := copyConstruct_after (cls := cls) I h1 h2 h3
    exact ⟨s', a, b, fun k => frame b (c k)⟩
  | moveConstruct cls i j =>
    obtain ⟨h1, p, h2, _⟩ := hl
    obtain ⟨s', a, b⟩ := moveConstruct_after (cls := cls) I h1 h2
    exact ⟨s', a, b, fun k => k.elim⟩
  | generate f i j w h cc align =>
    obtain ⟨p, h2⟩ := some_of hl.2
    obtain ⟨s', a, b, c⟩ := generate_after (f := f) (w := w) (h := h) (cc := cc) (align := align) I hl.1 h2
    exact ⟨s', a, b, fun _ => frame b c⟩
  | copyAssign f i j =>
    obtain ⟨o, ho⟩ := some_of hl.1
    obtain ⟨p, hp⟩ := some_of hl.2
    obtain ⟨s', a, b, c⟩ := (copy_ends I ho hp).after
    exact ⟨s', a, b, fun _ => kept b c⟩
  | moveAssign i j =>
    obtain ⟨o, ho⟩ := some_of hl.1
    obtain ⟨p, hp⟩ := some_of hl.2
    exact ⟨_, by rw [Op.exec, swap_run ho hp]; rfl, good_swap I ho hp, fun k => k.elim⟩
  | resize f i w h =>
    obtain ⟨o, ho⟩ := some_of hl
    obtain ⟨s', a, b, c⟩ := (resize_ends I ho).after
    exact ⟨s', a, b, fun _ => kept b c⟩
  | clear i =>
    obtain ⟨o, ho⟩ := some_of hl
    obtain ⟨s', a, b, c⟩ := (clear_ends I ho).after
    exact ⟨s', a, b, fun _ => kept b c⟩
  | setColorCount i cc =>
    obtain ⟨o, ho⟩ := some_of hl
    obtain ⟨s', a, b, c⟩ := (setColorCount_ends I ho).after
    exact ⟨s', a, b, fun _ => kept b c⟩
  | setAlignment i align =>
    obtain ⟨o, ho⟩ := some_of hl
    obtain ⟨s', a, b, c⟩ := (setAlignment_ends I ho).after
    exact ⟨s', a, b, fun _ => kept b c⟩
  | fill i v =>
    obtain ⟨o, ho⟩ := some_of hl
    obtain ⟨s', a, b, c⟩ := (fill_ends I ho).after
    exact ⟨s', a, b, fun _ => kept b c⟩
  | destroy i =>
    obtain ⟨o, ho⟩ := some_of hl
    exact ⟨_, by rw [Op.exec, destroy_run I ho]; rfl, good_destroy I ho, fun _ => frame (good_destroy I ho) fun o h => by
      rw [put_same] at h
      cases h⟩
  | write i k v =>
    obtain ⟨o, ho, hd, hk⟩ := hl
    obtain ⟨h1, h2, h3⟩ := I.block i o ho hd
    refine ⟨_, by rw [Op.exec, write, bind_ok (getObj_run ho), storeNow, if_pos ⟨h1, by rw [h3]; exact hk⟩]; rfl,
      good_bytes I ho hd fun b l hb => if_neg fun (h : b = o.data ∧ l = k) => hb h.1, fun _ h => h⟩
  | activate d => exact ⟨_, rfl, good_activate I hl, fun _ h => h⟩

/-- Every call of a sequence meets what is asked of it. -/
def LegalRun (splat : Nat → α → α) : List (Op α) → St α → Prop
  | [], _ => True
  | op :: ops, s => Legal s op ∧ ∀ s', after (op.exec splat s) = some s' → LegalRun splat ops s'

theorem legal_run {splat : Nat → α → α} (ops : List (Op α)) : ∀ {s : St α}, Inv s → LegalRun splat ops s →
    ∃ s', run splat ops s = some s' ∧ Good (ops.flatMap Op.objs) s s' := by
  induction ops with
  | nil => exact fun I _ => ⟨_, rfl, Good.refl _ I⟩
  | cons op ops ih =>
    intro s I hl
    obtain ⟨s1, e1, g1, _⟩ := legal_step I op hl.1
    obtain ⟨s2, e2, g2⟩ := ih g1.inv (hl.2 s1 e1)
    refine ⟨s2, by rw [run, e1]; exact e2, ?_⟩
    exact (g1.mono fun j hj => by simp [hj]).trans (g2.mono fun j hj => by
      rw [List.flatMap_cons]
      exact List.mem_append_right _ hj)

theorem run_consistent {splat : Nat → α → α} (ops : List (Op α)) : ∀ {s s' : St α}, Inv s → LegalRun splat ops s →
    (∀ op, op ∈ ops → op.keepsType) → (∀ i, Consistent s i) → run splat ops s = some s' → ∀ i, Consistent s' i := by
  induction ops with
  | nil =>
    intro s s' _ _ _ h e
    cases e
    exact h
  | cons op ops ih =>
    intro s s' I hl hk h e
    obtain ⟨s1, e1, g1, c1⟩ := legal_step I op hl.1
    rw [run, e1] at e
    exact ih g1.inv (hl.2 s1 e1) (fun o ho => hk o (List.mem_cons_of_mem _ ho)) (c1 (hk op (List.mem_cons_self ..)) h) e

end PV.BufDev
