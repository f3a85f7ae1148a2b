import Verif.BufferInv
/-
  Every call of the image container keeps the storage invariant and leaves all images alone
  which it does not work on.
-/
namespace PV.Buffer

open PV

variable {α : Type} {s s' : St α}

/-- A given value, or the default when it is zero. Not in the code: for statements and proofs. -/
def orOne (n : Nat) : Nat := if n = 0 then 1 else n

theorem orOne_pos (n : Nat) : 0 < orOne n := by
  rw [orOne]
  split <;> omega

/-- The preconditions of the calls: the images exist (and new ones do not), row sizes fit into
    32 bits, a block given to `assign` belongs to the caller and is large enough, `mutate` gets
    a shape whose size fits into 32 bits, elements are written where there are some. -/
def Legal (s : St α) : Op α → Prop
  | .construct i w _ cc align _ => s.obj i = none ∧ ∃ r, RowIs w (orOne cc) (orOne align) r
  | .copyConstruct i j => s.obj i = none ∧ (s.obj j).isSome
  | .moveConstruct i j => s.obj i = none ∧ (s.obj j).isSome
  | .copyAssign i j => (s.obj i).isSome ∧ (s.obj j).isSome
  | .moveAssign i j => (s.obj i).isSome ∧ (s.obj j).isSome
  | .resize i w _ => ∃ o, s.obj i = some o ∧ ∃ r, RowIs w o.cc o.align r
  | .clear i => (s.obj i).isSome
  | .setColorCount i _ => (s.obj i).isSome
  | .setAlignment i _ => (s.obj i).isSome
  | .fill i _ => (s.obj i).isSome
  | .swap i j => (s.obj i).isSome ∧ (s.obj j).isSome
  | .assign i b w h cc align => (s.obj i).isSome ∧
      (b ≠ 0 → 0 < align → s.ext b = true ∧ ∃ r, RowIs w cc align r ∧ h * r ≤ s.mem.size b)
  | .mutate i w h cc align => ∃ o, s.obj i = some o ∧ o.height * o.row < 4294967296 ∧ 0 < w ∧ 0 < h ∧
      (0 < align → ∃ r, RowIs w cc align r ∧ h * r < 4294967296)
  | .destroy i => (s.obj i).isSome
  | .callerBlock _ => True
  | .write i k _ => ∃ o, s.obj i = some o ∧ k < o.height * o.row

/-- The images a call may change. Not in the code: for statements and proofs. -/
def Op.objs : Op α → List Nat
  | .construct i .. => [i]
  | .copyConstruct i _ => [i]
  | .moveConstruct i j => [i, j]
  | .copyAssign i _ => [i]
  | .moveAssign i j => [i, j]
  | .resize i .. => [i]
  | .clear i => [i]
  | .setColorCount i _ => [i]
  | .setAlignment i _ => [i]
  | .fill i _ => [i]
  | .swap i j => [i, j]
  | .assign i .. => [i]
  | .mutate i .. => [i]
  | .destroy i => [i]
  | .callerBlock _ => []
  | .write i .. => [i]

theorem Good.mono {P Q : List Nat} (g : Good P s s') (h : ∀ j, j ∈ P → j ∈ Q) : Good Q s s' :=
  ⟨g.inv, fun j hj => g.frame j fun hp => hj (h j hp)⟩

/-! ### The calls one by one -/

/-- The state after `resize` has done something. Not in the code: for statements and proofs. -/
def resizeSt (s : St α) (i : Nat) (o : Obj) (w h r : Nat) : St α :=
  (allocSt (clearSt s i o) (h * r)).put i (some { o with width := w, height := h, row := r, data := s.next })

theorem resize_run {i w h r : Nat} {o : Obj} (I : Inv s) (ho : s.obj i = some o) (hr : RowIs w o.cc o.align r) :
    resize i w h s = .ok () (if 0 < w ∧ 0 < h ∧ (w ≠ o.width ∨ h ≠ o.height) then resizeSt s i o w h r else s) := by
  rw [resize, bind_ok (getObj_run ho)]
  split
  · rw [bind_ok (clear_run I ho), bind_ok (getObj_run (clearSt_obj s i o)),
      show rowSize w o.cleared.cc o.cleared.align = pure r from rowSize_run (I.shape i o ho).align hr, pure_bind',
      bind_ok (allocate_run _), setObj_run]
    refine congrArg (Res.ok ()) ?_
    rfl
  · rfl

theorem good_resize {i w h r : Nat} {o : Obj} (I : Inv s) (ho : s.obj i = some o) (hr : RowIs w o.cc o.align r)
    (hw : 0 < w) (hh : 0 < h) : Good [i] s (resizeSt s i o w h r) := by
  have g := good_clear I ho
  have so := I.shape i o ho
  refine g.trans (good_attach g.inv (fun p hp => ?_) so.cc so.align rfl (Nat.le_refl _) hw hh hr)
  rw [clearSt_obj] at hp
  obtain rfl := Option.some.inj hp
  rfl

theorem step_resize {i w h r : Nat} {o : Obj} (I : Inv s) (ho : s.obj i = some o) (hr : RowIs w o.cc o.align r) :
    ∃ s', resize i w h s = .ok () s' ∧ Good [i] s s' := by
  refine ⟨_, resize_run I ho hr, ?_⟩
  split
  · rename_i h
    exact good_resize I ho hr h.1 h.2.1
  · exact Good.refl _ I

theorem setColorCount_run {i cc : Nat} {o : Obj} (I : Inv s) (ho : s.obj i = some o) :
    setColorCount i cc s = .ok () (if 0 < cc ∧ o.cc ≠ cc then
      (clearSt s i o).put i (some { o.cleared with cc := cc }) else s) := by
  rw [setColorCount, bind_ok (getObj_run ho)]
  split
  · rw [bind_ok (clear_run I ho), bind_ok (getObj_run (clearSt_obj s i o)), setObj_run]
  · rfl

theorem step_setColorCount {i cc : Nat} {o : Obj} (I : Inv s) (ho : s.obj i = some o) :
    ∃ s', setColorCount i cc s = .ok () s' ∧ Good [i] s s' := by
  refine ⟨_, setColorCount_run I ho, ?_⟩
  split
  · rename_i h
    have g := good_clear I ho
    refine g.trans (good_put g.inv (fun p hp => ?_) h.1 (I.shape i o ho).align rfl ⟨rfl, rfl, rfl⟩)
    rw [clearSt_obj] at hp
    obtain rfl := Option.some.inj hp
    rfl
  · exact Good.refl _ I

theorem setAlignment_run {i align : Nat} {o : Obj} (I : Inv s) (ho : s.obj i = some o) :
    setAlignment i align s = .ok () (if 0 < align ∧ align ≠ o.align then
      (clearSt s i o).put i (some { o.cleared with align := align }) else s) := by
  rw [setAlignment, bind_ok (getObj_run ho)]
  split
  · rw [bind_ok (clear_run I ho), bind_ok (getObj_run (clearSt_obj s i o)), setObj_run]
  · rfl

theorem step_setAlignment {i align : Nat} {o : Obj} (I : Inv s) (ho : s.obj i = some o) :
    ∃ s', setAlignment i align s = .ok () s' ∧ Good [i] s s' := by
  refine ⟨_, setAlignment_run I ho, ?_⟩
  split
  · rename_i h
    have g := good_clear I ho
    refine g.trans (good_put g.inv (fun p hp => ?_) (I.shape i o ho).cc h.1 rfl ⟨rfl, rfl, rfl⟩)
    rw [clearSt_obj] at hp
    obtain rfl := Option.some.inj hp
    rfl
  · exact Good.refl _ I

/-- The constructor: the object afterwards. -/
theorem step_construct {i w h cc align type r : Nat} (I : Inv s) (hi : s.obj i = none)
    (hr : RowIs w (orOne cc) (orOne align) r) :
    ∃ s', construct i w h cc align type s = .ok () s' ∧ Good [i] s s' ∧
      ∃ o, s'.obj i = some o ∧ o.cc = orOne cc ∧ o.align = orOne align ∧ o.type = type ∧
        (0 < w → 0 < h → o.width = w ∧ o.height = h ∧ o.row = r ∧ o.data ≠ 0) ∧
        ((w = 0 ∨ h = 0) → o.data = 0) := by
  rw [construct, bind_ok (setObj_run i _)]
  have g1 : Good [i] s (s.put i (some (fresh type))) :=
    good_put I (fun p hp => by rw [hi] at hp; exact absurd hp (by simp)) Nat.zero_lt_one Nat.zero_lt_one rfl
      ⟨rfl, rfl, rfl⟩
  obtain ⟨s2, e2, g2⟩ := step_setColorCount (cc := cc) g1.inv (St.put_same i (some (fresh type)))
  have o2 : s2.obj i = some { fresh type with cc := orOne cc } := by
    rw [setColorCount_run g1.inv (St.put_same i (some (fresh type)))] at e2
    have e2 := (Res.ok.inj e2).2
    rw [← e2]
    simp only [orOne]
    split
    · rw [St.put_same]
      rename_i h
      rw [if_neg (by omega)]
      rfl
    · rename_i h
      rw [St.put_same]
      by_cases hc : cc = 0
      · rw [if_pos hc]
        rfl
      · have : cc = 1 := by
          have := Decidable.not_and_iff_not_or_not.mp h
          simp only [fresh] at this
          omega
        subst this
        rfl
  obtain ⟨s3, e3, g3⟩ := step_setAlignment (align := align) g2.inv o2
  have o3 : s3.obj i = some { fresh type with cc := orOne cc, align := orOne align } := by
    rw [setAlignment_run g2.inv o2] at e3
    have e3 := (Res.ok.inj e3).2
    rw [← e3]
    rw [orOne.eq_def align]
    split
    · rw [St.put_same]
      rename_i h
      rw [if_neg (by omega)]
      rfl
    · rename_i h
      rw [o2]
      by_cases hc : align = 0
      · rw [if_pos hc]
        rfl
      · have : align = 1 := by
          have := Decidable.not_and_iff_not_or_not.mp h
          simp only [fresh] at this
          omega
        subst this
        rfl
  have e4 := resize_run (h := h) g3.inv o3 hr
  rw [bind_ok e2, bind_ok e3]
  refine ⟨_, e4, ?_, ?_⟩
  · refine ((g1.trans g2).trans g3).trans ?_
    split
    · rename_i hh
      exact good_resize g3.inv o3 hr hh.1 hh.2.1
    · exact Good.refl _ g3.inv
  · by_cases hwh : 0 < w ∧ 0 < h
    · rw [if_pos ⟨hwh.1, hwh.2, Or.inl (by simp only [fresh]; omega)⟩]
      refine ⟨_, St.put_same _ _, rfl, rfl, rfl, fun _ _ => ⟨rfl, rfl, rfl, ?_⟩, fun e => by omega⟩
      have := g3.inv.pos
      simp only
      omega
    · rw [if_neg fun e => hwh ⟨e.1, e.2.1⟩]
      exact ⟨_, o3, rfl, rfl, rfl, fun a b => absurd ⟨a, b⟩ hwh, fun _ => rfl⟩

/-- The state after a copy of a non-empty image. Not in the code: for statements and proofs. -/
def copySt (s : St α) (i : Nat) (o p : Obj) : St α :=
  let t := (allocSt (clearSt s i o) (p.height * p.row)).put i (some { p with data := s.next, type := o.type })
  { t with mem := { t.mem with byte := fun b k =>
      if b = s.next ∧ k < p.height * p.row then s.mem.byte p.data k else s.mem.byte b k } }

theorem copy_run {i j : Nat} {o p : Obj} (I : Inv s) (ho : s.obj i = some o) (hp : s.obj j = some p) (hij : i ≠ j)
    (ht : o.type = p.type) (hd : p.data ≠ 0) : copy i j s = .ok () (copySt s i o p) := by
  have hp1 : (clearSt s i o).obj j = some p := by rw [clearSt_obj_ne o (Ne.symm hij)]; exact hp
  rw [copy, bind_ok (getObj_run ho), bind_ok (getObj_run hp), show (o.type != p.type) = false by simp [ht],
    throwIf_false, pure_bind', bind_ok (clear_run I ho), bind_ok (getObj_run (clearSt_obj s i o)),
    bind_ok (getObj_run hp1), bind_ok (setObj_run i _)]
  have hp2 : ∀ q : Option Obj, ((clearSt s i o).put i q).obj j = some p := fun q => by
    rw [St.put_ne _ (Ne.symm hij)]
    exact hp1
  rw [bind_ok (getObj_run (hp2 _)), if_pos hd, bind_ok (allocate_run _), bind_ok (setObj_run i _)]
  have hp3 : ∀ (q q' : Option Obj) n, ((allocSt ((clearSt s i o).put i q) n).put i q').obj j = some p := fun q q' n => by
    rw [St.put_ne _ (Ne.symm hij)]
    exact hp2 q
  rw [bind_ok (getObj_run (hp3 _ _ _)), copyBlock, if_pos]
  · refine congrArg (Res.ok ()) ?_
    simp only [copySt, St.put, allocSt, clearSt, St.mk.injEq, and_true, Obj.cleared]
    refine ⟨?_, rfl, rfl⟩
    funext k
    split <;> simp_all
  · obtain ⟨b1, b2, b3⟩ := (I.shape j p hp).block hd
    have hne : p.data ≠ s.next := by have := (I.used _ b1).2; omega
    have hno : p.data ≠ o.data := fun e => hij (I.own j i p o hp ho e hd).symm
    refine ⟨?_, ?_, ?_, ?_, ?_⟩
    · simp [St.put, allocSt, clearSt]
    · simp only [St.put, allocSt, clearSt, hne, hno, and_false, ↓reduceIte]
      exact b1
    · simp [St.put, allocSt, clearSt, Obj.cleared]
    · simp only [St.put, allocSt, clearSt, hne, ↓reduceIte]
      exact b2
    · exact fun e => hne (e.symm)

theorem good_copy {i j : Nat} {o p : Obj} (I : Inv s) (ho : s.obj i = some o) (hp : s.obj j = some p) 
    (hd : p.data ≠ 0) : Good [i] s (copySt s i o p) := by
  have g := good_clear I ho
  have sp := I.shape j p hp
  obtain ⟨b1, b2, b3, b4, b5⟩ := sp.block hd
  have g2 := good_attach (i := i) (n := p.height * p.row) (o := { p with data := s.next, type := o.type }) g.inv
    (fun q hq => by
      rw [clearSt_obj] at hq
      obtain rfl := Option.some.inj hq
      rfl) sp.cc sp.align rfl (Nat.le_refl _) b3 b4 b5
  refine (g.trans g2).trans (good_bytes _ g2.inv (St.put_same _ _) fun b k hb => ?_)
  have : b ≠ s.next := hb
  simp only [this, false_and, ↓reduceIte]
  rfl

theorem copy_empty_run {i j : Nat} {o p : Obj} (I : Inv s) (ho : s.obj i = some o) (hp : s.obj j = some p)
    (ht : o.type = p.type) (hd : p.data = 0 ∨ i = j) :
    copy i j s = .ok () ((clearSt s i o).put i (some { o.cleared with cc := p.cc, align := p.align })) := by
  rw [copy, bind_ok (getObj_run ho), bind_ok (getObj_run hp), show (o.type != p.type) = false by simp [ht],
    throwIf_false, pure_bind', bind_ok (clear_run I ho), bind_ok (getObj_run (clearSt_obj s i o))]
  by_cases hij : i = j
  · subst hij
    rw [ho] at hp
    obtain rfl := Option.some.inj hp
    rw [bind_ok (getObj_run (clearSt_obj s i o)), bind_ok (setObj_run i _), bind_ok (getObj_run (St.put_same _ _)),
      if_neg (by simp [Obj.cleared])]
    rfl
  · have hd := hd.resolve_right hij
    have hp1 : (clearSt s i o).obj j = some p := by rw [clearSt_obj_ne o (Ne.symm hij)]; exact hp
    have hp2 : ∀ q : Option Obj, ((clearSt s i o).put i q).obj j = some p := fun q => by
      rw [St.put_ne _ (Ne.symm hij)]
      exact hp1
    obtain ⟨e1, e2, e3⟩ := (I.shape j p hp).empty hd
    rw [bind_ok (getObj_run hp1), bind_ok (setObj_run i _), bind_ok (getObj_run (hp2 _)), if_neg (by simp [hd]), e1,
      e2, e3]
    rfl

theorem good_copy_empty {i j : Nat} {o p : Obj} (I : Inv s) (ho : s.obj i = some o) (hp : s.obj j = some p) :
    Good [i] s ((clearSt s i o).put i (some { o.cleared with cc := p.cc, align := p.align })) := by
  have g := good_clear I ho
  refine g.trans (good_put g.inv (fun q hq => ?_) (I.shape j p hp).cc (I.shape j p hp).align rfl ⟨rfl, rfl, rfl⟩)
  rw [clearSt_obj] at hq
  obtain rfl := Option.some.inj hq
  rfl

theorem copy_throw {i j : Nat} {o p : Obj} (ho : s.obj i = some o) (hp : s.obj j = some p)
    (ht : o.type ≠ p.type) : copy i j s = .throw s := by
  rw [copy, bind_ok (getObj_run ho), bind_ok (getObj_run hp), show (o.type != p.type) = true by simp [ht]]
  exact bind_throw (throwIf_true s)

theorem step_copy {i j : Nat} {o p : Obj} (I : Inv s) (ho : s.obj i = some o) (hp : s.obj j = some p) :
    (∃ s', copy i j s = .ok () s' ∧ Good [i] s s') ∨ copy i j s = .throw s := by
  by_cases ht : o.type = p.type
  · left
    by_cases hd : p.data = 0 ∨ i = j
    · exact ⟨_, copy_empty_run I ho hp ht hd, good_copy_empty I ho hp⟩
    · exact ⟨_, copy_run I ho hp (fun e => hd (Or.inr e)) ht (fun e => hd (Or.inl e)),
        good_copy I ho hp (fun e => hd (Or.inl e))⟩
  · exact Or.inr (copy_throw ho hp ht)

theorem good_fresh {i type : Nat} (I : Inv s) (hi : s.obj i = none) : Good [i] s (s.put i (some (fresh type))) :=
  good_put I (fun p hp => by rw [hi] at hp; exact absurd hp (by simp)) Nat.zero_lt_one Nat.zero_lt_one rfl
    ⟨rfl, rfl, rfl⟩

theorem step_copyConstruct {i j : Nat} {p : Obj} (I : Inv s) (hi : s.obj i = none) (hp : s.obj j = some p) :
    ∃ s', copyConstruct i j s = .ok () s' ∧ Good [i] s s' := by
  have hij : i ≠ j := fun e => by rw [← e, hi] at hp; exact absurd hp (by simp)
  rw [copyConstruct, bind_ok (getObj_run hp), bind_ok (setObj_run i _)]
  have g := good_fresh (type := p.type) I hi
  have hp1 : (s.put i (some (fresh p.type))).obj j = some p := by rw [St.put_ne _ (Ne.symm hij)]; exact hp
  by_cases hd : p.data = 0
  · exact ⟨_, copy_empty_run g.inv (St.put_same _ _) hp1 rfl (Or.inl hd),
      g.trans (good_copy_empty g.inv (St.put_same _ _) hp1)⟩
  · exact ⟨_, copy_run g.inv (St.put_same _ _) hp1 hij rfl hd, g.trans (good_copy g.inv (St.put_same _ _) hp1 hd)⟩

theorem step_fill {i : Nat} {o : Obj} (v : α) (I : Inv s) (ho : s.obj i = some o) :
    ∃ s', fill i v s = .ok () s' ∧ Good [i] s s' := by
  rw [fill, bind_ok (getObj_run ho)]
  split
  · exact ⟨s, rfl, Good.refl _ I⟩
  · rename_i hd
    obtain ⟨b1, b2, _⟩ := (I.shape i o ho).block hd
    rw [setBlock, if_pos ⟨b1, b2⟩]
    refine ⟨_, rfl, good_bytes _ I ho fun b k hb => ?_⟩
    simp only [hb, false_and, ↓reduceIte]

theorem step_write {i k : Nat} {o : Obj} (v : α) (I : Inv s) (ho : s.obj i = some o) (hk : k < o.height * o.row) :
    write i k v s = .ok () { s with mem := s.mem.set o.data k v } ∧
      Good [i] s { s with mem := s.mem.set o.data k v } := by
  have hd : o.data ≠ 0 := fun e => by
    obtain ⟨_, h0, _⟩ := (I.shape i o ho).empty e
    rw [h0, Nat.zero_mul] at hk
    omega
  obtain ⟨b1, b2, _⟩ := (I.shape i o ho).block hd
  refine ⟨?_, good_bytes _ I ho fun b l hb => ?_⟩
  · exact (bind_ok (getObj_run ho)).trans (if_pos ⟨b1, by omega⟩)
  · simp only [hb, false_and, ↓reduceIte]

theorem step_destroy {i : Nat} {o : Obj} (I : Inv s) (ho : s.obj i = some o) :
    destroy i s = .ok () ((clearSt s i o).put i none) ∧ Good [i] s ((clearSt s i o).put i none) := by
  have g := good_clear I ho
  refine ⟨?_, g.trans (good_remove g.inv fun p hp => ?_)⟩
  · exact (bind_ok (clear_run I ho)).trans rfl
  · rw [clearSt_obj] at hp
    obtain rfl := Option.some.inj hp
    rfl

theorem step_assign {i b w h cc align : Nat} {o : Obj} (I : Inv s) (ho : s.obj i = some o)
    (hl : b ≠ 0 → 0 < align → s.ext b = true ∧ ∃ r, RowIs w cc align r ∧ h * r ≤ s.mem.size b) :
    (∃ s', assign i b w h cc align s = .ok () s' ∧ Good [i] s s') ∨ assign i b w h cc align s = .throw s := by
  by_cases hc : b ≠ 0 ∧ 0 < w ∧ 0 < h ∧ 0 < cc ∧ 0 < align
  · left
    obtain ⟨h1, h2, h3, h4, h5⟩ := hc
    obtain ⟨hb, r, hr, hsz⟩ := hl h1 h5
    have g := good_clear I ho
    rw [assign, show (b == 0 || w == 0 || h == 0 || cc == 0 || align == 0) = false by
      simp only [Bool.or_eq_false_iff, beq_eq_false_iff_ne]; omega,
      throwIf_false, pure_bind', bind_ok (clear_run I ho), bind_ok (getObj_run (clearSt_obj s i o)),
      rowSize_run h5 hr, pure_bind']
    refine ⟨_, bind_ok rfl, ?_⟩
    refine g.trans (good_adopt (b := b) g.inv (fun q hq => ?_) hb h4 h5 rfl hsz h2 h3 hr)
    rw [clearSt_obj] at hq
    obtain rfl := Option.some.inj hq
    rfl
  · right
    rw [assign, show (b == 0 || w == 0 || h == 0 || cc == 0 || align == 0) = true by
      simp only [Bool.or_eq_true, beq_iff_eq]; omega]
    exact bind_throw (throwIf_true s)

theorem step_mutate {i w h cc align : Nat} {o : Obj} (I : Inv s) (ho : s.obj i = some o)
    (hs : o.height * o.row < 4294967296) (hw : 0 < w) (hh : 0 < h)
    (hl : 0 < align → ∃ r, RowIs w cc align r ∧ h * r < 4294967296) :
    ∃ b s', mutate i w h cc align s = .ok b s' ∧ Good [i] s s' := by
  rw [mutate, bind_ok (getObj_run ho)]
  split
  · rename_i hc
    obtain ⟨r, hr, hrs⟩ := hl hc.2
    rw [rowSize_run hc.2 hr, pure_bind', Nat.mul_comm r, Nat.mul_comm o.row, u32_of_lt hs, u32_of_lt hrs]
    split
    · exact ⟨false, s, rfl, Good.refl _ I⟩
    · rename_i he
      have he : h * r = o.height * o.row := Decidable.not_not.mp he
      refine ⟨true, _, bind_ok (setObj_run i _), ?_⟩
      have hr0 : 0 < r := Nat.lt_of_lt_of_le (Nat.mul_pos hw hc.1) hr.1
      have hd : o.data ≠ 0 := fun e => by
        obtain ⟨_, h0, _⟩ := (I.shape i o ho).empty e
        have := Nat.mul_pos hh hr0
        rw [h0, Nat.zero_mul] at he
        omega
      exact good_relabel I ho rfl hd hc.1 hc.2 (Nat.le_of_eq he) hw hh hr
  · exact ⟨false, s, rfl, Good.refl _ I⟩

theorem step_moveConstruct {i j : Nat} {p : Obj} (I : Inv s) (hi : s.obj i = none) (hp : s.obj j = some p) :
    moveConstruct i j s = .ok () (swapSt (s.put i (some (fresh 0))) i j) ∧
      Good [i, j] s (swapSt (s.put i (some (fresh 0))) i j) := by
  have hij : i ≠ j := fun e => by rw [← e, hi] at hp; exact absurd hp (by simp)
  have g := good_fresh (type := 0) I hi
  have hp1 : (s.put i (some (fresh 0))).obj j = some p := by rw [St.put_ne _ (Ne.symm hij)]; exact hp
  refine ⟨?_, (g.mono fun k hk => by simp_all).trans (good_swap g.inv)⟩
  rw [moveConstruct, bind_ok (setObj_run i _), swap_run (St.put_same _ _) hp1]

/-! ### All of them -/

/-- A legal call has no undefined behaviour, keeps the invariant, and leaves alone every image it
    does not name as its target. -/
theorem legal_step (I : Inv s) (op : Op α) (hl : Legal s op) :
    ∃ s', op.step s = some s' ∧ Good op.objs s s' := by
  have ok : ∀ {x : M (St α) Unit} {P : List Nat}, (∃ s', x s = .ok () s' ∧ Good P s s') → op.exec = x → op.objs = P →
      ∃ s', op.step s = some s' ∧ Good op.objs s s' := by
    rintro x P ⟨s', e, g⟩ rfl rfl
    exact ⟨s', by rw [Op.step, e], g⟩
  have thr : ∀ {x : M (St α) Unit}, x s = .throw s → op.exec = x →
      ∃ s', op.step s = some s' ∧ Good op.objs s s' := by
    rintro x e rfl
    exact ⟨s, by rw [Op.step, e], Good.refl _ I⟩
  cases op with
  | construct i w h cc align type =>
    obtain ⟨hi, r, hr⟩ := hl
    obtain ⟨s', e, g, _⟩ := step_construct (h := h) (type := type) I hi hr
    exact ok ⟨s', e, g⟩ rfl rfl
  | copyConstruct i j =>
    obtain ⟨p, hp⟩ := Option.isSome_iff_exists.mp hl.2
    exact ok (step_copyConstruct I hl.1 hp) rfl rfl
  | moveConstruct i j =>
    obtain ⟨p, hp⟩ := Option.isSome_iff_exists.mp hl.2
    exact ok ⟨_, step_moveConstruct I hl.1 hp⟩ rfl rfl
  | copyAssign i j =>
    obtain ⟨o, ho⟩ := Option.isSome_iff_exists.mp hl.1
    obtain ⟨p, hp⟩ := Option.isSome_iff_exists.mp hl.2
    rcases step_copy I ho hp with h | h
    · exact ok h rfl rfl
    · exact thr h rfl
  | moveAssign i j =>
    obtain ⟨o, ho⟩ := Option.isSome_iff_exists.mp hl.1
    obtain ⟨p, hp⟩ := Option.isSome_iff_exists.mp hl.2
    exact ok ⟨_, swap_run ho hp, good_swap I⟩ rfl rfl
  | resize i w h =>
    obtain ⟨o, ho, r, hr⟩ := hl
    exact ok (step_resize (h := h) I ho hr) rfl rfl
  | clear i =>
    obtain ⟨o, ho⟩ := Option.isSome_iff_exists.mp hl
    exact ok ⟨_, clear_run I ho, good_clear I ho⟩ rfl rfl
  | setColorCount i cc =>
    obtain ⟨o, ho⟩ := Option.isSome_iff_exists.mp hl
    exact ok (step_setColorCount (cc := cc) I ho) rfl rfl
  | setAlignment i align =>
    obtain ⟨o, ho⟩ := Option.isSome_iff_exists.mp hl
    exact ok (step_setAlignment (align := align) I ho) rfl rfl
  | fill i v =>
    obtain ⟨o, ho⟩ := Option.isSome_iff_exists.mp hl
    exact ok (step_fill v I ho) rfl rfl
  | swap i j =>
    obtain ⟨o, ho⟩ := Option.isSome_iff_exists.mp hl.1
    obtain ⟨p, hp⟩ := Option.isSome_iff_exists.mp hl.2
    exact ok ⟨_, swap_run ho hp, good_swap I⟩ rfl rfl
  | assign i b w h cc align =>
    obtain ⟨o, ho⟩ := Option.isSome_iff_exists.mp hl.1
    rcases step_assign (cc := cc) (align := align) I ho hl.2 with h | h
    · exact ok h rfl rfl
    · exact thr h rfl
  | mutate i w h cc align =>
    obtain ⟨o, ho, hs, hw, hh, hr⟩ := hl
    obtain ⟨b, s', e, g⟩ := step_mutate (cc := cc) I ho hs hw hh hr
    exact ok (x := do let _ ← Buffer.mutate i w h cc align; pure ()) ⟨s', (bind_ok e).trans rfl, g⟩ rfl rfl
  | destroy i =>
    obtain ⟨o, ho⟩ := Option.isSome_iff_exists.mp hl
    exact ok ⟨_, step_destroy I ho⟩ rfl rfl
  | callerBlock n => exact ok ⟨_, callerBlock_run n, good_callerBlock n I⟩ rfl rfl
  | write i k v =>
    obtain ⟨o, ho, hk⟩ := hl
    exact ok ⟨_, step_write v I ho hk⟩ rfl rfl

/-- Every call of the history meets its preconditions when it is made. Not in the code: for statements and proofs. -/
def LegalRun : List (Op α) → St α → Prop
  | [], _ => True
  | op :: ops, s => Legal s op ∧ ∀ s', op.step s = some s' → LegalRun ops s'

theorem legal_run (ops : List (Op α)) : ∀ {s : St α}, Inv s → LegalRun ops s →
    ∃ s', run ops s = some s' ∧ Good (ops.flatMap Op.objs) s s' := by
  induction ops with
  | nil => exact fun I _ => ⟨_, rfl, Good.refl _ I⟩
  | cons op ops ih =>
    intro s I hl
    obtain ⟨s1, e1, g1⟩ := legal_step I op hl.1
    obtain ⟨s2, e2, g2⟩ := ih g1.inv (hl.2 s1 e1)
    refine ⟨s2, by rw [run, e1]; exact e2, ?_⟩
    exact (g1.mono fun j hj => by simp [hj]).trans (g2.mono fun j hj => by
      rw [List.flatMap_cons]
      exact List.mem_append_right _ hj)

end PV.Buffer
