import Verif.BufDevInv
/-
  C155: images in the memory of devices.  C156: allocations that fail.
-/
namespace PV.Props

open PV PV.BufDev

variable {α : Type}

/-! ### What a user sees -/

/-- A state which a program can reach by calls that meet their preconditions, with any failures. -/
def ReachedD (splat : Nat → α → α) (s : BufDev.St α) : Prop :=
  ∃ mem ops, BufDev.LegalRun splat ops (BufDev.start mem) ∧ BufDev.run splat ops (BufDev.start mem) = some s

theorem reachedD_inv {splat : Nat → α → α} {s : BufDev.St α} (h : ReachedD splat s) : BufDev.Inv s := by
  obtain ⟨mem, ops, hl, hr⟩ := h
  obtain ⟨s', e, g⟩ := BufDev.legal_run ops (BufDev.inv_start mem) hl
  rw [e] at hr
  obtain rfl := Option.some.inj hr
  exact g.inv

/-- What can be observed of an image. -/
structure LookD (α : Type) where
  width : Nat
  height : Nat
  colorCount : Nat
  alignment : Nat
  rowSize : Nat
  type : Nat
  empty : Bool
  elements : List α
deriving DecidableEq

def lookD (s : BufDev.St α) (i : Nat) : Option (LookD α) := (s.obj i).map fun o =>
  ⟨o.width, o.height, o.cc, o.align, o.row, o.type, o.data == 0,
    if o.data = 0 then [] else (List.range (o.height * o.row)).map (s.mem.byte o.data)⟩

theorem lookD_same {s s' : BufDev.St α} {j : Nat} (h : BufDev.Same s s' j) : lookD s' j = lookD s j := by
  rw [lookD, lookD, h.1]
  cases ho : s.obj j with
  | none => rfl
  | some o =>
    simp only [Option.map_some, Option.some.injEq, LookD.mk.injEq, true_and]
    by_cases hd : o.data = 0
    · rw [if_pos hd, if_pos hd]
    · rw [if_neg hd, if_neg hd]
      exact List.map_congr_left fun k _ => h.2 o ho hd k

/-! ### C155: histories -/

/-- **C155, partial.**  After any history of calls on images in main memory, pinned memory, CUDA and OpenCL
    memory, whatever allocations and copies of memory fail, nothing undefined has happened: every block is
    released by the function of the device which it came from, exactly once.  Every image with memory has a block
    of its own on the device of its type with exactly `rowSize * height` elements, and all memory in use belongs
    to an image.  Missing: changes of the active device while there are images on devices, and failing copies of
    memory in the copy constructor of the base class, for which the property is false. -/
theorem C155_history_partial {splat : Nat → α → α} (mem : Mem α) (ops : List (BufDev.Op α))
    (hl : BufDev.LegalRun splat ops (BufDev.start mem)) :
    ∃ s, BufDev.run splat ops (BufDev.start mem) = some s ∧
      (∀ i o, s.obj i = some o → o.data ≠ 0 →
        s.live o.data = true ∧ (s.place o.data).1 = o.type ∧ s.mem.size o.data = o.height * o.row ∧
        (o.type = 1 ∨ o.type = 3 → (s.place o.data).2 = s.active)) ∧
      (∀ i j o p, s.obj i = some o → s.obj j = some p → i ≠ j → o.data ≠ 0 → o.data ≠ p.data) ∧
      (∀ b, s.live b = true → ∃ i o, s.obj i = some o ∧ o.data = b) := by
  obtain ⟨s, e, g⟩ := BufDev.legal_run ops (BufDev.inv_start mem) hl
  have I := g.inv
  refine ⟨s, e, fun i o ho hd => ?_, fun i j o p ho hp hij hd he => hij (I.own i j o p ho hp he hd), I.leak⟩
  obtain ⟨h1, h2, h3⟩ := I.block i o ho hd
  refine ⟨h1, ?_, h3, fun ht => ?_⟩
  · rw [h2, placeOf]
    split <;> rfl
  · rw [h2, placeOf, if_pos ht]

/-- **C155**, independence: an image keeps its look under every later history of calls which do not have it as
    a target, whatever fails. -/
theorem C155_independent {splat : Nat → α → α} {s : BufDev.St α} (hs : ReachedD splat s) (ops : List (BufDev.Op α))
    (hl : BufDev.LegalRun splat ops s) (k : Nat) (hk : ∀ op, op ∈ ops → k ∉ op.objs) :
    ∃ s', BufDev.run splat ops s = some s' ∧ lookD s' k = lookD s k := by
  obtain ⟨s', e, g⟩ := BufDev.legal_run ops (reachedD_inv hs) hl
  refine ⟨s', e, lookD_same (g.frame k fun h => ?_)⟩
  obtain ⟨op, h1, h2⟩ := List.mem_flatMap.mp h
  exact hk op h1 h2

/-- **C155**: `b = a` for different images of one type of device, when nothing fails: both look like `a` before,
    other images are as before. -/
theorem C155_copy_assign {splat : Nat → α → α} {s : BufDev.St α} (hs : ReachedD splat s) {i j : Nat} {o p : BufDev.Obj}
    (ho : s.obj i = some o) (hp : s.obj j = some p) (hij : i ≠ j) (ht : o.type = p.type) :
    ∃ s', (BufDev.Op.copyAssign noFail i j : BufDev.Op α).exec splat s = .ok () s' ∧ lookD s' i = lookD s j ∧
      ∀ k, k ≠ i → lookD s' k = lookD s k := by
  have I := reachedD_inv hs
  have e := BufDev.copy_run (f := noFail) I ho hp hij ht
  by_cases hd : p.data = 0
  · rw [if_pos hd] at e
    refine ⟨_, e, ?_, fun k hk => lookD_same ((BufDev.good_copyFailed I ho (I.align j p hp)).frame k (by simpa using hk))⟩
    rw [lookD, lookD, BufDev.copyFailedSt, BufDev.put_same, hp]
    simp [ht, hd]
  · rw [if_neg hd] at e
    refine ⟨_, e, ?_, fun k hk => lookD_same ((BufDev.good_copySt I ho hp).frame k (by simpa using hk))⟩
    rw [lookD, lookD, show (BufDev.copySt s i o p).obj i = _ from BufDev.copyRoom_obj s i o p, hp]
    have hn : s.next ≠ 0 := by have := I.pos; omega
    simp only [Option.map_some, Option.some.injEq, LookD.mk.injEq, true_and]
    refine ⟨ht, ?_, ?_⟩
    · rw [beq_eq_false_iff_ne.mpr hd, beq_eq_false_iff_ne.mpr hn]
    · rw [if_neg hn, if_neg hd]
      refine List.map_congr_left fun k hk => ?_
      exact if_pos ⟨rfl, List.mem_range.mp hk⟩

/-- **C155**: images of different types of devices are not copied, and nothing changes. -/
theorem C155_copy_types {splat : Nat → α → α} {s : BufDev.St α} {f : Fails} {i j : Nat} {o p : BufDev.Obj}
    (ho : s.obj i = some o) (hp : s.obj j = some p) (ht : o.type ≠ p.type) :
    (BufDev.Op.copyAssign f i j : BufDev.Op α).exec splat s = .throw s := BufDev.copy_throw ho hp ht

/-- **C155**: move assignment exchanges the complete contents, the type of device included. -/
theorem C155_move_assign {splat : Nat → α → α} {s : BufDev.St α} (hs : ReachedD splat s) {i j : Nat} {o p : BufDev.Obj}
    (ho : s.obj i = some o) (hp : s.obj j = some p) :
    ∃ s', (BufDev.Op.moveAssign i j : BufDev.Op α).exec splat s = .ok () s' ∧ lookD s' i = lookD s j ∧ lookD s' j = lookD s i ∧
      ∀ k, k ≠ i → k ≠ j → lookD s' k = lookD s k := by
  have I := reachedD_inv hs
  refine ⟨_, BufDev.swap_run ho hp, ?_, ?_, fun k h1 h2 => lookD_same ((BufDev.good_swap I ho hp).frame k (by simp [h1, h2]))⟩
  · by_cases hij : i = j
    · subst hij
      rw [ho] at hp
      cases hp
      rw [lookD, lookD, BufDev.swapSt, BufDev.put_same, ho]
      rfl
    · rw [lookD, lookD, BufDev.swapSt, BufDev.put_ne _ _ hij, BufDev.put_same, hp]
      rfl
  · rw [lookD, lookD, BufDev.swapSt, BufDev.put_same, ho]
    rfl

theorem rowOf_least {w cc align : Nat} (ha : 0 < align) (h : w * cc + align < 4294967296) :
    align ∣ BufDev.rowOf w cc align ∧ w * cc ≤ BufDev.rowOf w cc align ∧ BufDev.rowOf w cc align < w * cc + align := by
  have e : u32 (w * cc) = w * cc := Nat.mod_eq_of_lt (by omega)
  have hd := Nat.div_add_mod (w * cc) align
  have hm := Nat.mod_lt (w * cc) ha
  rw [BufDev.rowOf, e]
  split
  · rename_i hne
    have hl := Nat.div_le_self (w * cc) align
    have e1 : u32 (w * cc / align + 1) = w * cc / align + 1 := Nat.mod_eq_of_lt (by omega)
    have hx : (w * cc / align + 1) * align = align * (w * cc / align) + align := by
      rw [Nat.add_mul, Nat.one_mul, Nat.mul_comm]
    have e2 : u32 ((w * cc / align + 1) * align) = (w * cc / align + 1) * align := Nat.mod_eq_of_lt (by omega)
    rw [e1, e2]
    exact ⟨⟨_, Nat.mul_comm _ _⟩, by omega, by omega⟩
  · rename_i hz
    exact ⟨Nat.dvd_of_mod_eq_zero (Decidable.not_not.mp hz), Nat.le_refl _, by omega⟩

/-- **C155**: a new image has the size, colour count, alignment and device it was asked for, without failing allocations. -/
theorem C155_construct {splat : Nat → α → α} {s : BufDev.St α} (hs : ReachedD splat s) {cls i w h cc align : Nat}
    (hi : s.obj i = none) (hw : 0 < w) (hh : 0 < h) (hc : 0 < cc) (ha : 0 < align) :
    ∃ s', (BufDev.Op.construct noFail cls i w h cc align : BufDev.Op α).exec splat s = .ok () s' ∧
      (∃ r l, lookD s' i = some ⟨w, h, cc, align, r, cls, false, l⟩ ∧ l.length = h * r ∧
        (w * cc + align < 4294967296 → align ∣ r ∧ w * cc ≤ r ∧ r < w * cc + align)) ∧
      ∀ k, k ≠ i → lookD s' k = lookD s k := by
  have I := reachedD_inv hs
  have key : ∀ t, BufDev.Inv t → t.obj i = some (BufDev.fresh cls cls) → (t.next = s.next) →
      (∀ k, k ≠ i → BufDev.Same s t k) →
      ∃ s', BufDev.shape noFail i w h cc align t = .ok () s' ∧
      (∃ r l, lookD s' i = some ⟨w, h, cc, align, r, cls, false, l⟩ ∧ l.length = h * r ∧
        (w * cc + align < 4294967296 → align ∣ r ∧ w * cc ≤ r ∧ r < w * cc + align)) ∧
      ∀ k, k ≠ i → lookD s' k = lookD s k := by
    intro t It ht hn hf
    have hg := (BufDev.shape_ends (f := noFail) (w := w) (h := h) (cc := cc) (align := align) It ht)
    obtain ⟨s', e, ho⟩ := BufDev.shape_new (α := α) It ht hw hh hc ha
    rw [e] at hg
    obtain ⟨s'', e'', g, -⟩ := hg.after
    obtain rfl := Option.some.inj e''
    refine ⟨s', e, ⟨BufDev.rowOf w cc align, (List.range (h * BufDev.rowOf w cc align)).map (s'.mem.byte t.next), ?_, ?_, rowOf_least ha⟩, fun k hk => (lookD_same (g.frame k (by simpa using hk))).trans (lookD_same (hf k hk))⟩
    · have : t.next ≠ 0 := by have := It.pos; omega
      rw [lookD, ho]
      simp [this]
    · simp
  show ∃ s', BufDev.construct noFail cls i w h cc align s = .ok () s' ∧ _
  by_cases h0 : cls = 0
  · subst h0
    have g := BufDev.good_base (cls := 0) I hi
    obtain ⟨s', e, r⟩ := key _ g.inv (BufDev.base_obj s i 0) rfl fun k hk => g.frame k (by simpa using hk)
    refine ⟨s', ?_, r⟩
    rw [BufDev.construct, if_pos rfl, BufDev.inBase, bind_ok (BufDev.defaultBase_run i 0), e]
  · have g := BufDev.good_derived (cls := cls) (type := cls) I hi
    obtain ⟨s', e, r⟩ := key _ g.inv (BufDev.put_same _ _ _) rfl fun k hk => g.frame k (by simpa using hk)
    refine ⟨s', ?_, r⟩
    rw [BufDev.construct, if_neg h0, BufDev.inDerived, bind_ok (BufDev.defaultBase_run i cls),
      bind_ok (show BufDev.setObj i _ _ = .ok () ((BufDev.baseSt s i cls).put i (some (BufDev.fresh cls cls))) from rfl),
      bind_ok (show BufDev.register cls _ = .ok () (BufDev.derivedSt s i cls cls) from rfl), e]

/-- **C155**: a new image without a width or without a height is an empty image of its device. -/
theorem C155_construct_empty {splat : Nat → α → α} {s : BufDev.St α} (hs : ReachedD splat s) {f : Fails} {cls i w h cc align : Nat}
    (hi : s.obj i = none) (hw : w = 0 ∨ h = 0) (hc : 0 < cc) (ha : 0 < align) :
    ∃ s', (BufDev.Op.construct f cls i w h cc align : BufDev.Op α).exec splat s = .ok () s' ∧
      lookD s' i = some ⟨0, 0, cc, align, 0, cls, true, []⟩ ∧ ∀ k, k ≠ i → lookD s' k = lookD s k := by
  have I := reachedD_inv hs
  have key : ∀ t, BufDev.Inv t → t.obj i = some (BufDev.fresh cls cls) →
      (∀ k, k ≠ i → BufDev.Same s t k) →
      ∃ s', BufDev.shape f i w h cc align t = .ok () s' ∧
      lookD s' i = some ⟨0, 0, cc, align, 0, cls, true, []⟩ ∧ ∀ k, k ≠ i → lookD s' k = lookD s k := by
    intro t It ht hf
    have hg := (BufDev.shape_ends (f := f) (w := w) (h := h) (cc := cc) (align := align) It ht)
    obtain ⟨s', e, ho⟩ := BufDev.shape_empty (α := α) (f := f) It ht hw hc ha
    rw [e] at hg
    obtain ⟨s'', e'', g, -⟩ := hg.after
    obtain rfl := Option.some.inj e''
    refine ⟨s', e, ?_, fun k hk => (lookD_same (g.frame k (by simpa using hk))).trans (lookD_same (hf k hk))⟩
    rw [lookD, ho]
    simp
  show ∃ s', BufDev.construct f cls i w h cc align s = .ok () s' ∧ _
  by_cases h0 : cls = 0
  · subst h0
    have g := BufDev.good_base (cls := 0) I hi
    obtain ⟨s', e, r⟩ := key _ g.inv (BufDev.base_obj s i 0) fun k hk => g.frame k (by simpa using hk)
    refine ⟨s', ?_, r⟩
    rw [BufDev.construct, if_pos rfl, BufDev.inBase, bind_ok (BufDev.defaultBase_run i 0), e]
  · have g := BufDev.good_derived (cls := cls) (type := cls) I hi
    obtain ⟨s', e, r⟩ := key _ g.inv (BufDev.put_same _ _ _) fun k hk => g.frame k (by simpa using hk)
    refine ⟨s', ?_, r⟩
    rw [BufDev.construct, if_neg h0, BufDev.inDerived, bind_ok (BufDev.defaultBase_run i cls),
      bind_ok (show BufDev.setObj i _ _ = .ok () ((BufDev.baseSt s i cls).put i (some (BufDev.fresh cls cls))) from rfl),
      bind_ok (show BufDev.register cls _ = .ok () (BufDev.derivedSt s i cls cls) from rfl), e]

/-- **C155**: move construction takes the complete contents, and leaves an empty image in main memory behind. -/
theorem C155_move_construct {splat : Nat → α → α} {s : BufDev.St α} (hs : ReachedD splat s) {cls i j : Nat} {p : BufDev.Obj}
    (hi : s.obj i = none) (hp : s.obj j = some p) :
    ∃ s', (BufDev.Op.moveConstruct cls i j : BufDev.Op α).exec splat s = .ok () s' ∧ lookD s' i = lookD s j ∧
      lookD s' j = some ⟨0, 0, 1, 1, 0, 0, true, []⟩ ∧ ∀ k, k ≠ i → k ≠ j → lookD s' k = lookD s k := by
  have I := reachedD_inv hs
  have hij : j ≠ i := by
    rintro rfl
    rw [hi] at hp
    cases hp
  obtain ⟨s', e, g⟩ := BufDev.moveConstruct_after (cls := cls) I hi hp
  have key : ∀ t : BufDev.St α, t.mem = s.mem → lookD (BufDev.swapSt t i j (BufDev.fresh 0 cls) p) i = lookD s j ∧
      lookD (BufDev.swapSt t i j (BufDev.fresh 0 cls) p) j = some ⟨0, 0, 1, 1, 0, 0, true, []⟩ := by
    intro t ht
    constructor
    · rw [lookD, lookD, BufDev.swapSt, BufDev.put_ne _ _ (Ne.symm hij), BufDev.put_same, hp]
      show some _ = some _
      rw [show ((t.put i _).put j _).mem = s.mem from ht]
    · rw [lookD, BufDev.swapSt, BufDev.put_same]
      simp [BufDev.fresh]
  show ∃ s', BufDev.moveConstruct cls i j s = .ok () s' ∧ _
  by_cases h0 : cls = 0
  · subst h0
    have hp' : (s.put i (some (BufDev.fresh 0 0))).obj j = some p := by rw [BufDev.put_ne _ _ hij]; exact hp
    have e1 : BufDev.moveConstruct 0 i j s = .ok () (BufDev.swapSt (s.put i (some (BufDev.fresh 0 0))) i j (BufDev.fresh 0 0) p) := by
      rw [BufDev.moveConstruct, if_pos rfl, bind_ok (show BufDev.setObj i _ _ = .ok () (s.put i (some (BufDev.fresh 0 0))) from rfl),
        BufDev.swap_run (BufDev.put_same _ _ _) hp']
    rw [e1] at e
    cases Option.some.inj e
    exact ⟨_, e1, (key (s.put i (some (BufDev.fresh 0 0))) rfl).1, (key (s.put i (some (BufDev.fresh 0 0))) rfl).2, fun k h1 h2 => lookD_same (g.frame k (by simp [h1, h2]))⟩
  · have hp' : (BufDev.baseSt s i cls).obj j = some p := by
      show (s.put i _).obj j = _
      rw [BufDev.put_ne _ _ hij]; exact hp
    have e1 : BufDev.moveConstruct cls i j s = .ok () (BufDev.swapSt (BufDev.baseSt s i cls) i j (BufDev.fresh 0 cls) p) := by
      rw [BufDev.moveConstruct, if_neg h0, bind_ok (BufDev.defaultBase_run i cls), BufDev.swap_run (BufDev.base_obj s i cls) hp']
    rw [e1] at e
    cases Option.some.inj e
    exact ⟨_, e1, (key (BufDev.baseSt s i cls) rfl).1, (key (BufDev.baseSt s i cls) rfl).2, fun k h1 h2 => lookD_same (g.frame k (by simp [h1, h2]))⟩

/-- **C155** is false for copies: copy construction of CUDA, pinned and OpenCL images throws for every image on
    its device, whatever it holds. -/
theorem C155_copy_construct_throws {splat : Nat → α → α} {s : BufDev.St α} (hs : ReachedD splat s) {f : Fails} {cls i j : Nat}
    {p : BufDev.Obj} (hc : cls ≠ 0) (hi : s.obj i = none) (hp : s.obj j = some p) (ht : p.type ≠ 0) :
    ∃ s', (BufDev.Op.copyConstruct f cls i j : BufDev.Op α).exec splat s = .throw s' ∧ s'.obj i = none ∧
      ∀ k, lookD s' k = lookD s k := by
  have I := reachedD_inv hs
  have hij : j ≠ i := by
    rintro rfl
    rw [hi] at hp
    cases hp
  have g := BufDev.good_base (cls := cls) I hi
  have hp' : (BufDev.baseSt s i cls).obj j = some p := by
    show (s.put i _).obj j = _
    rw [BufDev.put_ne _ _ hij]; exact hp
  have e := BufDev.copy_throw (f := f) (BufDev.base_obj s i cls) hp' (fun h => ht h.symm)
  have g2 := BufDev.good_destroy g.inv (BufDev.base_obj s i cls)
  refine ⟨(BufDev.clearSt (BufDev.baseSt s i cls) i (fresh 0 cls)).put i none, ?_, BufDev.put_same _ _ _, fun k => ?_⟩
  · show BufDev.copyConstruct f cls i j s = _
    rw [BufDev.copyConstruct, if_neg hc, inDerived, bind_ok (BufDev.defaultBase_run i cls), e]
    simp only [BufDev.destroy_run g.inv (BufDev.base_obj s i cls)]
  · by_cases hk : k = i
    · subst hk
      rw [lookD, lookD, BufDev.put_same, hi]
      rfl
    · exact lookD_same ((g.trans g2).frame k (by simpa using hk))

/-- **C155**, what holds: copy construction as an image of the base class, on any device. -/
theorem C155_copy_construct_partial {splat : Nat → α → α} {s : BufDev.St α} (hs : ReachedD splat s) {i j : Nat}
    {p : BufDev.Obj} (hi : s.obj i = none) (hp : s.obj j = some p) :
    ∃ s', (BufDev.Op.copyConstruct noFail 0 i j : BufDev.Op α).exec splat s = .ok () s' ∧ lookD s' i = lookD s j ∧
      ∀ k, k ≠ i → lookD s' k = lookD s k := by
  have I := reachedD_inv hs
  have hij : j ≠ i := by
    rintro rfl
    rw [hi] at hp
    cases hp
  have g : BufDev.Good [i] s (s.put i (some (fresh p.type 0))) :=
    BufDev.good_put I (fun o ho => by rw [hi] at ho; cases ho) rfl Nat.one_pos (I.reg j p hp)
  have hp' : (s.put i (some (fresh p.type 0))).obj j = some p := by rw [BufDev.put_ne _ _ hij]; exact hp
  have e := BufDev.copy_run (f := noFail) g.inv (BufDev.put_same _ _ _) hp' (Ne.symm hij) rfl
  have run : (BufDev.Op.copyConstruct noFail 0 i j : BufDev.Op α).exec splat s
      = inBase i (fun _ => BufDev.copy noFail i j (s.put i (some (fresh p.type 0)))) s := by
    show BufDev.copyConstruct noFail 0 i j s = _
    rw [BufDev.copyConstruct, if_pos rfl]
    simp only [inBase]
    rw [bind_ok (BufDev.getObj_run hp), bind_ok (show BufDev.setObj i _ _ = .ok () (s.put i (some (fresh p.type 0))) from rfl)]
  rw [run]
  simp only [inBase]
  by_cases hd : p.data = 0
  · rw [if_pos hd] at e
    rw [e]
    refine ⟨_, rfl, ?_, fun k hk => lookD_same ((g.trans (BufDev.good_copyFailed g.inv (BufDev.put_same _ _ _) (I.align j p hp))).frame k
      (by simpa using hk))⟩
    rw [lookD, lookD, BufDev.copyFailedSt, BufDev.put_same, hp]
    simp [fresh, hd]
  · rw [if_neg hd] at e
    rw [e]
    refine ⟨_, rfl, ?_, fun k hk => lookD_same ((g.trans (BufDev.good_copySt g.inv (BufDev.put_same _ _ _) hp')).frame k (by simpa using hk))⟩
    rw [lookD, lookD, show (BufDev.copySt (s.put i (some (fresh p.type 0))) i (fresh p.type 0) p).obj i = _ from BufDev.copyRoom_obj _ _ _ _, hp]
    have hn : s.next ≠ 0 := by have := I.pos; omega
    simp only [Option.map_some, Option.some.injEq, LookD.mk.injEq, true_and]
    refine ⟨rfl, ?_, ?_⟩
    · rw [beq_eq_false_iff_ne.mpr hd]
      exact beq_eq_false_iff_ne.mpr hn
    · rw [if_neg hd]
      refine (if_neg hn).trans (List.map_congr_left fun k hk => ?_)
      exact if_pos ⟨rfl, List.mem_range.mp hk⟩

/-- **C155**: `fill` writes the value to all elements, unless the function of the device writes another one. -/
theorem C155_fill {splat : Nat → α → α} {s : BufDev.St α} (hs : ReachedD splat s) {i : Nat} {v : α} {o : BufDev.Obj}
    (ho : s.obj i = some o) :
    ∃ s', (BufDev.Op.fill i v : BufDev.Op α).exec splat s = .ok () s' ∧ s'.obj = s.obj ∧
      (∀ k, k < o.height * o.row → o.data ≠ 0 → s'.mem.byte o.data k = splat o.type v) ∧
      ∀ k, k ≠ i → lookD s' k = lookD s k := by
  have I := reachedD_inv hs
  show ∃ s', BufDev.fill splat i v s = _ ∧ _
  by_cases hd : o.data = 0
  · rw [BufDev.fill, bind_ok (BufDev.getObj_run ho), if_pos hd]
    exact ⟨s, rfl, rfl, fun k _ h => absurd hd h, fun _ _ => rfl⟩
  · obtain ⟨h1, h2, h3⟩ := I.block i o ho hd
    rw [BufDev.fill, bind_ok (BufDev.getObj_run ho), if_neg hd, BufDev.setBlock, bind_ok (BufDev.needReg_run (I.reg i o ho).1), setNow,
      if_pos ⟨h1, h2, Nat.le_of_eq h3.symm⟩]
    refine ⟨_, rfl, rfl, fun k hk _ => if_pos ⟨rfl, hk⟩, fun k hk => lookD_same ?_⟩
    exact (BufDev.good_bytes I ho hd fun b l hb => if_neg fun h => hb h.1).frame k (by simpa using hk)

/-- Elements of one byte: all devices write the value; of two bytes: all but CUDA. -/
theorem C155_fill_value : (∀ t v, splat8 t v = v) ∧ (∀ t v, t ≠ 1 → splat16 t v = v) :=
  ⟨fun _ _ => rfl, fun _ _ h => if_neg h⟩

/-! ### C155: what is false -/

def devMem : Mem UInt8 := ⟨fun _ => 0, fun _ _ => 0⟩

def devMem16 : Mem UInt16 := ⟨fun _ => 0, fun _ _ => 0⟩

/-- `fill( 258 )` of a CUDA image with 16-bit elements stores 514. -/
theorem C155_fill_wrong : ((BufDev.run splat16 [.construct noFail 1 1 2 1 1 1, .fill 1 258] (BufDev.start devMem16)).bind
    fun s => (lookD s 1).map LookD.elements) = some [514, 514] := by
  decide +kernel

/-- After a move of a CUDA image to a new one the old one, resized, is an image in main memory: `type()` is 0. -/
theorem C155_moved_wrong : ((BufDev.run splat8 [.construct noFail 1 1 2 1 1 1, .moveConstruct 1 2 1, .resize noFail 1 3 1]
    (BufDev.start devMem)).map fun s =>
      (s.obj 1).map fun o => (o.cls, o.type, o.width, s.place o.data)) = some (some (1, 0, 3, (0, 0))) := by
  decide +kernel

/-- The copy constructor of the base class loses the new block when the copying of device memory fails: block 2
    stays in use, and there is no image with it. -/
theorem C155_leak_wrong : ((BufDev.run splat8 [.construct noFail 1 1 2 1 1 1, .copyConstruct ⟨false, true⟩ 0 2 1]
    (BufDev.start devMem)).map fun s => (s.live 2, (s.obj 1).map BufDev.Obj.data, s.obj 2)) = some (true, some 1, none) := by
  decide +kernel

/-- The memory of an image is released to the device active at that time, which may be another one. -/
theorem C155_active_wrong : (BufDev.run splat8 [.construct noFail 1 1 2 1 1 1, .activate 1, .destroy 1] (BufDev.start devMem)).isNone
    = true := by
  decide +kernel

/-- **C155**, what holds about types: after every history without moves and without copy constructions of derived
    classes (which throw, see above) an image declared as a CUDA, pinned or OpenCL image is on this kind of device. -/
theorem C155_type_partial {splat : Nat → α → α} (mem : Mem α) (ops : List (BufDev.Op α))
    (hl : BufDev.LegalRun splat ops (BufDev.start mem))
    (hm : ∀ op, op ∈ ops → match op with
      | .moveConstruct .. => False
      | .moveAssign .. => False
      | .copyConstruct _ cls _ _ => cls = 0
      | _ => True) :
    ∃ s, BufDev.run splat ops (BufDev.start mem) = some s ∧ ∀ i o, s.obj i = some o → o.cls ≠ 0 → o.type = o.cls := by
  obtain ⟨s, e, _⟩ := BufDev.legal_run ops (BufDev.inv_start mem) hl
  refine ⟨s, e, BufDev.run_consistent ops (BufDev.inv_start mem) hl (fun op ho => ?_) (fun i o h => ?_) e⟩
  · have := hm op ho
    cases op <;> exact this
  · cases h

/-- A history with images of three devices and failures that meets all this. -/
def devOps : List (BufDev.Op UInt8) :=
  [.construct noFail 1 1 3 2 1 4, .construct noFail 3 2 1 1 3 1, .construct ⟨true, false⟩ 0 3 5 5 1 1, .fill 1 7, .generate noFail 3 1 3 2 1 4,
    .copyAssign ⟨false, true⟩ 3 1, .copyConstruct noFail 0 4 1, .write 4 2 9, .resize ⟨true, false⟩ 1 8 8, .copyAssign noFail 2 4, .destroy 2]

theorem devOps_legal : BufDev.LegalRun splat8 devOps (BufDev.start devMem) := by
  refine ⟨rfl, fun s1 h1 => ?_⟩
  obtain rfl := Option.some.inj h1
  refine ⟨rfl, fun s2 h2 => ?_⟩
  obtain rfl := Option.some.inj h2
  refine ⟨rfl, fun s3 h3 => ?_⟩
  obtain rfl := Option.some.inj h3
  refine ⟨rfl, fun s4 h4 => ?_⟩
  obtain rfl := Option.some.inj h4
  refine ⟨⟨rfl, rfl⟩, fun s5 h5 => ?_⟩
  obtain rfl := Option.some.inj h5
  refine ⟨⟨rfl, rfl⟩, fun s6 h6 => ?_⟩
  obtain rfl := Option.some.inj h6
  refine ⟨⟨rfl, ⟨_, rfl, Or.inl rfl⟩, fun _ => rfl⟩, fun s7 h7 => ?_⟩
  obtain rfl := Option.some.inj h7
  refine ⟨⟨_, rfl, by decide, by decide⟩, fun s8 h8 => ?_⟩
  obtain rfl := Option.some.inj h8
  refine ⟨rfl, fun s9 h9 => ?_⟩
  obtain rfl := Option.some.inj h9
  refine ⟨⟨rfl, rfl⟩, fun s10 h10 => ?_⟩
  obtain rfl := Option.some.inj h10
  exact ⟨rfl, fun _ _ => trivial⟩

example : (BufDev.run splat8 devOps (BufDev.start devMem)).map
    (fun s => ((lookD s 4).map fun l => (l.type, l.elements), (lookD s 1).map fun l => (l.width, l.empty)))
    = some (some (1, [7, 7, 9, 7, 7, 7, 7, 7]), some (8, true)) := by
  decide +kernel

/-- Rows of 3 pixels of 3 colours in pinned memory, aligned to 4: 12 elements each. -/
example : ((BufDev.run splat8 [.construct noFail 2 0 3 2 3 4, .moveConstruct 0 1 0] (BufDev.start devMem)).map
    fun s => ((lookD s 0).map fun l => [l.width, l.height, l.colorCount, l.type],
      (lookD s 1).map fun l => [l.width, l.height, l.colorCount, l.alignment, l.rowSize, l.type, l.elements.length]))
    = some (some [0, 0, 1, 0], some [3, 2, 3, 4, 12, 2, 24]) := by
  decide +kernel

/-! ### C156 -/

/-- **C156** is false: after a `resize` whose allocation failed the image has no elements, but width, height and
    row size are those asked for; and the same `resize` again does nothing, also when there is memory. -/
theorem C156_failed_exact {splat : Nat → α → α} {s : BufDev.St α} (hs : ReachedD splat s) {f g : Fails} {i w h : Nat} {o : BufDev.Obj}
    (ho : s.obj i = some o) (hf : f.alloc = true) (hw : 0 < w) (hh : 0 < h) (hn : w ≠ o.width ∨ h ≠ o.height) :
    ∃ s', (BufDev.Op.resize f i w h : BufDev.Op α).exec splat s = .throw s' ∧
      (∃ r, lookD s' i = some ⟨w, h, o.cc, o.align, r, o.type, true, []⟩) ∧
      (∀ k, k ≠ i → lookD s' k = lookD s k) ∧
      (BufDev.Op.resize g i w h : BufDev.Op α).exec splat s' = .ok () s' := by
  have I := reachedD_inv hs
  have e := BufDev.resize_run (f := f) I ho ⟨hw, hh, hn⟩
  rw [hf, if_pos rfl] at e
  refine ⟨_, e, ⟨(o.sized w h).row, ?_⟩, fun k hk => lookD_same ((BufDev.good_failed w h I ho).frame k (by simpa using hk)), ?_⟩
  · rw [lookD, BufDev.failedSt, BufDev.put_same]
    rfl
  · exact BufDev.resize_idle (BufDev.put_same _ _ _) fun hc => by
      rcases hc.2.2 with h | h
      · exact h rfl
      · exact h rfl

/-- **C156** is false for assignments, too: when there is no memory for the copy the target has lost its elements
    and shows the sizes of the source. -/
theorem C156_copy_exact {splat : Nat → α → α} {s : BufDev.St α} (hs : ReachedD splat s) {f : Fails} {i j : Nat} {o p : BufDev.Obj}
    (ho : s.obj i = some o) (hp : s.obj j = some p) (hij : i ≠ j) (ht : o.type = p.type) (hd : p.data ≠ 0) (hf : f.alloc = true) :
    ∃ s', (BufDev.Op.copyAssign f i j : BufDev.Op α).exec splat s = .throw s' ∧
      lookD s' i = some ⟨p.width, p.height, p.cc, p.align, p.row, o.type, true, []⟩ ∧ ∀ k, k ≠ i → lookD s' k = lookD s k := by
  have I := reachedD_inv hs
  have e := BufDev.copy_run (f := f) I ho hp hij ht
  rw [if_neg hd, hf, if_pos rfl] at e
  refine ⟨_, e, ?_, fun k hk => lookD_same ((BufDev.good_copyFailed I ho (I.align j p hp)).frame k (by simpa using hk))⟩
  rw [lookD, BufDev.copyFailedSt, BufDev.put_same]
  rfl

/-- A 4 x 4 image for which there was no memory is as wide and high as one with elements. -/
theorem C156_wrong : ((BufDev.run splat8 [.construct noFail 0 1 0 0 1 1, .resize ⟨true, false⟩ 1 4 4, .resize noFail 1 4 4]
    (BufDev.start devMem)).bind fun s => lookD s 1) = some ⟨4, 4, 1, 1, 4, 0, true, []⟩ := by
  decide +kernel

/-- **C156**, constructors: when one throws there is no new image and no more memory in use than before, and
    other images are as before. -/
theorem C156_construct {splat : Nat → α → α} {s s' : BufDev.St α} (hs : ReachedD splat s) {op : BufDev.Op α} {i : Nat}
    (hop : (∃ f cls w h cc align, op = .construct f cls i w h cc align) ∨ (∃ f j w h cc align, op = .generate f i j w h cc align) ∨
      ∃ f cls j, op = .copyConstruct f cls i j)
    (hl : BufDev.Legal s op) (e : op.exec splat s = .throw s') :
    s'.obj i = none ∧ (∀ b, s'.live b = true → s.live b = true) ∧ ∀ k, lookD s' k = lookD s k := by
  have I := reachedD_inv hs
  have base : ∀ act : M (BufDev.St α) Unit, inBase i act s = .throw s' → s'.obj i = none := by
    intro act h
    simp only [inBase] at h
    split at h
    · cases h
      exact BufDev.put_same _ _ _
    · rename_i h2
      exact absurd h (h2 s')
  have derived : ∀ act : M (BufDev.St α) Unit, inDerived i act s = .throw s' → s'.obj i = none := by
    intro act h
    simp only [inDerived] at h
    split at h
    · rename_i t _
      cases hd : BufDev.clear i t with
      | ok a t2 =>
        rw [BufDev.destroy, bind_ok hd] at h
        simp only [BufDev.drop] at h
        cases h
        exact BufDev.put_same _ _ _
      | throw t2 =>
        rw [BufDev.destroy, bind_throw hd] at h
        cases h
      | ub =>
        rw [BufDev.destroy, bind_ub hd] at h
        cases h
    · rename_i h2
      exact absurd h (h2 s')
  have hi : s.obj i = none ∧ s'.obj i = none ∧ op.objs = [i] := by
    rcases hop with ⟨f, cls, w, h, cc, align, rfl⟩ | ⟨f, j, w, h, cc, align, rfl⟩ | ⟨f, cls, j, rfl⟩
    · refine ⟨hl, ?_, rfl⟩
      have e : BufDev.construct f cls i w h cc align s = .throw s' := e
      rw [BufDev.construct] at e
      split at e
      · exact base _ e
      · exact derived _ e
    · refine ⟨hl.1, ?_, rfl⟩
      obtain ⟨p, hp⟩ := Option.isSome_iff_exists.1 hl.2
      have e : BufDev.generate f i j w h cc align s = .throw s' := e
      rw [BufDev.generate, bind_ok (BufDev.getObj_run hp)] at e
      exact derived _ e
    · refine ⟨hl.1, ?_, rfl⟩
      have e : BufDev.copyConstruct f cls i j s = .throw s' := e
      rw [BufDev.copyConstruct] at e
      split at e
      · exact base _ e
      · exact derived _ e
  obtain ⟨s2, h1, g, _⟩ := BufDev.legal_step (splat := splat) I op hl
  rw [e] at h1
  cases h1
  rw [hi.2.2] at g
  refine ⟨hi.2.1, fun b hb => ?_, fun k => ?_⟩
  · obtain ⟨j, o, hj, hb'⟩ := g.inv.leak b hb
    have hji : j ≠ i := by
      rintro rfl
      rw [hi.2.1] at hj
      cases hj
    rw [(g.frame j (by simpa using hji)).1] at hj
    have h0 := (g.inv.used b hb).1
    subst hb'
    exact (I.block j o hj (by omega)).1
  · by_cases hk : k = i
    · subst hk
      rw [lookD, lookD, hi.1, hi.2.1]
      rfl
    · exact lookD_same (g.frame k (by simpa using hk))

example : ∃ s' : BufDev.St UInt8, (BufDev.Op.construct ⟨true, false⟩ 3 1 4 4 3 4 : BufDev.Op UInt8).exec splat8 (BufDev.start devMem) = .throw s' :=
  ⟨_, rfl⟩

/-- **C156**, what holds: after `clear`, or with another size, a `resize` for which there is memory gives the
    image memory of this size; other images stay. -/
theorem C156_retry_partial {splat : Nat → α → α} {s : BufDev.St α} (hs : ReachedD splat s) {f : Fails} {i w h : Nat} {o : BufDev.Obj}
    (ho : s.obj i = some o) (hf : f.alloc = false) (hw : 0 < w) (hh : 0 < h) (hn : w ≠ o.width ∨ h ≠ o.height) :
    ∃ s', (BufDev.Op.resize f i w h : BufDev.Op α).exec splat s = .ok () s' ∧
      (∃ l, lookD s' i = some l ∧ l.width = w ∧ l.height = h ∧ l.empty = false ∧ l.elements.length = h * l.rowSize ∧ l.type = o.type) ∧
      ∀ k, k ≠ i → lookD s' k = lookD s k := by
  have I := reachedD_inv hs
  have e := BufDev.resize_run (f := f) I ho ⟨hw, hh, hn⟩
  rw [hf] at e
  have hp : s.next ≠ 0 := by have := I.pos; omega
  refine ⟨_, e, ⟨_, by rw [lookD, BufDev.resizedSt, BufDev.put_same]; rfl, rfl, rfl, ?_, ?_, rfl⟩,
    fun k hk => lookD_same ((BufDev.good_resized w h I ho).frame k (by simpa using hk))⟩
  · exact beq_eq_false_iff_ne.mpr hp
  · show (if s.next = 0 then [] else _).length = _
    rw [if_neg hp]
    simp
    rfl

end PV.Props
