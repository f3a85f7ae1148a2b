import Verif.BufferStep
/-
  C04-C08, C70: the image container.
-/
namespace PV.Props

open PV PV.Buffer

variable {α : Type}

/-! ### What a user sees -/

/-- A state which a program can reach by calls that meet their preconditions. -/
def Reachable (s : St α) : Prop :=
  ∃ mem ops, LegalRun ops (start mem) ∧ run ops (start mem) = some s

/-- What can be observed of an image: `width()`, `height()`, `colorCount()`, `alignment()`,
    `rowSize()`, `type()`, `empty()` and the elements behind `data()`. -/
structure Look (α : Type) where
  width : Nat
  height : Nat
  colorCount : Nat
  alignment : Nat
  rowSize : Nat
  type : Nat
  empty : Bool
  elements : List α
deriving DecidableEq

def lookObj (s : St α) (o : Obj) : Look α :=
  ⟨o.width, o.height, o.cc, o.align, o.row, o.type, o.data == 0,
    (List.range (o.height * o.row)).map (s.mem.byte o.data)⟩

def look (s : St α) (i : Nat) : Option (Look α) := (s.obj i).map (lookObj s)

theorem reachable_inv {s : St α} (h : Reachable s) : Inv s := by
  obtain ⟨mem, ops, hl, hr⟩ := h
  obtain ⟨s', e, g⟩ := legal_run ops (inv_start mem) hl
  rw [e] at hr
  obtain rfl := Option.some.inj hr
  exact g.inv

theorem legalRun_append (ops : List (Op α)) {ops' : List (Op α)} : ∀ {s s' : St α}, LegalRun ops s → run ops s = some s' →
    LegalRun ops' s' → LegalRun (ops ++ ops') s := by
  induction ops with
  | nil =>
    intro s s' _ h h'
    obtain rfl := Option.some.inj h
    exact h'
  | cons op ops ih =>
    intro s s' hl h h'
    refine ⟨hl.1, fun s1 e => ih (hl.2 s1 e) ?_ h'⟩
    rw [run, e] at h
    exact h

theorem run_append (ops : List (Op α)) {ops' : List (Op α)} : ∀ {s s' : St α}, run ops s = some s' →
    run (ops ++ ops') s = run ops' s' := by
  induction ops with
  | nil =>
    intro s s' h
    obtain rfl := Option.some.inj h
    rfl
  | cons op ops ih =>
    intro s s' h
    rw [run] at h
    rw [List.cons_append, run]
    split
    · rename_i s1 e
      rw [e] at h
      exact ih h
    · rename_i e
      rw [e] at h
      exact absurd h (by simp)

theorem Reachable.later {s s' : St α} {ops : List (Op α)} (h : Reachable s) (hl : LegalRun ops s)
    (hr : run ops s = some s') : Reachable s' := by
  obtain ⟨mem, ops0, hl0, hr0⟩ := h
  exact ⟨mem, ops0 ++ ops, legalRun_append ops0 hl0 hr0 hl, by rw [run_append ops0 hr0, hr]⟩

theorem Reachable.step {s s' : St α} {op : Op α} (h : Reachable s) (hl : Legal s op) (hs : op.step s = some s') :
    Reachable s' :=
  h.later (ops := [op]) ⟨hl, fun _ _ => trivial⟩ (by rw [run, hs]; rfl)

theorem look_same {s s' : St α} {j : Nat} (I : Inv s) (h : Same s s' j) : look s' j = look s j := by
  rw [look, look, h.1]
  cases ho : s.obj j with
  | none => rfl
  | some o =>
    simp only [Option.map_some, lookObj, Option.some.injEq, Look.mk.injEq, true_and]
    refine List.map_congr_left fun k hk => ?_
    have hk := List.mem_range.mp hk
    have hd : o.data ≠ 0 := fun e => by
      obtain ⟨_, h0, _⟩ := (I.shape j o ho).empty e
      rw [h0, Nat.zero_mul] at hk
      omega
    have hb := ((I.shape j o ho).block hd).2.1
    exact (h.2 o ho hd).2.2 k (by omega)

/-! ### C04 -/

/-- **C04.**  After any history of calls that meet their preconditions - construction, copies,
    moves, `resize`, `clear`, `setColorCount`, `setAlignment`, `fill`, `swap`, `assign`,
    `mutate`, destruction, writing elements - nothing undefined has happened (no block was
    freed twice, no element outside of a block was touched), each non-empty image has an
    allocated block with at least `rowSize * height` elements, the row size is the least
    multiple of the alignment that holds `width * colorCount`, two images never share a block,
    an empty image has width, height and row size 0, and every allocated block belongs to an
    image or to the caller. -/
theorem C04_storage (mem : Mem α) (ops : List (Op α)) (hl : LegalRun ops (start mem)) :
    ∃ s, run ops (start mem) = some s ∧
      (∀ i o, s.obj i = some o → o.data ≠ 0 →
        s.live o.data = true ∧ o.height * o.row ≤ s.mem.size o.data ∧ 0 < o.width ∧ 0 < o.height ∧
        o.width * o.cc ≤ o.row ∧ o.row % o.align = 0 ∧ o.row < o.width * o.cc + o.align) ∧
      (∀ i o, s.obj i = some o → 0 < o.cc ∧ 0 < o.align) ∧
      (∀ i o, s.obj i = some o → o.data = 0 → o.width = 0 ∧ o.height = 0 ∧ o.row = 0) ∧
      (∀ i j o p, s.obj i = some o → s.obj j = some p → i ≠ j → o.data ≠ 0 → o.data ≠ p.data) ∧
      (∀ b, s.live b = true → s.ext b = true ∨ ∃ i o, s.obj i = some o ∧ o.data = b) := by
  obtain ⟨s, e, g⟩ := legal_run ops (inv_start mem) hl
  have I := g.inv
  refine ⟨s, e, fun i o ho hd => ?_, fun i o ho => ⟨(I.shape i o ho).cc, (I.shape i o ho).align⟩,
    fun i o ho hd => (I.shape i o ho).empty hd, fun i j o p ho hp hij hd he => hij (I.own i j o p ho hp he hd),
    I.leak⟩
  obtain ⟨b1, b2, b3, b4, r1, r2, r3, _⟩ := (I.shape i o ho).block hd
  exact ⟨b1, b2, b3, b4, r1, r3, r2⟩

/-! ### Examples of histories -/

/-- Memory before the examples. -/
def exMemB : Mem UInt8 := ⟨fun _ => 0, fun _ _ => 0⟩

/-- A 3x2 RGB image with alignment 4, a copy of it, a move into a third image, a resize. -/
def exOps : List (Op UInt8) :=
  [.construct 1 3 2 3 4 0, .fill 1 7, .copyConstruct 2 1, .write 2 5 9, .moveConstruct 3 2, .resize 1 5 4,
    .setColorCount 2 4, .swap 1 2]

theorem exOps_legal : LegalRun exOps (start exMemB) := by
  refine ⟨⟨rfl, 12, by decide⟩, fun s1 h1 => ?_⟩
  obtain rfl := Option.some.inj h1
  refine ⟨rfl, fun s2 h2 => ?_⟩
  obtain rfl := Option.some.inj h2
  refine ⟨⟨rfl, rfl⟩, fun s3 h3 => ?_⟩
  obtain rfl := Option.some.inj h3
  refine ⟨⟨_, rfl, by decide⟩, fun s4 h4 => ?_⟩
  obtain rfl := Option.some.inj h4
  refine ⟨⟨rfl, rfl⟩, fun s5 h5 => ?_⟩
  obtain rfl := Option.some.inj h5
  refine ⟨⟨_, rfl, 16, by decide⟩, fun s6 h6 => ?_⟩
  obtain rfl := Option.some.inj h6
  refine ⟨rfl, fun s7 h7 => ?_⟩
  obtain rfl := Option.some.inj h7
  exact ⟨⟨rfl, rfl⟩, fun _ _ => trivial⟩

/-- The end of this history: image 3 has the written copy, image 2 the resized one. -/
example : (run exOps (start exMemB)).map (fun s => (look s 3).map (fun l => (l.width, l.height, l.rowSize, l.elements)))
    = some (some (3, 2, 12, [7, 7, 7, 7, 7, 9, 7, 7, 7, 7, 7, 7, 7, 7, 7, 7, 7, 7, 7, 7, 7, 7, 7, 7])) := by
  decide +kernel

/-! ### C05 -/

/-- The blocks of the copy. -/
theorem look_copySt {s : St α} {i j : Nat} {o p : Obj} (hp : s.obj j = some p) (hd : p.data ≠ 0)
    (I : Inv s) (ht : o.type = p.type) : look (copySt s i o p) i = look s j := by
  have h : (copySt s i o p).obj i = some { p with data := s.next, type := o.type } := St.put_same _ _
  rw [look, look, h, hp]
  have := I.pos
  simp only [Option.map_some, lookObj, Option.some.injEq, Look.mk.injEq, true_and]
  refine ⟨ht, ?_, List.map_congr_left fun k hk => ?_⟩
  · rw [beq_eq_false_iff_ne.mpr hd, beq_eq_false_iff_ne.mpr (by omega)]
  · have hk := List.mem_range.mp hk
    simp only [copySt, true_and, hk, ↓reduceIte]

/-- **C05.**  After `b = a` for two different images of one type, both look like `a` looked
    before, and no image other than `b` has changed. -/
theorem C05_copy_equal {s : St α} (hs : Reachable s) {i j : Nat} {o p : Obj} (ho : s.obj i = some o)
    (hp : s.obj j = some p) (hij : i ≠ j) (ht : o.type = p.type) :
    ∃ s', (Op.copyAssign i j : Op α).step s = some s' ∧ Reachable s' ∧ look s' i = look s j ∧
      ∀ k, k ≠ i → look s' k = look s k := by
  have I := reachable_inv hs
  have hl : Legal s (.copyAssign i j : Op α) := ⟨by rw [ho]; rfl, by rw [hp]; rfl⟩
  by_cases hd : p.data = 0
  · have e := copy_empty_run I ho hp ht (Or.inl hd)
    have g := good_copy_empty I ho hp
    refine ⟨_, by rw [Op.step, Op.exec, e], hs.step hl (by rw [Op.step, Op.exec, e]), ?_, fun k hk => look_same I (g.frame k (by simpa using hk))⟩
    obtain ⟨e1, e2, e3⟩ := (I.shape j p hp).empty hd
    rw [look, look, St.put_same, hp]
    simp [lookObj, Obj.cleared, e1, e2, e3, ht, hd]
  · have e := copy_run I ho hp hij ht hd
    have g := good_copy I ho hp hd
    exact ⟨_, by rw [Op.step, Op.exec, e], hs.step hl (by rw [Op.step, Op.exec, e]), look_copySt hp hd I ht, fun k hk => look_same I (g.frame k (by simpa using hk))⟩

/-- **C05**, copy construction. -/
theorem C05_copy_construct {s : St α} (hs : Reachable s) {i j : Nat} {p : Obj} (hi : s.obj i = none)
    (hp : s.obj j = some p) :
    ∃ s', (Op.copyConstruct i j : Op α).step s = some s' ∧ Reachable s' ∧ look s' i = look s j ∧
      ∀ k, k ≠ i → look s' k = look s k := by
  have I := reachable_inv hs
  have hl : Legal s (.copyConstruct i j : Op α) := ⟨hi, by rw [hp]; rfl⟩
  obtain ⟨s', e, g⟩ := step_copyConstruct I hi hp
  have e' : (Op.copyConstruct i j : Op α).step s = some s' := by rw [Op.step, Op.exec, e]
  refine ⟨s', e', hs.step hl e', ?_, fun k hk => look_same I (g.frame k (by simpa using hk))⟩
  have hij : i ≠ j := fun e => by rw [← e, hi] at hp; exact absurd hp (by simp)
  have hp1 : (s.put i (some (fresh p.type))).obj j = some p := by rw [St.put_ne _ (Ne.symm hij)]; exact hp
  have I1 := (good_fresh (type := p.type) I hi).inv
  rw [copyConstruct, bind_ok (getObj_run hp), bind_ok (setObj_run i _)] at e
  by_cases hd : p.data = 0
  · rw [copy_empty_run I1 (St.put_same _ _) hp1 rfl (Or.inl hd)] at e
    obtain ⟨e1, e2, e3⟩ := (I.shape j p hp).empty hd
    rw [← (Res.ok.inj e).2, look, look, St.put_same, hp]
    simp [lookObj, Obj.cleared, e1, e2, e3, hd, fresh]
  · rw [copy_run I1 (St.put_same _ _) hp1 hij rfl hd] at e
    rw [← (Res.ok.inj e).2, look_copySt (o := fresh p.type) hp1 hd I1 rfl, look, look, hp1, hp]
    rfl

/-- **C05**, independence: an image keeps its look under every later history of calls which do
    not have it as a target - in particular whatever is written to an image it was copied from
    or to. -/
theorem C05_independent {s : St α} (hs : Reachable s) (ops : List (Op α)) (hl : LegalRun ops s) (k : Nat)
    (hk : ∀ op, op ∈ ops → k ∉ op.objs) : ∃ s', run ops s = some s' ∧ look s' k = look s k := by
  have I := reachable_inv hs
  obtain ⟨s', e, g⟩ := legal_run ops I hl
  refine ⟨s', e, look_same I (g.frame k fun h => ?_)⟩
  obtain ⟨op, h1, h2⟩ := List.mem_flatMap.mp h
  exact hk op h1 h2

/-- **C05**, the other direction: images of different types are not copied, and nothing changes. -/
theorem C05_types {s : St α} {i j : Nat} {o p : Obj} (ho : s.obj i = some o) (hp : s.obj j = some p)
    (ht : o.type ≠ p.type) : (Op.copyAssign i j : Op α).exec s = .throw s := copy_throw ho hp ht

/-- Two images of different shape; after the assignment both have the first's elements; then a
    write to one of them leaves the other. -/
def exCopy : List (Op UInt8) :=
  [.construct 1 2 2 1 1 0, .fill 1 7, .construct 2 5 1 3 1 0, .copyAssign 2 1, .write 1 3 9]

theorem exCopy_legal : LegalRun exCopy (start exMemB) := by
  refine ⟨⟨rfl, 2, by decide⟩, fun s1 h1 => ?_⟩
  obtain rfl := Option.some.inj h1
  refine ⟨rfl, fun s2 h2 => ?_⟩
  obtain rfl := Option.some.inj h2
  refine ⟨⟨rfl, 15, by decide⟩, fun s3 h3 => ?_⟩
  obtain rfl := Option.some.inj h3
  refine ⟨⟨rfl, rfl⟩, fun s4 h4 => ?_⟩
  obtain rfl := Option.some.inj h4
  exact ⟨⟨_, rfl, by decide⟩, fun _ _ => trivial⟩

example : (run exCopy (start exMemB)).map (fun s => ((look s 1).map (fun l => l.elements), (look s 2).map (fun l => (l.width, l.elements))))
    = some (some [7, 7, 7, 9], some (2, [7, 7, 7, 7])) := by
  decide +kernel

/-! ### C06 -/

/-- **C06** is false: assigning an image to itself destroys it.  For every reachable state and
    every image, `image = image` succeeds and leaves the image empty. -/
theorem C06_self_assign_empties {s : St α} (hs : Reachable s) {i : Nat} {o : Obj} (ho : s.obj i = some o) :
    ∃ s', (Op.copyAssign i i : Op α).exec s = .ok () s' ∧
      look s' i = some ⟨0, 0, o.cc, o.align, 0, o.type, true, []⟩ := by
  refine ⟨_, copy_empty_run (reachable_inv hs) ho ho rfl (Or.inr rfl), ?_⟩
  rw [look, St.put_same]
  simp [lookObj, Obj.cleared]

/-- **C06** is false: a concrete image of 2x2 elements that is lost. -/
theorem C06_self_assign_wrong : ∃ s s' : St UInt8, Reachable s ∧ (Op.copyAssign 1 1 : Op UInt8).exec s = .ok () s' ∧
    (look s 1).map Look.elements = some [7, 7, 7, 7] ∧ (look s' 1).map Look.elements = some [] ∧ look s' 1 ≠ look s 1 := by
  have hl : LegalRun [.construct 1 2 2 1 1 0, .fill 1 7] (start exMemB) := by
    refine ⟨⟨rfl, 2, by decide⟩, fun s1 h1 => ?_⟩
    obtain rfl := Option.some.inj h1
    exact ⟨rfl, fun _ _ => trivial⟩
  obtain ⟨s, e, g⟩ := legal_run _ (inv_start _) hl
  have hs : Reachable s := ⟨_, _, hl, e⟩
  have e' := Option.some.inj e
  have hel : (look s 1).map Look.elements = some [7, 7, 7, 7] := by
    rw [← e']
    decide +kernel
  have ho : ∃ o, s.obj 1 = some o := by
    rw [← e']
    exact ⟨_, rfl⟩
  obtain ⟨o, ho⟩ := ho
  obtain ⟨s', h1, h2⟩ := C06_self_assign_empties hs ho
  refine ⟨s, s', hs, h1, hel, by rw [h2]; rfl, fun h => ?_⟩
  rw [← h, h2] at hel
  exact absurd hel (by simp)

/-- **C06**, what holds: an empty image survives `image = image`.  Missing: every non-empty
    image, for which the property is false. -/
theorem C06_self_assign_partial {s : St α} (hs : Reachable s) {i : Nat} {o : Obj} (ho : s.obj i = some o)
    (he : o.data = 0) : ∃ s', (Op.copyAssign i i : Op α).exec s = .ok () s' ∧ ∀ k, look s' k = look s k := by
  have I := reachable_inv hs
  refine ⟨_, copy_empty_run I ho ho rfl (Or.inr rfl), fun k => ?_⟩
  by_cases hk : k = i
  · subst hk
    obtain ⟨e1, e2, e3⟩ := (I.shape k o ho).empty he
    rw [look, St.put_same, look, ho]
    simp [lookObj, Obj.cleared, e1, e2, e3, he]
  · exact look_same I ((good_copy_empty I ho ho).frame k (by simpa using hk))

/-- **C06** for the move assignment holds: `image = std::move( image )` keeps the image. -/
theorem C06_self_move {s : St α} {i : Nat} {o : Obj} (ho : s.obj i = some o) :
    ∃ s', (Op.moveAssign i i : Op α).exec s = .ok () s' ∧ ∀ k, look s' k = look s k := by
  refine ⟨_, swap_run ho ho, fun k => ?_⟩
  have : (swapSt s i i).obj k = s.obj k := by
    simp only [swapSt]
    split
    · rename_i h
      rw [h]
    · rfl
  rw [look, this]
  rfl

/-! ### C07 -/

/-- **C07**, first half: when `mutate` returns false nothing has changed. -/
theorem C07_mutate_false {s s' : St α} {i w h cc align : Nat} (hm : mutate i w h cc align s = .ok false s') :
    s' = s := by
  rw [mutate] at hm
  obtain ⟨o, s1, h1, hk⟩ := bind_eq_ok.mp hm
  have hs1 : s1 = s := by
    rw [getObj] at h1
    split at h1
    · exact (Res.ok.inj h1).2.symm
    · exact absurd h1 (by simp)
  subst hs1
  clear hm
  split at hk
  · rename_i hc
    obtain ⟨r, s2, h2, hl⟩ := bind_eq_ok.mp hk
    have hs2 : s2 = s1 := by
      rw [rowSize, if_neg (by omega)] at h2
      exact (Res.ok.inj h2).2.symm
    subst hs2
    split at hl
    · exact (Res.ok.inj hl).2.symm
    · obtain ⟨_, s3, h3, hn⟩ := bind_eq_ok.mp hl
      exact absurd (Res.ok.inj hn).1 (by simp)
  · exact (Res.ok.inj hk).2.symm

/-- **C07**, second half, under the guard that the sizes fit into 32 bits: `mutate` returns true
    exactly for the positive colour counts and alignments whose shape has as many elements as
    the image, and then the image has this shape, its elements, and a block that holds them.
    Missing: sizes of 2^32 elements and more, for which the property is false. -/
theorem C07_mutate_true_partial {s : St α} (hs : Reachable s) {i w h cc align r : Nat} {o : Obj}
    (ho : s.obj i = some o) (hsz : o.height * o.row < 4294967296) (hw : 0 < w) (hh : 0 < h)
    (hr : RowIs w cc align r) (hrs : h * r < 4294967296) :
    ∃ b s', mutate i w h cc align s = .ok b s' ∧
      (b = true ↔ 0 < cc ∧ 0 < align ∧ h * r = o.height * o.row) ∧
      (b = true → look s' i = some ⟨w, h, cc, align, r, o.type, false,
          (List.range (h * r)).map (s.mem.byte o.data)⟩ ∧
        h * r ≤ s'.mem.size o.data ∧ s'.live o.data = true ∧ ∀ k, k ≠ i → look s' k = look s k) := by
  have I := reachable_inv hs
  rw [mutate, bind_ok (getObj_run ho)]
  by_cases hc : 0 < cc ∧ 0 < align
  · rw [if_pos hc, rowSize_run hc.2 hr, pure_bind', Nat.mul_comm r, Nat.mul_comm o.row, u32_of_lt hsz, u32_of_lt hrs]
    by_cases he : h * r = o.height * o.row
    · rw [if_neg (by simp [he])]
      refine ⟨true, _, bind_ok (setObj_run i _), by simp [hc, he], fun _ => ?_⟩
      have hr0 : 0 < r := Nat.lt_of_lt_of_le (Nat.mul_pos hw hc.1) hr.1
      have hd : o.data ≠ 0 := fun e => by
        obtain ⟨_, h0, _⟩ := (I.shape i o ho).empty e
        have := Nat.mul_pos hh hr0
        rw [h0, Nat.zero_mul] at he
        omega
      obtain ⟨b1, b2, _⟩ := (I.shape i o ho).block hd
      have g := good_relabel (q := { o with width := w, height := h, cc := cc, align := align, row := r }) I ho rfl hd
        hc.1 hc.2 (Nat.le_of_eq he) hw hh hr
      refine ⟨?_, by rw [he]; exact b2, b1, fun k hk => look_same I (g.frame k (by simpa using hk))⟩
      rw [look, St.put_same]
      simp only [Option.map_some, lookObj, Option.some.injEq, Look.mk.injEq, true_and]
      exact ⟨beq_eq_false_iff_ne.mpr hd, rfl⟩
    · rw [if_pos he]
      exact ⟨false, s, rfl, by simp [he], fun h => absurd h (by simp)⟩
  · rw [if_neg hc]
    refine ⟨false, s, rfl, ⟨fun h => absurd h (by simp), fun h => absurd ⟨h.1, h.2.1⟩ hc⟩, fun h => absurd h (by simp)⟩

/-- A 1x1 image. -/
def exOne : List (Op UInt8) := [.construct 1 1 1 1 1 0]

theorem exOne_legal : LegalRun exOne (start exMemB) := ⟨⟨rfl, 1, by decide⟩, fun _ _ => trivial⟩

/-- A 6x2 image can be seen as 4x3. -/
example : ∃ s, run [.construct 1 6 2 1 1 0] (start exMemB) = some s ∧
    ∃ s', mutate 1 4 3 1 1 s = .ok true s' :=
  ⟨_, rfl, _, rfl⟩

/-- **C07** is false: a 1x1 image accepts the shape 641 x 6700417, whose size is 2^32 + 1. -/
theorem C07_mutate_wrong : ∃ s s' : St UInt8, Reachable s ∧ mutate 1 641 6700417 1 1 s = .ok true s' ∧
    ∃ o, s'.obj 1 = some o ∧ s'.mem.size o.data = 1 ∧ o.height * o.row = 4294967297 ∧ o.data ≠ 0 := by
  refine ⟨_, _, ⟨_, _, exOne_legal, rfl⟩, rfl, _, rfl, rfl, ?_, ?_⟩
  · rfl
  · exact Nat.one_ne_zero

/-- **C07** is false for empty images too: an empty image accepts the shape 65536 x 65536 and
    has this shape then although it has no storage. -/
theorem C07_mutate_empty_wrong : ∃ s s' : St UInt8, Reachable s ∧ mutate 1 65536 65536 1 1 s = .ok true s' ∧
    ∃ o, s'.obj 1 = some o ∧ o.data = 0 ∧ o.width = 65536 ∧ o.height = 65536 := by
  have hl : LegalRun [.construct 1 0 0 1 1 0] (start exMemB) := ⟨⟨rfl, 0, by decide⟩, fun _ _ => trivial⟩
  exact ⟨_, _, ⟨_, _, hl, rfl⟩, rfl, _, rfl, rfl, rfl, rfl⟩

/-! ### C08 -/

/-- **C08.**  `swap` and the move assignment exchange the complete contents of two images, and
    no other image changes. -/
theorem C08_swap {s : St α} (hs : Reachable s) {i j : Nat} {o p : Obj} (ho : s.obj i = some o) (hp : s.obj j = some p) :
    ∃ s', (Op.swap i j : Op α).exec s = .ok () s' ∧ (Op.moveAssign i j : Op α).exec s = .ok () s' ∧ Reachable s' ∧
      look s' i = look s j ∧ look s' j = look s i ∧ ∀ k, k ≠ i → k ≠ j → look s' k = look s k := by
  have I := reachable_inv hs
  have hl : Legal s (.swap i j : Op α) := ⟨by rw [ho]; rfl, by rw [hp]; rfl⟩
  have e : (Op.swap i j : Op α).exec s = .ok () (swapSt s i j) := swap_run ho hp
  refine ⟨_, e, e, hs.step hl (by rw [Op.step, e]), ?_, ?_, fun k h1 h2 => ?_⟩
  · rw [look, look]
    simp only [swapSt, ↓reduceIte]
    rfl
  · rw [look, look]
    simp only [swapSt, ↓reduceIte]
    split
    · rename_i h
      rw [h]
      rfl
    · rfl
  · exact look_same I ((good_swap I).frame k (by simp [h1, h2]))

/-- **C08**, move construction: the new image has the contents of the old one, which is an empty
    image with the default settings afterwards; no other image changes. -/
theorem C08_move_construct {s : St α} (hs : Reachable s) {i j : Nat} {p : Obj} (hi : s.obj i = none)
    (hp : s.obj j = some p) :
    ∃ s', (Op.moveConstruct i j : Op α).exec s = .ok () s' ∧ Reachable s' ∧
      look s' i = look s j ∧ look s' j = some ⟨0, 0, 1, 1, 0, 0, true, []⟩ ∧
      ∀ k, k ≠ i → k ≠ j → look s' k = look s k := by
  have I := reachable_inv hs
  have hl : Legal s (.moveConstruct i j : Op α) := ⟨hi, by rw [hp]; rfl⟩
  have hij : i ≠ j := fun e => by rw [← e, hi] at hp; exact absurd hp (by simp)
  obtain ⟨e, g⟩ := step_moveConstruct I hi hp
  refine ⟨_, e, hs.step hl (by rw [Op.step, Op.exec, e]), ?_, ?_, fun k h1 h2 => look_same I (g.frame k (by simp [h1, h2]))⟩
  · rw [look, look]
    simp only [swapSt, ↓reduceIte]
    rw [St.put_ne _ (Ne.symm hij), hp]
    rfl
  · rw [look]
    simp only [swapSt, if_neg (Ne.symm hij), ↓reduceIte]
    rw [St.put_same]
    rfl

/-- **C08**, nothing is leaked: when all images are gone, only blocks of the caller are
    allocated.  That nothing is freed twice or shared on the way is C04. -/
theorem C08_no_leak {s : St α} (hs : Reachable s) (hnone : ∀ i, s.obj i = none) (b : Nat) (hb : s.live b = true) :
    s.ext b = true := by
  rcases (reachable_inv hs).leak b hb with h | ⟨i, o, ho, _⟩
  · exact h
  · rw [hnone] at ho
    exact absurd ho (by simp)

/-- Two images made, swapped, moved and destroyed. -/
def exGone : List (Op UInt8) :=
  [.construct 1 2 2 1 1 0, .construct 2 5 1 3 1 0, .swap 1 2, .moveConstruct 3 1, .destroy 1, .destroy 2, .destroy 3]

theorem exGone_legal : LegalRun exGone (start exMemB) := by
  refine ⟨⟨rfl, 2, by decide⟩, fun s1 h1 => ?_⟩
  obtain rfl := Option.some.inj h1
  refine ⟨⟨rfl, 15, by decide⟩, fun s2 h2 => ?_⟩
  obtain rfl := Option.some.inj h2
  refine ⟨⟨rfl, rfl⟩, fun s3 h3 => ?_⟩
  obtain rfl := Option.some.inj h3
  refine ⟨⟨rfl, rfl⟩, fun s4 h4 => ?_⟩
  obtain rfl := Option.some.inj h4
  refine ⟨rfl, fun s5 h5 => ?_⟩
  obtain rfl := Option.some.inj h5
  refine ⟨rfl, fun s6 h6 => ?_⟩
  obtain rfl := Option.some.inj h6
  exact ⟨rfl, fun _ _ => trivial⟩

example : (run exGone (start exMemB)).map (fun s => ([1, 2, 3].map fun i => (s.obj i).isSome, [1, 2, 3].map s.live))
    = some ([false, false, false], [false, false, false]) := by decide +kernel

/-! ### C70 -/

/-- **C70.**  `resize` to another positive size gives an image of exactly this size which keeps
    its colour count, alignment and type and has a block; with a zero or with the size the
    image has already, it changes nothing.  No other image changes. -/
theorem C70_resize {s : St α} (hs : Reachable s) {i w h r : Nat} {o : Obj} (ho : s.obj i = some o)
    (hr : RowIs w o.cc o.align r) :
    ∃ s', (Op.resize i w h : Op α).exec s = .ok () s' ∧ Reachable s' ∧ (∀ k, k ≠ i → look s' k = look s k) ∧
      ((w = 0 ∨ h = 0 ∨ (w = o.width ∧ h = o.height)) → s' = s) ∧
      ((0 < w ∧ 0 < h) → ∃ q, s'.obj i = some q ∧ q.width = w ∧ q.height = h ∧ q.cc = o.cc ∧ q.align = o.align ∧
        q.type = o.type ∧ q.data ≠ 0) := by
  have I := reachable_inv hs
  obtain ⟨s', e, g⟩ := step_resize (h := h) I ho hr
  refine ⟨s', e, hs.step (op := .resize i w h) ⟨o, ho, r, hr⟩ (by rw [Op.step, Op.exec, e]),
    fun k hk => look_same I (g.frame k (by simpa using hk)), fun hz => ?_, fun hp => ?_⟩
  · rw [resize_run I ho hr, if_neg (by omega)] at e
    exact (Res.ok.inj e).2.symm
  · rw [resize_run I ho hr] at e
    rw [← (Res.ok.inj e).2]
    split
    · have := I.pos
      exact ⟨_, St.put_same _ _, rfl, rfl, rfl, rfl, rfl, by simp only; omega⟩
    · rename_i hn
      refine ⟨o, ho, by omega, by omega, rfl, rfl, rfl, fun hd => ?_⟩
      have := (I.shape i o ho).empty hd
      omega

/-- **C70.**  `fill` gives every element of the image, padding included, the value, and changes
    nothing else. -/
theorem C70_fill {s : St α} (hs : Reachable s) {i : Nat} {o : Obj} (v : α) (ho : s.obj i = some o) :
    ∃ s', (Op.fill i v).exec s = .ok () s' ∧ Reachable s' ∧ (∀ k, k ≠ i → look s' k = look s k) ∧
      look s' i = some { lookObj s o with elements := List.replicate (o.height * o.row) v } := by
  have I := reachable_inv hs
  obtain ⟨s', e, g⟩ := step_fill v I ho
  refine ⟨s', e, hs.step (op := .fill i v) (by rw [Legal, ho]; rfl) (by rw [Op.step, Op.exec, e]),
    fun k hk => look_same I (g.frame k (by simpa using hk)), ?_⟩
  rw [fill, bind_ok (getObj_run ho)] at e
  split at e
  · rename_i hd
    rw [← (Res.ok.inj e).2, look, ho]
    obtain ⟨_, e2, _⟩ := (I.shape i o ho).empty hd
    simp [lookObj, e2]
  · rename_i hd
    obtain ⟨b1, b2, _⟩ := (I.shape i o ho).block hd
    rw [setBlock, if_pos ⟨b1, b2⟩] at e
    rw [← (Res.ok.inj e).2, look, ho]
    simp only [Option.map_some, lookObj, true_and, Option.some.injEq, Look.mk.injEq]
    refine List.ext_getElem (by simp) fun k hk _ => ?_
    have hk : k < o.height * o.row := by simpa using hk
    simp [hk]

/-- **C70.**  Construction gives the requested size, colour count and alignment (a zero counts as
    one), the least row size, and no storage exactly when the width or the height is zero. -/
theorem C70_construct {s : St α} (hs : Reachable s) {i w h cc align type r : Nat} (hi : s.obj i = none)
    (hr : RowIs w (if cc = 0 then 1 else cc) (if align = 0 then 1 else align) r) :
    ∃ s', (Op.construct i w h cc align type : Op α).exec s = .ok () s' ∧ Reachable s' ∧
      (∀ k, k ≠ i → look s' k = look s k) ∧
      ∃ q, s'.obj i = some q ∧ q.cc = (if cc = 0 then 1 else cc) ∧ q.align = (if align = 0 then 1 else align) ∧
        q.type = type ∧ (0 < w → 0 < h → q.width = w ∧ q.height = h ∧ q.row = r ∧ q.data ≠ 0) ∧
        ((w = 0 ∨ h = 0) → q.data = 0 ∧ q.width = 0 ∧ q.height = 0 ∧ q.row = 0) := by
  have I := reachable_inv hs
  obtain ⟨s', e, g, q, hq, h1, h2, h3, h4, h5⟩ := step_construct (h := h) (type := type) I hi hr
  refine ⟨s', e, hs.step (op := .construct i w h cc align type) ⟨hi, r, hr⟩ (by rw [Op.step, Op.exec, e]),
    fun k hk => look_same I (g.frame k (by simpa using hk)), q, hq, h1, h2, h3, h4, fun hz => ?_⟩
  exact ⟨h5 hz, (g.inv.shape i q hq).empty (h5 hz)⟩

/-- The container is ready for the pixel functions: the elements of a reachable non-empty image
    form an image in the sense of the other properties. -/
theorem C70_pixel_functions {s : St α} (hs : Reachable s) {i : Nat} {o : Obj} (ho : s.obj i = some o) (hd : o.data ≠ 0)
    (hsmall : o.height * o.row < 4294967296) :
    Image.WF s.mem ⟨o.data, o.width, o.height, o.cc, o.row⟩ := by
  obtain ⟨_, b2, _, _, r1, _⟩ := ((reachable_inv hs).shape i o ho).block hd
  exact ⟨r1, by rw [Nat.mul_comm]; exact b2, by rw [Nat.mul_comm]; exact hsmall⟩

/-- The start of the first example meets the preconditions of all three. -/
example : ∃ s : St UInt8, Reachable s ∧ s.obj 1 = none ∧ RowIs 3 3 4 12 := ⟨_, ⟨exMemB, [], trivial, rfl⟩, rfl, by decide⟩

end PV.Props
