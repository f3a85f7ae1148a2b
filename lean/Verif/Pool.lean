import Verif.Tiles
import Verif.Interleave
import Verif.Reduce
/-
  Model of the pooled functions (src/function_pool.cpp): setting up the tiles, the task
  bodies, and collecting the results.  The scheduling of the tasks by the thread pool is
  modelled in `Threads.lean`; here the tasks of one call are run in every possible
  interleaving of their memory accesses.
-/
namespace PV

variable {μ A Γ : Type}

/-! ### Setting up -/

/-- `InputImageInfo`/`OutputImageInfo` for one image, src/function_pool_task.cpp 124-132 as
    called in the `_setup` functions: first `threadCount()`, then `AreaInfo::_calculate`. -/
def poolArea (v : View) (w h n : Nat) : M μ (List Tile) := do
  let c ← poolThreads n
  areaCalculate v.x v.y w h c

/-- `_setup` for one image, src/function_pool_task.cpp 138-145. -/
def poolSetup1 (v : View) (w h n : Nat) : M μ (List Tile) := do
  validateRois [v] w h
  poolArea v w h n

/-- `_setup` for two images, src/function_pool_task.cpp 147-166 (both variants have the same
    shape). -/
def poolSetup2 (v1 v2 : View) (w h n : Nat) : M μ (List Tile × List Tile) := do
  validateRois [v1, v2] w h
  let a1 ← poolArea v1 w h n
  let a2 ← poolArea v2 w h n
  pure (a1, a2)

/-- `_setup` for two inputs and an output, src/function_pool_task.cpp 184-194. -/
def poolSetup3 (v1 v2 v3 : View) (w h n : Nat) : M μ (List Tile × List Tile × List Tile) := do
  validateRois [v1, v2, v3] w h
  let a1 ← poolArea v1 w h n
  let a2 ← poolArea v2 w h n
  let a3 ← poolArea v3 w h n
  pure (a1, a2, a3)

/-- `_setup` for four images, src/function_pool_task.cpp 196-208 (one input, three outputs)
    and 210-223 (three inputs, one output): two calls of the validation, then four areas. -/
def poolSetup4 (v1 v2 v3 v4 : View) (w h n : Nat) :
    M μ (List Tile × List Tile × List Tile × List Tile) := do
  validateRois [v1, v2, v3] w h
  validateRois [v1, v4] w h
  let a1 ← poolArea v1 w h n
  let a2 ← poolArea v2 w h n
  let a3 ← poolArea v3 w h n
  let a4 ← poolArea v4 w h n
  pure (a1, a2, a3, a4)

/-- `_setup` with separate sizes, src/function_pool_task.cpp 168-182; used by Resize
    (`oppositeAxis = false`) and Transpose (`oppositeAxis = true`). -/
def poolSetupSizes (inp : View) (wi hi : Nat) (out : View) (wo ho : Nat) (opposite : Bool) (n : Nat) :
    M μ (List Tile × List Tile) := do
  validateRois [inp] wi hi
  validateRois [out] wo ho
  let ai ← poolArea inp (min wi wo) (min hi ho) n
  let ao ← poolArea out wo ho n
  let ao ← areaCopy ao ai out.x out.y wo ho opposite
  let ai ← areaCopy ai ao inp.x inp.y wi hi opposite
  pure (ai, ao)

/-- The loops of `FunctionTask::Flip`, src/function_pool.cpp 219-234, on the output tiles. -/
def flipTiles (out : View) (w h : Nat) (horizontal vertical : Bool) (a : List Tile) : List Tile :=
  match a with
  | t0 :: t1 :: _ =>
    if t0.y = t1.y then
      if horizontal then a.map fun t => { t with x := u32 (2 * out.x + w + 4294967296 - u32 (t.x + t.w)) }
      else a
    else
      if vertical then a.map fun t => { t with y := u32 (2 * out.y + h + 4294967296 - u32 (t.y + t.h)) }
      else a
  | _ => a

/-- `FunctionTask::Flip` up to `_process`, src/function_pool.cpp 212-236. -/
def poolSetupFlip (inp out : View) (w h : Nat) (horizontal vertical : Bool) (n : Nat) :
    M μ (List Tile × List Tile) := do
  let a ← poolSetup2 inp out w h n
  pure (a.1, flipTiles out w h horizontal vertical a.2)

/-! ### Task bodies: `FunctionTask::_task`, src/function_pool.cpp 410-527 -/

/-- The view given by entry `t` of the vectors. src/function_pool_task.h 31-65. -/
def View.at (v : View) (t : Tile) : View := ⟨v.img, t.x, t.y⟩

/-- A task on one image (Histogram, ProjectionProfile, Sum). src/function_pool.cpp 455-458, 486-489, 508-511. -/
def task1 (F : View → Nat → Nat → M μ A) (v : View) (a : List Tile) (i : Nat) : M μ A := do
  let t ← orUb a[i]?
  F (v.at t) t.w t.h

/-- A task on two images (Invert, IsEqual, Threshold, ...); the size is that of the first. src/function_pool.cpp 410-527. -/
def task2 (F : View → View → Nat → Nat → M μ A) (v1 v2 : View) (a : List Tile × List Tile) (i : Nat) :
    M μ A := do
  let t1 ← orUb a.1[i]?
  let t2 ← orUb a.2[i]?
  F (v1.at t1) (v2.at t2) t1.w t1.h

/-- A task on three images (AbsoluteDifference, ..., Subtract). src/function_pool.cpp 410-527. -/
def task3 (F : View → View → View → Nat → Nat → M μ A) (v1 v2 v3 : View)
    (a : List Tile × List Tile × List Tile) (i : Nat) : M μ A := do
  let t1 ← orUb a.1[i]?
  let t2 ← orUb a.2.1[i]?
  let t3 ← orUb a.2.2[i]?
  F (v1.at t1) (v2.at t2) (v3.at t3) t1.w t1.h

/-- A task on four images (Merge, Split). src/function_pool.cpp 410-527. -/
def task4 (F : View → View → View → View → Nat → Nat → M μ A) (v1 v2 v3 v4 : View)
    (a : List Tile × List Tile × List Tile × List Tile) (i : Nat) : M μ A := do
  let t1 ← orUb a.1[i]?
  let t2 ← orUb a.2.1[i]?
  let t3 ← orUb a.2.2.1[i]?
  let t4 ← orUb a.2.2.2[i]?
  F (v1.at t1) (v2.at t2) (v3.at t3) (v4.at t4) t1.w t1.h

/-! ### The same bodies as programs of single accesses -/

/-- Like `orUb` for programs. Not in the code: machinery of the model. -/
def Prog.orUb {α A : Type} : Option A → Prog α A
  | some a => .ret a
  | none => .ub

/-- The tasks as programs of single accesses, src/function_pool.cpp 410-524. -/
def ptask2 (G : View → View → Nat → Nat → Prog UInt8 A) (v1 v2 : View) (a : List Tile × List Tile)
    (i : Nat) : Prog UInt8 A := do
  let t1 ← Prog.orUb a.1[i]?
  let t2 ← Prog.orUb a.2[i]?
  G (v1.at t1) (v2.at t2) t1.w t1.h

/-- The tasks as programs of single accesses, src/function_pool.cpp 410-524. -/
def ptask3 (G : View → View → View → Nat → Nat → Prog UInt8 A) (v1 v2 v3 : View)
    (a : List Tile × List Tile × List Tile) (i : Nat) : Prog UInt8 A := do
  let t1 ← Prog.orUb a.1[i]?
  let t2 ← Prog.orUb a.2.1[i]?
  let t3 ← Prog.orUb a.2.2[i]?
  G (v1.at t1) (v2.at t2) (v3.at t3) t1.w t1.h

/-- The tasks as programs of single accesses, src/function_pool.cpp 410-524. -/
def ptask4 (G : View → View → View → View → Nat → Nat → Prog UInt8 A) (v1 v2 v3 v4 : View)
    (a : List Tile × List Tile × List Tile × List Tile) (i : Nat) : Prog UInt8 A := do
  let t1 ← Prog.orUb a.1[i]?
  let t2 ← Prog.orUb a.2.1[i]?
  let t3 ← Prog.orUb a.2.2.1[i]?
  let t4 ← Prog.orUb a.2.2.2[i]?
  G (v1.at t1) (v2.at t2) (v3.at t3) (v4.at t4) t1.w t1.h

/-- The accesses of a two-input bytewise function. For example src/image_function.cpp 227-236. -/
def prog2 (f : UInt8 → UInt8 → UInt8) (in1 in2 out : View) (w h : Nat) : Prog UInt8 Unit :=
  Prog.fold (fun p _ => do
    let a ← Prog.load in1.img.data (in1.cell p.1 p.2.1 p.2.2)
    let b ← Prog.load in2.img.data (in2.cell p.1 p.2.1 p.2.2)
    Prog.store out.img.data (out.cell p.1 p.2.1 p.2.2) (f a b)) (bytesL w h in1.img.cc) ()

/-- The accesses of a one-input bytewise function. For example src/image_function.cpp 997-1005. -/
def prog1 (f : UInt8 → UInt8) (inp out : View) (w h : Nat) : Prog UInt8 Unit :=
  Prog.fold (fun p _ => do
    let a ← Prog.load inp.img.data (inp.cell p.1 p.2.1 p.2.2)
    Prog.store out.img.data (out.cell p.1 p.2.1 p.2.2) (f a)) (bytesL w h inp.img.cc) ()

/-! ### Sub-rectangles -/

/-- The part of a rectangle covered by a tile (tile relative to the start point). Not in the code: for statements and proofs. -/
def View.sub (v : View) (t : Tile) : View := ⟨v.img, v.x + t.x, v.y + t.y⟩

theorem View.at_shift (v : View) (t : Tile) : v.at (t.shift v.x v.y) = v.sub t := rfl

theorem View.sub_cell (v : View) (t : Tile) (x y c : Nat) :
    (v.sub t).cell x y c = v.cell (t.x + x) (t.y + y) c := by
  simp only [View.cell, View.sub, Nat.add_assoc]

theorem View.sub_get {α : Type} (v : View) (t : Tile) (m : Mem α) (x y c : Nat) :
    (v.sub t).get m x y c = v.get m (t.x + x) (t.y + y) c := by
  simp only [View.get, View.sub_cell]
  rfl

/-- The tile lies inside the rectangle and is not empty. Not in the code: for statements and proofs. -/
structure Tile.In (t : Tile) (w h : Nat) : Prop where
  wpos : 0 < t.w
  hpos : 0 < t.h
  inX : t.x + t.w ≤ w
  inY : t.y + t.h ≤ h

theorem Tiling.tileIn {L : List Tile} {w h : Nat} (hL : Tiling L 0 0 w h) {t : Tile} (ht : t ∈ L) :
    t.In w h := by
  obtain ⟨a, b⟩ := hL.nonempty t ht
  have := hL.inside t ht
  exact ⟨a, b, by omega, by omega⟩

theorem View.Fits.sub {v : View} {w h : Nat} (fit : v.Fits w h) {t : Tile} (ht : t.In w h) :
    (v.sub t).Fits t.w t.h := by
  have h1 := fit.inX
  have h2 := fit.inY
  have h3 := ht.inX
  have h4 := ht.inY
  exact ⟨fit.nonempty, fit.colors, ht.wpos, ht.hpos, by simp only [View.sub]; omega, by simp only [View.sub]; omega⟩

theorem NoClash.sub {vi vo : View} {w h : Nat} (hn : NoClash vi vo w h) {t : Tile} (ht : t.In w h) :
    NoClash (vi.sub t) (vo.sub t) t.w t.h := by
  intro x y c x' y' c' hx hy hc hx' hy' hc' hd he
  rw [View.sub_cell, View.sub_cell] at he
  have h3 := ht.inX
  have h4 := ht.inY
  have := hn (t.x + x) (t.y + y) c (t.x + x') (t.y + y') c' (by omega) (by omega) hc (by omega)
    (by omega) hc' hd he
  omega

theorem Apart.sub {vi vo : View} {wi hi wo ho : Nat} (hn : Apart vi wi hi vo wo ho) {ti to : Tile}
    (hti : ti.In wi hi) (hto : to.In wo ho) :
    Apart (vi.sub ti) ti.w ti.h (vo.sub to) to.w to.h := by
  intro x y c x' y' c' hx hy hc hx' hy' hc' hd he
  rw [View.sub_cell, View.sub_cell] at he
  have h1 := hti.inX
  have h2 := hti.inY
  have h3 := hto.inX
  have h4 := hto.inY
  exact hn (ti.x + x) (ti.y + y) c (to.x + x') (to.y + y') c' (by omega) (by omega) hc (by omega)
    (by omega) hc' hd he

/-! ### Running the tasks of one call -/

/-- The cells of the rectangle `v`, `w` x `h`. Not in the code: for statements and proofs. -/
def View.cells (v : View) (w h : Nat) (c : Nat × Nat) : Prop :=
  c.1 = v.img.data ∧ ∃ x y ch, x < w ∧ y < h ∧ ch < v.img.cc ∧ c.2 = v.cell x y ch

/-- A cell of a tile, as a position of the whole rectangle. -/
theorem View.cells_sub {v : View} {t : Tile} {c : Nat × Nat} (h : (v.sub t).cells t.w t.h c) :
    c.1 = v.img.data ∧ ∃ x y ch, t.Has x y ∧ ch < v.img.cc ∧ c.2 = v.cell x y ch := by
  obtain ⟨h1, x, y, ch, hx, hy, hc, he⟩ := h
  rw [View.sub_cell] at he
  exact ⟨h1, t.x + x, t.y + y, ch, ⟨by omega, by omega, by omega, by omega⟩, hc, he⟩

/-- Tasks that each write their own tile of `out` with the values `F` prescribes, and that
    read nothing that another task writes, together write the whole rectangle, in every
    schedule. -/
theorem pooled_writes {m : BMem} {out : View} {w h : Nat} (wf : out.img.WF m) (fit : out.Fits w h)
    {L : List Tile} (hL : Tiling L 0 0 w h) {F : Nat → Nat → Nat → UInt8}
    {P : Fin L.length → Prog UInt8 Unit} {R : Fin L.length → Nat × Nat → Prop}
    (hfoot : ∀ i, (P i).Foot (R i) ((out.sub L[i]).cells L[i].w L[i].h))
    (hR : ∀ i j, i ≠ j → ∀ c, R j c → ¬ (out.sub L[i]).cells L[i].w L[i].h c)
    (hrun : ∀ i, ∃ m', (P i).run m = .ok () m' ∧
      WritesRoi m m' (out.sub L[i]) L[i].w L[i].h fun x y c => F (L[i].x + x) (L[i].y + y) c)
    (σ : List (Fin L.length)) :
    ((⟨m, P⟩ : Sys UInt8 Unit _).exec σ).NoError ∧
    ((∀ i, (((⟨m, P⟩ : Sys UInt8 Unit _).exec σ).task i).Done) →
      WritesRoi m ((⟨m, P⟩ : Sys UInt8 Unit _).exec σ).mem out w h F) := by
  have hWdis : ∀ (i j : Fin L.length), i ≠ j → ∀ c, (out.sub L[i]).cells L[i].w L[i].h c →
      ¬ (out.sub L[j]).cells L[j].w L[j].h c := by
    intro i j hij c hi hj
    obtain ⟨_, x, y, ch, hxy, hch, he⟩ := View.cells_sub hi
    obtain ⟨_, x', y', ch', hxy', hch', he'⟩ := View.cells_sub hj
    have ti := hL.tileIn (t := L[i]) (List.getElem_mem _)
    have tj := hL.tileIn (t := L[j]) (List.getElem_mem _)
    have a1 := ti.inX
    have a2 := ti.inY
    have a3 := tj.inX
    have a4 := tj.inY
    have hxy2 := hxy
    have hxy2' := hxy'
    unfold Tile.Has at hxy2 hxy2'
    obtain ⟨e1, e2, e3⟩ := cell_inj (h := h) wf.row fit.inX (x := x) (y := y) (c := ch)
      (x' := x') (y' := y') (c' := ch') (by omega) hch (by omega) hch' (by omega) (by omega)
      (by rw [← he, ← he'])
    subst e1
    subst e2
    refine hL.disjoint i.1 j.1 L[i] L[j] (List.getElem?_eq_getElem i.2) (List.getElem?_eq_getElem j.2)
      (fun e => hij (Fin.ext e)) x y hxy hxy'
  obtain ⟨res, hres, hw⟩ : ∃ res : Fin L.length → BMem, (∀ i, (P i).run m = .ok () (res i)) ∧
      ∀ i, WritesRoi m (res i) (out.sub L[i]) L[i].w L[i].h fun x y c => F (L[i].x + x) (L[i].y + y) c :=
    ⟨fun i => Classical.choose (hrun i), fun i => (Classical.choose_spec (hrun i)).1,
      fun i => (Classical.choose_spec (hrun i)).2⟩
  obtain ⟨h1, _, h3⟩ := interleave (v := fun _ => ()) (res := res) hfoot (fun i j hij c hi hj => by
    rcases hj with hj | hj
    · exact hR i j hij c hj hi
    · exact hWdis i j hij c hi hj) hres σ
  refine ⟨h1, fun hd => ?_⟩
  obtain ⟨s1, s2, s3⟩ := h3 ⟨fun _ => (), fun i => by
    have := hd i
    have hn := h1 i
    revert this hn
    cases ((⟨m, P⟩ : Sys UInt8 Unit _).exec σ).task i with
    | ret a => intros; rfl
    | throw => intro _ hn; exact absurd rfl hn.1
    | ub => intro _ hn; exact absurd rfl hn.2
    | read b k c => intro hd; exact hd.elim
    | write b k v c => intro hd; exact hd.elim⟩
  refine ⟨s1, ?_, ?_⟩
  · intro x y c hx hy hc
    obtain ⟨t, ht, hin⟩ := hL.cover x y (by omega) (by omega) (by omega) (by omega)
    obtain ⟨i, hi, rfl⟩ := List.getElem_of_mem ht
    unfold Tile.Has at hin
    have key := (hw ⟨i, hi⟩).inside (x - L[i].x) (y - L[i].y) c
      (by show _ < L[i].w; omega) (by show _ < L[i].h; omega) hc
    have ex : L[i].x + (x - L[i].x) = x := by omega
    have ey : L[i].y + (y - L[i].y) = y := by omega
    have hcell : (out.sub L[i]).cell (x - L[i].x) (y - L[i].y) c = out.cell x y c := by
      rw [View.sub_cell, ex, ey]
    have s2' := s2 ⟨i, hi⟩ out.img.data (out.cell x y c)
      ⟨rfl, x - L[i].x, y - L[i].y, c, by show _ < L[i].w; omega, by show _ < L[i].h; omega, hc,
        hcell.symm⟩
    show ((⟨m, P⟩ : Sys UInt8 Unit _).exec σ).mem.byte out.img.data (out.cell x y c) = _
    rw [s2']
    have key' : (res ⟨i, hi⟩).byte out.img.data ((out.sub L[i]).cell (x - L[i].x) (y - L[i].y) c)
      = F (L[i].x + (x - L[i].x)) (L[i].y + (y - L[i].y)) c := key
    rw [hcell, ex, ey] at key'
    exact key'
  · intro b i hne
    refine s3 b i fun j hj => hne ?_
    obtain ⟨e1, x, y, ch, hxy, hch, he⟩ := View.cells_sub hj
    have tj := hL.tileIn (t := L[j]) (List.getElem_mem _)
    have a3 := tj.inX
    have a4 := tj.inY
    unfold Tile.Has at hxy
    exact ⟨e1, x, y, ch, by omega, by omega, hch, he⟩

/-! ### Setting up succeeds -/

theorem poolThreads_eq {n : Nat} (hn : 0 < n) (h : n < 4294967296) : (poolThreads n : M μ Nat) = pure n := by
  rw [poolThreads, u32_of_lt h]
  have : (n == 0) = false := by simp; omega
  rw [this, throwIf_false, pure_bind']

theorem poolArea_eq {m : BMem} {v : View} {w h n : Nat} (wf : v.img.WF m) (fit : v.Fits w h) (hn : 0 < n)
    (hn' : n < 4294967296) :
    (poolArea v w h n : M μ (List Tile)) = pure ((tilesOf w h n).map fun t => t.shift v.x v.y) := by
  obtain ⟨_, _, _, h1, h2, _⟩ := View.facts wf fit
  have h3 := fit.inX
  have h4 := fit.inY
  rw [poolArea, poolThreads_eq hn hn', pure_bind',
    areaCalculate_eq hn fit.wpos fit.hpos (by omega) (by omega)]

end PV
