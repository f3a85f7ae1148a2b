import Verif.RowLoops
/-
  From "fold over positions" to "writes exactly the ROI" (`WritesRoi`).
-/
namespace PV

variable {α μ A : Type}

/-- Byte positions (x, y, c) in row order, as visited by a loop over `w*cc` bytes per row.
    Not in the code: for statements and proofs. -/
def bytesL (w h cc : Nat) : List (Nat × Nat × Nat) :=
  (grid h (w * cc)).map fun p => (p.2 / cc, p.1, p.2 % cc)

/-- Positions visited by a loop over `w` pixels per row touching the channels `cs` in
    this order at each pixel. Not in the code: for statements and proofs. -/
def pixL (w h : Nat) (cs : List Nat) : List (Nat × Nat × Nat) :=
  (grid h w).flatMap fun p => cs.map fun c => (p.2, p.1, c)

theorem mem_bytesL {w h cc : Nat} (hcc : 0 < cc) {p : Nat × Nat × Nat} :
    p ∈ bytesL w h cc ↔ p.1 < w ∧ p.2.1 < h ∧ p.2.2 < cc := by
  simp only [bytesL, List.mem_map, mem_grid]
  constructor
  · rintro ⟨q, ⟨h1, h2⟩, rfl⟩
    refine ⟨?_, h1, Nat.mod_lt _ hcc⟩
    exact Nat.div_lt_of_lt_mul (by rw [Nat.mul_comm]; exact h2)
  · rintro ⟨h1, h2, h3⟩
    refine ⟨(p.2.1, p.1 * cc + p.2.2), ⟨h2, mul_add_lt h1 h3⟩, ?_⟩
    have e1 : (p.1 * cc + p.2.2) / cc = p.1 := by
      rw [Nat.mul_comm, Nat.mul_add_div hcc, Nat.div_eq_of_lt h3, Nat.add_zero]
    have e2 : (p.1 * cc + p.2.2) % cc = p.2.2 := by
      rw [Nat.mul_comm, Nat.mul_add_mod, Nat.mod_eq_of_lt h3]
    rw [e1, e2]

theorem nodup_bytesL {w h cc : Nat} : (bytesL w h cc).Nodup := by
  refine nodup_map_inj (nodup_grid _ _) ?_
  intro a _ b _ hab
  simp only [Prod.mk.injEq] at hab
  refine Prod.ext hab.2.1 ?_
  rw [← Nat.div_add_mod a.2 cc, ← Nat.div_add_mod b.2 cc, hab.1, hab.2.2]

theorem mem_pixL {w h : Nat} {cs : List Nat} {p : Nat × Nat × Nat} :
    p ∈ pixL w h cs ↔ p.1 < w ∧ p.2.1 < h ∧ p.2.2 ∈ cs := by
  simp only [pixL, List.mem_flatMap, List.mem_map, mem_grid]
  constructor
  · rintro ⟨q, ⟨h1, h2⟩, c, hc, rfl⟩
    exact ⟨h2, h1, hc⟩
  · rintro ⟨h1, h2, h3⟩
    exact ⟨(p.2.1, p.1), ⟨h2, h1⟩, p.2.2, h3, rfl⟩

theorem nodup_pixL {w h : Nat} {cs : List Nat} (hcs : cs.Nodup) : (pixL w h cs).Nodup := by
  refine nodup_flatMap_key (fun p => (p.2.1, p.1)) (nodup_grid _ _) ?_ ?_
  · intro p _
    refine nodup_map_inj hcs ?_
    intro a _ b _ hab
    exact (Prod.mk.inj (Prod.mk.inj hab).2).2
  · intro p _ x hx
    rw [List.mem_map] at hx
    obtain ⟨c, _, rfl⟩ := hx
    rfl

theorem fold_bytesL {body : Nat × Nat → A → M μ A} {w h cc : Nat} (a : A) :
    fold body (grid h (w * cc)) a
      = fold (fun p => body (p.2.1, p.1 * cc + p.2.2)) (bytesL w h cc) a := by
  rw [bytesL, fold_map]
  refine fold_congr a fun p _ => ?_
  simp only
  rw [Nat.mul_comm, Nat.div_add_mod]

theorem fold_pixL {body : Nat × Nat × Nat → A → M μ A} {w h : Nat} {cs : List Nat} (a : A) :
    fold body (pixL w h cs) a
      = fold (fun p => fold (fun c => body (p.2, p.1, c)) cs) (grid h w) a := by
  rw [pixL, fold_flatMap]
  refine fold_congr a fun p _ => ?_
  funext a'
  rw [fold_map]

/-- `m'` is `m` except possibly for the ROI cells of `vo` at positions other than (x,y,c).
    Not in the code: for statements and proofs. -/
structure OthersOnly (m m' : Mem α) (vo : View) (w h x y c : Nat) : Prop where
  size_eq : m'.size = m.size
  same : ∀ b i, (∀ x' y' c', x' < w → y' < h → c' < vo.img.cc → ¬ (x' = x ∧ y' = y ∧ c' = c) →
    b = vo.img.data → i ≠ vo.cell x' y' c') → m'.byte b i = m.byte b i

theorem OthersOnly.get_noClash {m m' : Mem α} {vi vo : View} {w h x y c : Nat}
    (ho : OthersOnly m m' vo w h x y c) (hn : NoClash vi vo w h)
    (hx : x < w) (hy : y < h) (hc : c < vi.img.cc) : vi.get m' x y c = vi.get m x y c := by
  refine ho.same _ _ fun x' y' c' hx' hy' hc' hne hb he => hne ?_
  obtain ⟨a, b, d⟩ := hn x y c x' y' c' hx hy hc hx' hy' hc' hb he
  exact ⟨a.symm, b.symm, d.symm⟩

theorem OthersOnly.get_apart {m m' : Mem α} {vi vo : View} {w h x y c wi hi x' y' c' : Nat}
    (ho : OthersOnly m m' vo w h x y c) (hn : Apart vi wi hi vo w h)
    (hx : x' < wi) (hy : y' < hi) (hc : c' < vi.img.cc) : vi.get m' x' y' c' = vi.get m x' y' c' := by
  refine ho.same _ _ fun x'' y'' c'' hx' hy' hc' _ hb he => ?_
  exact hn _ _ _ _ _ _ hx hy hc hx' hy' hc' hb he

theorem Mem.valid_of_size {m m' : Mem α} {b i : Nat} (hs : m'.size = m.size) (h : m.Valid b i) :
    m'.Valid b i := by
  unfold Mem.Valid at *
  rw [hs]
  exact h

/-- The main tool: visiting all positions of the ROI of `vo` exactly once (in any order)
    and writing `val x y c` at (x, y, c) has the effect described by `WritesRoi`. -/
theorem roi_writes {m : Mem α} {vo : View} {w h : Nat} (wf : vo.img.WF m) (fit : vo.Fits w h)
    {L : List (Nat × Nat × Nat)} (hnd : L.Nodup)
    (hL : ∀ p, p ∈ L ↔ p.1 < w ∧ p.2.1 < h ∧ p.2.2 < vo.img.cc)
    {body : Nat × Nat × Nat → Unit → M (Mem α) Unit} {val : Nat → Nat → Nat → α}
    (hbody : ∀ x y c, x < w → y < h → c < vo.img.cc → ∀ m', OthersOnly m m' vo w h x y c →
      body (x, y, c) () m' = .ok () (m'.set vo.img.data (vo.cell x y c) (val x y c))) :
    ∃ m', fold body L () m = .ok () m' ∧ WritesRoi m m' vo w h val := by
  have hinj : ∀ p ∈ L, ∀ q ∈ L,
      (vo.img.data, vo.cell p.1 p.2.1 p.2.2) = (vo.img.data, vo.cell q.1 q.2.1 q.2.2) → p = q := by
    intro p hp q hq he
    obtain ⟨p1, p2, p3⟩ := (hL p).1 hp
    obtain ⟨q1, q2, q3⟩ := (hL q).1 hq
    obtain ⟨a, b, c⟩ := cell_inj wf.row fit.inX p1 p3 q1 q3 p2 q2 (Prod.mk.inj he).2
    exact Prod.ext a (Prod.ext b c)
  obtain ⟨m', h1, h2, h3, h4⟩ := fold_writes (body := body)
    (dst := fun p => (vo.img.data, vo.cell p.1 p.2.1 p.2.2))
    (val := fun p => val p.1 p.2.1 p.2.2) (m := m) hnd hinj (by
      intro p hp m' hag
      obtain ⟨p1, p2, p3⟩ := (hL p).1 hp
      refine hbody p.1 p.2.1 p.2.2 p1 p2 p3 m' ⟨hag.1, fun b i hne => hag.2 b i ?_⟩
      intro q hq hqp he
      obtain ⟨q1, q2, q3⟩ := (hL q).1 hq
      have he' := Prod.mk.inj he
      refine hne q.1 q.2.1 q.2.2 q1 q2 q3 ?_ he'.1.symm he'.2.symm
      intro ⟨a, b, c⟩
      exact hqp (Prod.ext a (Prod.ext b c)))
  refine ⟨m', h1, h2, ?_, ?_⟩
  · intro x y c hx hy hc
    exact h3 (x, y, c) ((hL _).2 ⟨hx, hy, hc⟩)
  · intro b i hne
    refine h4 b i fun p hp he => hne ?_
    obtain ⟨p1, p2, p3⟩ := (hL p).1 hp
    have he' := Prod.mk.inj he
    exact ⟨he'.1.symm, p.1, p.2.1, p.2.2, p1, p2, p3, he'.2.symm⟩

/-- Like `roi_writes` for loops that visit only the positions satisfying `P`: the other
    positions of the ROI keep their value. -/
theorem roi_writes_on {m : Mem α} {vo : View} {w h : Nat} (wf : vo.img.WF m) (fit : vo.Fits w h)
    {L : List (Nat × Nat × Nat)} (hnd : L.Nodup) {P : Nat → Nat → Nat → Bool}
    (hL : ∀ p, p ∈ L ↔ p.1 < w ∧ p.2.1 < h ∧ p.2.2 < vo.img.cc ∧ P p.1 p.2.1 p.2.2 = true)
    {body : Nat × Nat × Nat → Unit → M (Mem α) Unit} {val : Nat → Nat → Nat → α}
    (hbody : ∀ x y c, x < w → y < h → c < vo.img.cc → P x y c = true →
      ∀ m', OthersOnly m m' vo w h x y c →
      body (x, y, c) () m' = .ok () (m'.set vo.img.data (vo.cell x y c) (val x y c))) :
    ∃ m', fold body L () m = .ok () m' ∧
      WritesRoi m m' vo w h (fun x y c => if P x y c then val x y c else vo.get m x y c) := by
  have hinj : ∀ p ∈ L, ∀ q ∈ L,
      (vo.img.data, vo.cell p.1 p.2.1 p.2.2) = (vo.img.data, vo.cell q.1 q.2.1 q.2.2) → p = q := by
    intro p hp q hq he
    obtain ⟨p1, p2, p3, _⟩ := (hL p).1 hp
    obtain ⟨q1, q2, q3, _⟩ := (hL q).1 hq
    obtain ⟨a, b, c⟩ := cell_inj wf.row fit.inX p1 p3 q1 q3 p2 q2 (Prod.mk.inj he).2
    exact Prod.ext a (Prod.ext b c)
  obtain ⟨m', h1, h2, h3, h4⟩ := fold_writes (body := body)
    (dst := fun p => (vo.img.data, vo.cell p.1 p.2.1 p.2.2))
    (val := fun p => val p.1 p.2.1 p.2.2) (m := m) hnd hinj (by
      intro p hp m' hag
      obtain ⟨p1, p2, p3, p4⟩ := (hL p).1 hp
      refine hbody p.1 p.2.1 p.2.2 p1 p2 p3 p4 m' ⟨hag.1, fun b i hne => hag.2 b i ?_⟩
      intro q hq hqp he
      obtain ⟨q1, q2, q3, _⟩ := (hL q).1 hq
      have he' := Prod.mk.inj he
      refine hne q.1 q.2.1 q.2.2 q1 q2 q3 ?_ he'.1.symm he'.2.symm
      intro ⟨a, b, c⟩
      exact hqp (Prod.ext a (Prod.ext b c)))
  refine ⟨m', h1, h2, ?_, ?_⟩
  · intro x y c hx hy hc
    cases hP : P x y c with
    | true => exact h3 (x, y, c) ((hL _).2 ⟨hx, hy, hc, hP⟩)
    | false =>
      refine h4 _ _ fun p hp he => ?_
      obtain ⟨p1, p2, p3, p4⟩ := (hL p).1 hp
      obtain ⟨a, b, d⟩ := cell_inj wf.row fit.inX p1 p3 hx hc p2 hy (Prod.mk.inj he).2
      rw [a, b, d, hP] at p4
      exact Bool.false_ne_true p4
  · intro b i hne
    refine h4 b i fun p hp he => hne ?_
    obtain ⟨p1, p2, p3, _⟩ := (hL p).1 hp
    have he' := Prod.mk.inj he
    exact ⟨he'.1.symm, p.1, p.2.1, p.2.2, p1, p2, p3, he'.2.symm⟩

/-- `WritesRoi` determines the final memory: two results agree on all blocks. -/
theorem WritesRoi.unique {m m₁ m₂ : Mem α} {v : View} {w h : Nat} {F : Nat → Nat → Nat → α}
    (h₁ : WritesRoi m m₁ v w h F) (h₂ : WritesRoi m m₂ v w h F) : m₁ = m₂ := by
  have hs : m₁.size = m₂.size := by rw [h₁.size_eq, h₂.size_eq]
  have hb : m₁.byte = m₂.byte := by
    funext b i
    by_cases hin : b = v.img.data ∧ ∃ x y c, x < w ∧ y < h ∧ c < v.img.cc ∧ i = v.cell x y c
    · obtain ⟨rfl, x, y, c, hx, hy, hc, rfl⟩ := hin
      have a := h₁.inside x y c hx hy hc
      have b := h₂.inside x y c hx hy hc
      unfold View.get at a b
      rw [a, b]
    · rw [h₁.outside b i hin, h₂.outside b i hin]
  cases m₁
  cases m₂
  simp only at hs hb
  subst hs
  subst hb
  rfl

/-! ### Start offsets -/

/-- `image.data() + startY * rowSize + startX * colorCount` with 32-bit products. -/
def View.start (v : View) (cc : Nat) : Nat := u32 (v.y * v.img.rowSize) + u32 (v.x * cc)

theorem View.facts {m : Mem α} {v : View} {w h : Nat} (wf : v.img.WF m) (fit : v.Fits w h) :
    0 < v.img.cc ∧ 0 < v.img.rowSize ∧ v.img.rowSize < 4294967296 ∧
    v.img.width < 4294967296 ∧ v.img.height < 4294967296 ∧ h * v.img.rowSize < 4294967296 ∧
    v.y * v.img.rowSize < 4294967296 ∧ v.x * v.img.cc < 4294967296 ∧ w * v.img.cc < 4294967296 ∧
    w * v.img.cc ≤ v.img.rowSize := by
  have hcc : 0 < v.img.cc := by rcases fit.colors with h | h | h <;> omega
  have hw := fit.wpos
  have hh := fit.hpos
  have hx := fit.inX
  have hy := fit.inY
  have hrow := wf.row
  have hsm := wf.small
  have hwle : v.img.width * 1 ≤ v.img.width * v.img.cc := Nat.mul_le_mul_left _ hcc
  have hr : 0 < v.img.rowSize := by omega
  have h1 : v.img.rowSize * 1 ≤ v.img.rowSize * v.img.height := Nat.mul_le_mul_left _ (by omega)
  have h2 : 1 * v.img.height ≤ v.img.rowSize * v.img.height := Nat.mul_le_mul_right _ hr
  have h3 : h * v.img.rowSize ≤ v.img.height * v.img.rowSize := Nat.mul_le_mul_right _ (by omega)
  have h4 : v.y * v.img.rowSize ≤ v.img.height * v.img.rowSize := Nat.mul_le_mul_right _ (by omega)
  have h5 : v.x * v.img.cc ≤ v.img.width * v.img.cc := Nat.mul_le_mul_right _ (by omega)
  have h6 : w * v.img.cc ≤ v.img.width * v.img.cc := Nat.mul_le_mul_right _ (by omega)
  rw [Nat.mul_comm v.img.height] at h3 h4
  refine ⟨hcc, hr, ?_, ?_, ?_, ?_, ?_, ?_, ?_, ?_⟩ <;> omega

theorem View.start_eq {m : Mem α} {v : View} {w h : Nat} (wf : v.img.WF m) (fit : v.Fits w h) :
    v.start v.img.cc = v.y * v.img.rowSize + v.x * v.img.cc := by
  obtain ⟨_, _, _, _, _, _, h7, h8, _⟩ := View.facts wf fit
  rw [View.start, u32_of_lt h7, u32_of_lt h8]

theorem View.start_cell {m : Mem α} {v : View} {w h : Nat} (wf : v.img.WF m) (fit : v.Fits w h)
    (x y c : Nat) :
    v.start v.img.cc + y * v.img.rowSize + (x * v.img.cc + c) = v.cell x y c := by
  rw [View.start_eq wf fit, View.cell, Nat.add_mul, Nat.add_mul]
  omega

end PV
