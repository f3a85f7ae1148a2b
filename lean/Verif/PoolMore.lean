import Verif.PropsResize
import Verif.PropsNormalize
import Verif.PropsPool
/-
  Pooled Resize, GammaCorrection and Normalize, src/function_pool.cpp 238-250, 317-322, 451-454,
  490-493, 896-928, 965-972.
-/
namespace PV

open Props (Pair Apart1 Ready1 One)

/-! ### Resize -/

/-- The task of Resize, src/function_pool.cpp 490-493: input and output have their own sizes. -/
def taskSizes {μ A : Type} (F : View → Nat → Nat → View → Nat → Nat → M μ A) (v1 v2 : View)
    (a : List Tile × List Tile) (i : Nat) : M μ A := do
  let t1 ← orUb a.1[i]?
  let t2 ← orUb a.2[i]?
  F (v1.at t1) t1.w t1.h (v2.at t2) t2.w t2.h

/-- The same task as a program of single accesses. src/function_pool.cpp 490-493. -/
def ptaskSizes {A : Type} (G : View → Nat → Nat → View → Nat → Nat → Prog UInt8 A) (v1 v2 : View)
    (a : List Tile × List Tile) (i : Nat) : Prog UInt8 A := do
  let t1 ← Prog.orUb a.1[i]?
  let t2 ← Prog.orUb a.2[i]?
  G (v1.at t1) t1.w t1.h (v2.at t2) t2.w t2.h

/-- `Function_Pool::Resize` up to `_process`, src/function_pool.cpp 965-972 and 317-322. -/
def poolSetupResize (inp : View) (wi hi : Nat) (out : View) (wo ho n : Nat) : M BMem (List Tile × List Tile) := do
  validateRois [inp] wi hi
  validateRois [out] wo ho
  poolSetupSizes inp wi hi out wo ho false n

/-- The accesses of `Resize`. src/image_function.cpp 1442-1492. -/
def progResize (inp : View) (wi hi : Nat) (out : View) (wo ho : Nat) : Prog UInt8 Unit :=
  Prog.fold (fun p _ => Prog.copy out.img.data (out.cell p.1 p.2.1 p.2.2) inp.img.data
    (inp.cell (sample wi wo p.1) (sample hi ho p.2.1) p.2.2)) (pixL wo ho (List.range inp.img.cc)) ()

theorem progResize_tie {m : BMem} {inp out : View} {wi hi wo ho : Nat} (p : Pair m inp wi hi out wo ho)
    (co : out.img.cc = inp.img.cc) :
    Resize inp wi hi out wo ho m = (progResize inp wi hi out wo ho).run m := by
  rw [Resize_fold p.wfi p.wfo p.fiti p.fito co p.apart, progResize, Prog.run_fold]
  refine congrFun (fold_congr () fun q _ => ?_) m
  funext _
  rw [Prog.run_copy]
  rfl

theorem progResize_foot {inp out : View} {wi hi wo ho : Nat} (hw : 0 < wi) (hh : 0 < hi)
    (co : out.img.cc = inp.img.cc) :
    (progResize inp wi hi out wo ho).Foot (inp.cells wi hi) (out.cells wo ho) := by
  refine Prog.foot_fold () fun p hp _ => ?_
  obtain ⟨h1, h2, h3⟩ := mem_pixL.1 hp
  have h3 := List.mem_range.1 h3
  exact Prog.foot_copy ⟨rfl, _, _, _, sample_lt h1 hw, sample_lt h2 hh, h3, rfl⟩ ⟨rfl, _, _, _, h1, h2, by omega, rfl⟩

theorem taskSizes_shift {μ A : Type} {v1 v2 : View}
    {a : List Tile × List Tile} {i : Nat} {t1 t2 : Tile} (h1 : a.1[i]? = some (t1.shift v1.x v1.y))
    (h2 : a.2[i]? = some (t2.shift v2.x v2.y)) (F : View → Nat → Nat → View → Nat → Nat → M μ A) :
    taskSizes F v1 v2 a i = F (v1.sub t1) t1.w t1.h (v2.sub t2) t2.w t2.h := by
  simp only [taskSizes, h1, h2, orUb_some, pure_bind', View.at_shift]
  rfl

theorem ptaskSizes_shift {A : Type} {v1 v2 : View}
    {a : List Tile × List Tile} {i : Nat} {t1 t2 : Tile} (h1 : a.1[i]? = some (t1.shift v1.x v1.y))
    (h2 : a.2[i]? = some (t2.shift v2.x v2.y)) (G : View → Nat → Nat → View → Nat → Nat → Prog UInt8 A) :
    ptaskSizes G v1 v2 a i = G (v1.sub t1) t1.w t1.h (v2.sub t2) t2.w t2.h := by
  simp only [ptaskSizes, h1, h2, Prog.orUb_bind, View.at_shift]
  rfl

theorem areaCount_columns {w h n : Nat} (hh : 0 < h) (hn : 0 < n) (hb : (areaCount w h n).2 = false) :
    2 ≤ (areaCount w h n).1 := by
  simp only [areaCount] at hb ⊢
  have hb := of_decide_eq_false hb
  rw [if_neg hb]
  have : 1 ≤ (if h > n then n else h) := by split <;> omega
  omega

theorem areaCount_rows {w h n : Nat} (hle : n ≤ h) : (areaCount w h n).1 = n ∧ (areaCount w h n).2 = true := by
  have h1 : (if h > n then n else h) = n := by split <;> omega
  simp only [areaCount, h1]
  have h2 : ∀ q, (if q > n then n else q) ≤ n := fun q => by split <;> omega
  rw [if_pos (h2 _)]
  exact ⟨rfl, decide_eq_true (h2 _)⟩

/-- Both vectors of the pooled Resize: input and output are cut into the same number of rows or of
    columns. -/
theorem poolSetupResize_eq {m : BMem} {inp out : View} {wi hi wo ho n : Nat} (hn : 0 < n)
    (hn' : n < 4294967296) (p : Pair m inp wi hi out wo ho) :
    ∃ k b, 0 < k ∧ k ≤ n ∧ (k ≤ if b then hi else wi) ∧ (k ≤ if b then ho else wo) ∧
      (n ≤ hi → n ≤ ho → k = n ∧ b = true) ∧
      ∀ s : BMem, poolSetupResize inp wi hi out wo ho n s
        = .ok ((relTiles wi hi k b).map fun t => t.shift inp.x inp.y,
          (relTiles wo ho k b).map fun t => t.shift out.x out.y) s := by
  have inX := p.fiti.inX
  have inY := p.fiti.inY
  have outX := p.fito.inX
  have outY := p.fito.inY
  have hw := p.fiti.wpos
  have hh := p.fiti.hpos
  have hw' := p.fito.wpos
  have hh' := p.fito.hpos
  obtain ⟨_, _, _, iw, ih, _⟩ := View.facts p.wfi p.fiti
  obtain ⟨_, _, _, ow, oh, _⟩ := View.facts p.wfo p.fito
  have hs : 0 < min wi wo := by omega
  have hs' : 0 < min hi ho := by omega
  obtain ⟨c1, c2, c3⟩ := areaCount_spec hn hs hs'
  have c4 := areaCount_columns (w := min wi wo) hs' hn
  refine ⟨(areaCount (min wi wo) (min hi ho) n).1, (areaCount (min wi wo) (min hi ho) n).2, c1, c2,
    le_trans c3 (by split <;> omega), le_trans c3 (by split <;> omega), fun h1 h2 => areaCount_rows (by omega), fun s => ?_⟩
  have e1 : tilesOf (min wi wo) (min hi ho) n = relTiles (min wi wo) (min hi ho)
      (areaCount (min wi wo) (min hi ho) n).1 (areaCount (min wi wo) (min hi ho) n).2 := rfl
  have hvi := validate_on_ok (s := s) (m := m) (vs := [inp]) (w := wi) (h := hi) (by simp; exact ⟨p.wfi, p.fiti⟩)
  have hvo := validate_on_ok (s := s) (m := m) (vs := [out]) (w := wo) (h := ho) (by simp; exact ⟨p.wfo, p.fito⟩)
  rw [poolSetupResize, bind_ok hvi, bind_ok hvo, poolSetupSizes, bind_ok hvi, bind_ok hvo,
    poolArea, poolArea, poolThreads_eq hn hn', pure_bind', pure_bind',
    areaCalculate_eq hn hs hs' (by omega) (by omega), pure_bind',
    areaCalculate_eq hn hw' hh' (by omega) (by omega), pure_bind', e1]
  generalize (areaCount (min wi wo) (min hi ho) n).1 = k at *
  generalize (areaCount (min wi wo) (min hi ho) n).2 = b at *
  have l1 : ((relTiles (min wi wo) (min hi ho) k b).map fun t => t.shift inp.x inp.y).length = k := by
    simp [relTiles]
  have l2 : ((relTiles wo ho k b).map fun t => t.shift out.x out.y).length = k := by
    simp [relTiles]
  have a1 : areaYAxis ((relTiles (min wi wo) (min hi ho) k b).map fun t => t.shift inp.x inp.y) = b := by
    cases b with
    | true => exact areaYAxis_rows
    | false => exact areaYAxis_columns (c4 rfl) (by simpa using c3)
  have a2 : areaYAxis ((relTiles wo ho k b).map fun t => t.shift out.x out.y) = b := by
    cases b with
    | true => exact areaYAxis_rows
    | false => exact areaYAxis_columns (c4 rfl) (by simp at c3; omega)
  rw [areaCopy, l1, if_pos (by omega), u32_of_lt (by omega), a1]
  simp only [Bool.false_eq_true, ↓reduceIte]
  rw [areaFill_eq _ c1 (by omega) (by omega), pure_bind', areaCopy, l2, if_pos (by omega),
    u32_of_lt (by omega), a2]
  simp only [Bool.false_eq_true, ↓reduceIte]
  rw [areaFill_eq _ c1 (by omega) (by omega), pure_bind']
  rfl

/-- Any content of a rectangle can be written. -/
theorem exists_writes {m : BMem} {out : View} {w h : Nat} (wf : out.img.WF m) (fit : out.Fits w h)
    (F : Nat → Nat → Nat → UInt8) : ∃ m', WritesRoi m m' out w h F := by
  obtain ⟨m', _, h2⟩ := roi_writes wf fit (nodup_pixL (w := w) (h := h) (List.nodup_range (n := out.img.cc)))
    (fun p => by rw [mem_pixL, List.mem_range])
    (body := fun p _ => writeC out.img.data (out.cell p.1 p.2.1 p.2.2) (F p.1 p.2.1 p.2.2)) (val := F)
    (fun x y c hx hy hc m' ho => writeC_ok _ (Mem.valid_of_size ho.size_eq (View.cell_valid wf fit hx hy hc)))
  exact ⟨m', h2⟩

/-- Where part `i` of the output is taken from. -/
theorem parts_exist {si so k : Nat} (hk : 0 < k) : ∃ src : Nat → Nat, ∀ i, i < k → ∀ d, d < cut so k (i + 1) - cut so k i →
    src (cut so k i + d) = cut si k i + sample (cut si k (i + 1) - cut si k i) (cut so k (i + 1) - cut so k i) d := by
  classical
  have hf : ∀ p, p < so → ∃ i, i < k ∧ cut so k i ≤ p ∧ p < cut so k (i + 1) := fun p hp => cut_find hk hp
  refine ⟨fun p => if hp : p < so then
    let i := Classical.choose (hf p hp)
    cut si k i + sample (cut si k (i + 1) - cut si k i) (cut so k (i + 1) - cut so k i) (p - cut so k i) else 0, ?_⟩
  intro i hi d hd
  have hle := cut_le_total (total := so) (n := k) (i := i + 1) hk (by omega)
  have hp : cut so k i + d < so := by omega
  simp only [hp, ↓reduceDIte]
  have hc := Classical.choose_spec (hf _ hp)
  rw [← cut_unique (total := so) (n := k) (p := cut so k i + d) (i := i) (j := Classical.choose (hf _ hp))
    ⟨by omega, by omega⟩ hc.2, Nat.add_sub_cancel_left]

theorem cut_one_zero (s : Nat) : cut s 1 0 = 0 := cut_zero _ _
theorem cut_one_one (s : Nat) : cut s 1 (0 + 1) = s := cut_end (by decide)

/-- Tile `i`. Not in the code: for statements and proofs. -/
def tileAt (w h k : Nat) (b : Bool) (i : Nat) : Tile :=
  if b then ⟨0, cut h k i, w, cut h k (i + 1) - cut h k i⟩ else ⟨cut w k i, 0, cut w k (i + 1) - cut w k i, h⟩

/-- The pooled `Resize`: every part of the output is taken from the corresponding part of the input. -/
theorem pooled_resize {m : BMem} {inp out : View} {wi hi wo ho n : Nat} (hn : 0 < n)
    (hn' : n < 4294967296) (p : Pair m inp wi hi out wo ho) (co : out.img.cc = inp.img.cc) :
    ∃ (kx ky : Nat) (srcX srcY : Nat → Nat) (ms : BMem), (kx = 1 ∨ ky = 1) ∧ 0 < kx ∧ 0 < ky ∧ kx * ky ≤ n ∧ kx ≤ wi ∧ kx ≤ wo ∧ ky ≤ hi ∧ ky ≤ ho ∧
      (n ≤ hi → n ≤ ho → kx = 1 ∧ ky = n) ∧
      (∀ i, i < kx → ∀ d, d < cut wo kx (i + 1) - cut wo kx i →
        srcX (cut wo kx i + d) = cut wi kx i + sample (cut wi kx (i + 1) - cut wi kx i) (cut wo kx (i + 1) - cut wo kx i) d) ∧
      (∀ i, i < ky → ∀ d, d < cut ho ky (i + 1) - cut ho ky i →
        srcY (cut ho ky i + d) = cut hi ky i + sample (cut hi ky (i + 1) - cut hi ky i) (cut ho ky (i + 1) - cut ho ky i) d) ∧
      WritesRoi m ms out wo ho (fun x y c => inp.get m (srcX x) (srcY y) c) ∧
      PooledLike n (poolSetupResize inp wi hi out wo ho n) (fun a => a.1.length)
        (taskSizes Resize inp out) (ptaskSizes progResize inp out) (fun _ => .ok () ms) m := by
  obtain ⟨k, b, k1, k2, k3, k4, k5, hset⟩ := poolSetupResize_eq hn hn' p
  obtain ⟨srcX, hX⟩ := parts_exist (si := wi) (so := wo) (k := if b then 1 else k) (by split <;> omega)
  obtain ⟨srcY, hY⟩ := parts_exist (si := hi) (so := ho) (k := if b then k else 1) (by split <;> omega)
  obtain ⟨ms, hms⟩ := exists_writes p.wfo p.fito (fun x y c => inp.get m (srcX x) (srcY y) c)
  have pw := p.fiti.wpos
  have ph := p.fiti.hpos
  have pw' := p.fito.wpos
  have ph' := p.fito.hpos
  refine ⟨if b then 1 else k, if b then k else 1, srcX, srcY, ms, by cases b <;> simp, by split <;> omega,
    by split <;> omega, by cases b <;> simp <;> omega, by cases b <;> simp at k3 ⊢ <;> omega, by cases b <;> simp at k4 ⊢ <;> omega,
    by cases b <;> simp at k3 ⊢ <;> omega, by cases b <;> simp at k4 ⊢ <;> omega,
    fun h1 h2 => by obtain ⟨rfl, rfl⟩ := k5 h1 h2; simp, hX, hY, hms, ?_⟩
  have hL := relTiles_tiling (yAxis := b) k1 p.fito.wpos p.fito.hpos k4
  have hI := relTiles_tiling (yAxis := b) k1 p.fiti.wpos p.fiti.hpos k3
  have hl : (relTiles wo ho k b).length = k := by simp [relTiles]
  have g : ∀ i : Fin (relTiles wo ho k b).length, (relTiles wo ho k b)[i] = tileAt wo ho k b i := by
    intro i
    have := relTiles_get.1 (List.getElem?_eq_getElem i.2)
    exact this.2.symm
  have hk : ∀ i : Fin (relTiles wo ho k b).length, i.1 < k := fun i => by
    have := i.2
    omega
  have hin : ∀ i : Fin (relTiles wo ho k b).length, (tileAt wi hi k b i).In wi hi := by
    intro i
    exact hI.tileIn (mem_relTiles.2 ⟨i.1, hk i, rfl⟩)
  have hon : ∀ i : Fin (relTiles wo ho k b).length, (tileAt wo ho k b i).In wo ho := by
    intro i
    exact hL.tileIn (mem_relTiles.2 ⟨i.1, hk i, rfl⟩)
  have hp : ∀ (i : Fin (relTiles wo ho k b).length) (m₁ : BMem), m₁.size = m.size →
      Pair m₁ (inp.sub (tileAt wi hi k b i)) (tileAt wi hi k b i).w (tileAt wi hi k b i).h
        (out.sub (tileAt wo ho k b i)) (tileAt wo ho k b i).w (tileAt wo ho k b i).h := by
    intro i m₁ hs
    exact ⟨p.wfi.same hs, p.wfo.same hs, p.fiti.sub (hin i), p.fito.sub (hon i),
      p.apart.sub (hin i) (hon i)⟩
  refine pooled_moved (L := relTiles wo ho k b) (T := fun i => tileAt wi hi k b i) p hL (by omega) (by omega) (hset m)
    (by simp [relTiles]) hin
    (P := fun i => progResize (inp.sub (tileAt wi hi k b i)) (tileAt wi hi k b i).w (tileAt wi hi k b i).h
        (out.sub (tileAt wo ho k b i)) (tileAt wo ho k b i).w (tileAt wo ho k b i).h)
    (B := fun i => Resize (inp.sub (tileAt wi hi k b i)) (tileAt wi hi k b i).w (tileAt wi hi k b i).h
        (out.sub (tileAt wo ho k b i)) (tileAt wo ho k b i).w (tileAt wo ho k b i).h)
    ?_ ?_ (fun i m₁ hs => (progResize_tie (hp i m₁ hs) co).symm) ?_ ?_ rfl hms
  · exact fun i => taskSizes_shift (v1 := inp) (v2 := out) (t1 := tileAt wi hi k b i) (t2 := tileAt wo ho k b i)
      (by simp only [List.getElem?_map]; rw [relTiles_get.2 ⟨hk i, rfl⟩]; rfl)
      (by simp only [List.getElem?_map]; rw [relTiles_get.2 ⟨hk i, rfl⟩]; rfl) _
  · exact fun i => ptaskSizes_shift (v1 := inp) (v2 := out) (t1 := tileAt wi hi k b i) (t2 := tileAt wo ho k b i)
      (by simp only [List.getElem?_map]; rw [relTiles_get.2 ⟨hk i, rfl⟩]; rfl)
      (by simp only [List.getElem?_map]; rw [relTiles_get.2 ⟨hk i, rfl⟩]; rfl) _
  · intro i
    rw [g i]
    exact progResize_foot (hp i m rfl).fiti.wpos (hp i m rfl).fiti.hpos co
  · intro i
    rw [g i]
    obtain ⟨m', b1, b2⟩ := Props.C31_resize_wrapped (hp i m rfl) co
    refine ⟨m', b1, b2.size_eq, fun x y c hx hy hc => ?_, b2.outside⟩
    rw [b2.inside x y c hx hy hc, View.sub_get]
    have hki := hk i
    cases b with
    | true =>
      simp only [tileAt, ↓reduceIte] at hx hy ⊢ hX hY
      have e1 := hX 0 (by decide) x (by rw [cut_one_one, cut_one_zero]; exact hx)
      have e2 := hY i hki y hy
      rw [cut_one_zero, cut_one_zero, cut_one_one, cut_one_one] at e1
      rw [e1, e2]
      simp only [sample, u32, Nat.sub_zero]
    | false =>
      simp only [tileAt, Bool.false_eq_true, ↓reduceIte] at hx hy ⊢ hX hY
      have e1 := hY 0 (by decide) y (by rw [cut_one_one, cut_one_zero]; exact hy)
      have e2 := hX i hki x hx
      rw [cut_one_zero, cut_one_zero, cut_one_one, cut_one_one] at e1
      rw [e1, e2]
      simp only [sample, u32, Nat.sub_zero]

/-! ### GammaCorrection -/

/-- `FunctionTask::GammaCorrection` up to `_process`, src/function_pool.cpp 238-250. -/
def poolSetupGamma (inp out : View) (w h : Nat) (a gamma : ℚ) (n : Nat) : M BMem (List Tile × List Tile) := do
  let t ← poolSetup2 inp out w h n
  throwIf (decide (a < 0) || decide (gamma < 0))
  pure t

/-! ### Normalize -/

/-- The loop of src/function_pool.cpp 902-912: `minimum` and `maximum`. -/
def histMinMax {μ : Type} (hist : List UInt32) : M μ (Nat × Nat) :=
  fold (fun i s => do
    let v ← orUb hist[i]?
    pure (if v > 0 then (if s.1 > i then i else s.1, if s.2 < i then i else s.2) else s)) (List.range 256) (255, 0)

/-- What `Function_Pool::Normalize` does after the histogram: `Copy` in the calling thread, or a
    pooled `LookupTable`. src/function_pool.cpp 896-928. -/
inductive NormalizePlan
  | copy
  | table (t : List UInt8)

/-- src/function_pool.cpp 898-925: the end of the function for a histogram. -/
def poolNormalizePlan {μ : Type} (rnd : ℚ → ℚ) (oob : ℚ → Option UInt8) (hist : List UInt32) : M μ NormalizePlan := do
  throwIf (hist.length != 256)
  let s ← histMinMax hist
  if s.1 ≥ s.2 then pure .copy
  else do
    let t ← orUb (normalTable rnd oob (UInt8.ofNat s.1) (UInt8.ofNat s.2))
    pure (.table t)

theorem histMinMax_run {μ : Type} {m : μ} {hist : List UInt32} (hl : hist.length = 256) :
    ∃ mn mx, (histMinMax hist m : Res μ (Nat × Nat)) = .ok (mn, mx) m ∧ mn ≤ 255 ∧
      (∀ i v, hist[i]? = some v → 0 < v → mn ≤ i ∧ i ≤ mx) ∧
      (mn = 255 ∨ ∃ v, hist[mn]? = some v ∧ 0 < v) ∧ (mx = 0 ∨ ∃ v, hist[mx]? = some v ∧ 0 < v) := by
  have key : ∀ (L : List Nat) (s : Nat × Nat), (∀ i ∈ L, i < 256) →
      ∃ r : Nat × Nat, (fold (fun i s => (do
        let v ← orUb hist[i]?
        pure (if v > 0 then (if s.1 > i then i else s.1, if s.2 < i then i else s.2) else s) : M μ (Nat × Nat))) L s m)
        = .ok r m ∧ r.1 ≤ s.1 ∧ s.2 ≤ r.2 ∧ (∀ i ∈ L, ∀ v, hist[i]? = some v → 0 < v → r.1 ≤ i ∧ i ≤ r.2) ∧
        (r.1 = s.1 ∨ ∃ v, hist[r.1]? = some v ∧ 0 < v) ∧ (r.2 = s.2 ∨ ∃ v, hist[r.2]? = some v ∧ 0 < v) := by
    intro L
    induction L with
    | nil =>
      intro s _
      exact ⟨s, rfl, Nat.le_refl _, Nat.le_refl _, by simp, Or.inl rfl, Or.inl rfl⟩
    | cons i is ih =>
      intro s hs
      have hi : i < hist.length := by
        rw [hl]
        exact hs i (List.mem_cons_self ..)
      have he := List.getElem?_eq_getElem hi
      rw [fold_cons, he]
      obtain ⟨r, h1, h2, h3, h4, h5, h6⟩ := ih (if hist[i] > 0 then (if s.1 > i then i else s.1, if s.2 < i then i else s.2) else s)
        fun j hj => hs j (List.mem_cons_of_mem _ hj)
      refine ⟨r, ?_, ?_, ?_, ?_, ?_, ?_⟩
      · exact h1
      · refine le_trans h2 ?_
        split
        · simp only
          split <;> omega
        · exact Nat.le_refl _
      · refine le_trans ?_ h3
        split
        · simp only
          split <;> omega
        · exact Nat.le_refl _
      · intro j hj v hv hv0
        rcases List.mem_cons.mp hj with rfl | hj
        · rw [he] at hv
          obtain rfl := Option.some.inj hv
          rw [if_pos hv0] at h2 h3
          simp only at h2 h3
          constructor
          · refine le_trans h2 ?_
            split <;> omega
          · refine le_trans ?_ h3
            split <;> omega
        · exact h4 j hj v hv hv0
      · rcases h5 with h5 | h5
        · rw [h5]
          split
          · rename_i hv
            simp only
            split
            · exact Or.inr ⟨_, he, hv⟩
            · exact Or.inl rfl
          · exact Or.inl rfl
        · exact Or.inr h5
      · rcases h6 with h6 | h6
        · rw [h6]
          split
          · rename_i hv
            simp only
            split
            · exact Or.inr ⟨_, he, hv⟩
            · exact Or.inl rfl
          · exact Or.inl rfl
        · exact Or.inr h6
  obtain ⟨r, h1, h2, h3, h4, h5, h6⟩ := key (List.range 256) (255, 0) fun i hi => List.mem_range.1 hi
  refine ⟨r.1, r.2, h1, h2, ?_, h5, h6⟩
  intro i v hv hv0
  obtain ⟨hi, _⟩ := List.getElem?_eq_some_iff.1 hv
  exact h4 i (List.mem_range.2 (by omega)) v hv hv0

/-- The histogram has the same smallest and largest value as the image. -/
theorem histMinMax_gray {m : BMem} {v : View} {w h : Nat} (o : One m v w h) (cc : v.img.cc = 1) {hist : List UInt32}
    (hl : hist.length = 256) (hk : ∀ k, k < 256 → hist[k]? = some (UInt32.ofNat (Props.occurrences m v w h (UInt8.ofNat k)))) :
    ∃ mn mx : UInt8, minMax v w h m = .ok (mn, mx) m ∧ histMinMax hist m = .ok (mn.toNat, mx.toNat) m ∧ mn ≤ mx := by
  obtain ⟨mn, mx, e, hall, ⟨x1, y1, c1, a1, a2, a3, a4⟩, ⟨x2, y2, c2, b1, b2, b3, b4⟩⟩ := minMax_run o.wf o.fit
  obtain ⟨p, q, e', hp, hpq, p1, q1⟩ := histMinMax_run (m := m) hl
  have hsmall := o.small
  have hpos : ∀ a : UInt8, (∃ v, hist[a.toNat]? = some v ∧ 0 < v) ↔ a ∈ Props.pixels m v w h := by
    intro a
    rw [hk _ (UInt8.toNat_lt _), UInt8.ofNat_toNat]
    have hle : Props.occurrences m v w h a ≤ (Props.pixels m v w h).length := List.count_le_length
    rw [Props.length_pixels] at hle
    have ht : (UInt32.ofNat (Props.occurrences m v w h a)).toNat = Props.occurrences m v w h a := by
      rw [UInt32.toNat_ofNat']
      exact Nat.mod_eq_of_lt (by omega)
    have hc : 0 < Props.occurrences m v w h a ↔ a ∈ Props.pixels m v w h := List.count_pos_iff
    rw [← hc]
    constructor
    · rintro ⟨u, hu, hu0⟩
      obtain rfl := Option.some.inj hu
      have := UInt32.lt_iff_toNat_lt.1 hu0
      rw [ht] at this
      exact this
    · intro h0
      refine ⟨_, rfl, UInt32.lt_iff_toNat_lt.2 ?_⟩
      rw [ht]
      exact h0
  have hmem1 : mn ∈ Props.pixels m v w h := Props.mem_pixels.2 ⟨x1, y1, a1, a2, by rw [← a4, show c1 = 0 by omega]⟩
  have hmem2 : mx ∈ Props.pixels m v w h := Props.mem_pixels.2 ⟨x2, y2, b1, b2, by rw [← b4, show c2 = 0 by omega]⟩
  have hmm : mn ≤ mx := by
    have := hall x1 y1 c1 a1 a2 a3
    exact UInt8.le_trans this.1 this.2
  have hin : ∀ a ∈ Props.pixels m v w h, mn.toNat ≤ a.toNat ∧ a.toNat ≤ mx.toNat := by
    intro a ha
    obtain ⟨x, y, hx, hy, rfl⟩ := Props.mem_pixels.1 ha
    have := hall x y 0 hx hy (by omega)
    exact ⟨UInt8.le_iff_toNat_le.1 this.1, UInt8.le_iff_toNat_le.1 this.2⟩
  obtain ⟨v1, w1, w2⟩ := (hpos mn).2 hmem1
  obtain ⟨v2, w3, w4⟩ := (hpos mx).2 hmem2
  have l1 := hpq _ _ w1 w2
  have l2 := hpq _ _ w3 w4
  have n1 := UInt8.toNat_lt mn
  have n2 := UInt8.toNat_lt mx
  have ep : p = mn.toNat := by
    rcases p1 with h | ⟨u, hu, hu0⟩
    · omega
    · have hp' : p < 256 := by omega
      have : (UInt8.ofNat p) ∈ Props.pixels m v w h := (hpos _).1 ⟨u, by rw [UInt8.toNat_ofNat', Nat.mod_eq_of_lt hp']; exact hu, hu0⟩
      have := hin _ this
      rw [UInt8.toNat_ofNat', Nat.mod_eq_of_lt hp'] at this
      omega
  have eq' : q = mx.toNat := by
    rcases q1 with h | ⟨u, hu, hu0⟩
    · omega
    · have hq' : q < 256 := by
        obtain ⟨hi, _⟩ := List.getElem?_eq_some_iff.1 hu
        omega
      have : (UInt8.ofNat q) ∈ Props.pixels m v w h := (hpos _).1 ⟨u, by rw [UInt8.toNat_ofNat', Nat.mod_eq_of_lt hq']; exact hu, hu0⟩
      have := hin _ this
      rw [UInt8.toNat_ofNat', Nat.mod_eq_of_lt hq'] at this
      omega
  exact ⟨mn, mx, e, by rw [e', ep, eq'], hmm⟩

/-- For the full range the table is the identity. -/
theorem normalTable_full {rnd : ℚ → ℚ} (r : Rounding rnd) (oob : ℚ → Option UInt8) :
    ∃ t, normalTable rnd oob 0 255 = some t ∧ ∃ hl : t.length = 256, ∀ a : UInt8,
      t[a.toNat]'(by rw [hl]; exact UInt8.toNat_lt _) = a := by
  have near : ∀ i : Nat, i < 256 → |normalValue rnd 0 255 i - ((i : ℚ) + 1 / 2)| ≤ 1 / 2 ^ 40 := by
    intro i hi
    have := normalValue_near r (mn := 0) (mx := 255) (by decide) (i := i) (Nat.zero_le _) (by simp; omega)
    simp only [UInt8.reduceToNat] at this
    have e : 255 * ((i : ℚ) - ((0 : ℕ) : ℚ)) / (((255 : ℕ) : ℚ) - ((0 : ℕ) : ℚ)) = i := by
      push_cast
      rw [sub_zero, sub_zero, mul_comm, mul_div_assoc, div_self (by norm_num), mul_one]
    rwa [e] at this
  have hcast : ∀ i : Nat, i < 256 → castU8 oob (normalValue rnd 0 255 i) = some (UInt8.ofNat i) := by
    intro i hi
    have hn := near i hi
    rw [abs_le] at hn
    norm_num at hn
    have hi' : (i : ℚ) ≤ 255 := by exact_mod_cast Nat.le_of_lt_succ hi
    have hi0 : (0 : ℚ) ≤ i := by positivity
    obtain ⟨v, e1, _, _, e4⟩ := castU8_in (oob := oob) (q := normalValue rnd 0 255 i) (by linarith [hn.1]) (by linarith [hn.2])
    rw [e1]
    have ef : ⌊normalValue rnd 0 255 i⌋ = i := by
      rw [Int.floor_eq_iff]
      push_cast
      constructor <;> linarith [hn.1, hn.2]
    rw [ef] at e4
    congr 1
    apply UInt8.toNat_inj.mp
    rw [e4, UInt8.toNat_ofNat', Nat.mod_eq_of_lt hi]
    rfl
  obtain ⟨t, h1, h2, h3⟩ := mapM_some (f := fun i => castU8 oob (normalValue rnd 0 255 i)) (L := List.range 256) fun i hi => by
    rw [hcast i (List.mem_range.1 hi)]
    rfl
  rw [List.length_range] at h2
  refine ⟨t, h1, h2, fun a => ?_⟩
  have ha := UInt8.toNat_lt a
  have := h3 a.toNat (by omega) (by rw [List.length_range]; exact ha)
  rw [List.getElem_range, hcast _ ha, UInt8.ofNat_toNat] at this
  exact (Option.some.inj this).symm

end PV
