import Verif.Pool
import Verif.PropsChannel
/-
  Pooled calls of functions whose output tile depends on the input tile at the same place.
-/
namespace PV

open Props (Ready1 Ready2 Pair)

/-- What a pooled call must do, compared with the single-threaded call `single` started in the
    same memory: the set-up returns normally and changes nothing; there is at least one task
    and no more than threads; `prog` is the sequence of memory accesses of each task body
    `body` (same outcome in every memory with the same blocks); and however the accesses of
    all tasks are interleaved, nothing goes wrong and the final memory is that of `single`.
    The last clause says that complete interleavings exist. Not in the code: for statements and proofs. -/
def PooledLike {Γ : Type} (threads : Nat) (setup : M BMem Γ) (count : Γ → Nat)
    (body : Γ → Nat → M BMem Unit) (prog : Γ → Nat → Prog UInt8 Unit) (single : M BMem Unit)
    (m : BMem) : Prop :=
  ∃ a k m', setup m = .ok a m ∧ count a = k ∧ 0 < k ∧ k ≤ threads ∧
    (∀ i, i < k → ∀ m₁ : BMem, m₁.size = m.size → (prog a i).run m₁ = body a i m₁) ∧
    single m = .ok () m' ∧
    (∀ σ : List (Fin k),
      ((⟨m, fun i => prog a i⟩ : Sys UInt8 Unit (Fin k)).exec σ).NoError ∧
      ((∀ i, (((⟨m, fun i => prog a i⟩ : Sys UInt8 Unit (Fin k)).exec σ).task i).Done) →
        ((⟨m, fun i => prog a i⟩ : Sys UInt8 Unit (Fin k)).exec σ).mem = m')) ∧
    ∃ σ : List (Fin k),
      ∀ i, (((⟨m, fun i => prog a i⟩ : Sys UInt8 Unit (Fin k)).exec σ).task i).Done

/-- A cell of the input rectangle is a cell of the output rectangle at most at the same pixel.
    Not in the code: for statements and proofs. -/
def PixClash (vi vo : View) (w h : Nat) : Prop :=
  ∀ x y c x' y' c', x < w → y < h → c < vi.img.cc → x' < w → y' < h → c' < vo.img.cc →
    vi.img.data = vo.img.data → vi.cell x y c = vo.cell x' y' c' → x = x' ∧ y = y'

theorem NoClash.pix {vi vo : View} {w h : Nat} (hn : NoClash vi vo w h) : PixClash vi vo w h := by
  intro x y c x' y' c' hx hy hc hx' hy' hc' hd he
  obtain ⟨a, b, _⟩ := hn x y c x' y' c' hx hy hc hx' hy' hc' hd he
  exact ⟨a, b⟩

theorem Apart.pix {vi vo : View} {w h : Nat} (hn : Apart vi w h vo w h) : PixClash vi vo w h := by
  intro x y c x' y' c' hx hy hc hx' hy' hc' hd he
  exact absurd he (hn x y c x' y' c' hx hy hc hx' hy' hc' hd)

/-- The whole rectangle as a tile. Not in the code: for statements and proofs. -/
def Tile.full (w h : Nat) : Tile := ⟨0, 0, w, h⟩

theorem Tile.full_in {w h : Nat} (hw : 0 < w) (hh : 0 < h) : (Tile.full w h).In w h :=
  ⟨hw, hh, by simp [Tile.full], by simp [Tile.full]⟩

theorem tilesOf_length {w h n : Nat} (hn : 0 < n) (hw : 0 < w) (hh : 0 < h) :
    0 < (tilesOf w h n).length ∧ (tilesOf w h n).length ≤ n := by
  obtain ⟨h1, h2, _⟩ := areaCount_spec hn hw hh
  have : (tilesOf w h n).length = (areaCount w h n).1 := by
    unfold tilesOf relTiles
    split <;> simp
  omega

/-- Pooled execution of a function working tile by tile. -/
theorem pooled_local {m : BMem} {ins : List View} {out : View} {w h : Nat} {L : List Tile} (hL : Tiling L 0 0 w h)
    (wf : out.img.WF m) (fit : out.Fits w h) (hpix : ∀ v ∈ ins, PixClash v out w h)
    {Q : Tile → Prog UInt8 Unit} {B : Tile → M BMem Unit} {val : Nat → Nat → Nat → UInt8}
    (htie : ∀ t, t.In w h → (Q t).run m = B t m)
    (hfoot : ∀ t, t.In w h → (Q t).Foot (fun c => ∃ v ∈ ins, (v.sub t).cells t.w t.h c)
      ((out.sub t).cells t.w t.h))
    (hB : ∀ t, t.In w h → ∃ m', B t m = .ok () m' ∧
      WritesRoi m m' (out.sub t) t.w t.h fun x y c => val (t.x + x) (t.y + y) c) :
    ∃ m', B (Tile.full w h) m = .ok () m' ∧
      ∀ σ : List (Fin L.length),
        ((⟨m, fun i => Q L[i]⟩ : Sys UInt8 Unit _).exec σ).NoError ∧
        ((∀ i, (((⟨m, fun i => Q L[i]⟩ : Sys UInt8 Unit _).exec σ).task i).Done) →
          ((⟨m, fun i => Q L[i]⟩ : Sys UInt8 Unit _).exec σ).mem = m') := by
  obtain ⟨m', h1, h2⟩ := hB _ (Tile.full_in fit.wpos fit.hpos)
  have h2' : WritesRoi m m' out w h val := by
    have e : (fun x y c => val ((Tile.full w h).x + x) ((Tile.full w h).y + y) c) = val := by
      funext x y c
      simp only [Tile.full, Nat.zero_add]
    rw [e] at h2
    exact h2
  refine ⟨m', h1, fun σ => ?_⟩
  obtain ⟨a, b⟩ := pooled_writes wf fit hL (F := val) (P := fun i => Q L[i])
    (R := fun i c => ∃ v ∈ ins, (v.sub L[i]).cells L[i].w L[i].h c)
    (fun i => hfoot _ (hL.tileIn (List.getElem_mem _)))
    (by
      rintro i j hij c ⟨v, hv, hc⟩ hi
      obtain ⟨e1, x, y, ch, hxy, hch, he⟩ := View.cells_sub hc
      obtain ⟨e2, x', y', ch', hxy', hch', he'⟩ := View.cells_sub hi
      have ti := hL.tileIn (t := L[i]) (List.getElem_mem _)
      have tj := hL.tileIn (t := L[j]) (List.getElem_mem _)
      have a1 := ti.inX
      have a2 := ti.inY
      have a3 := tj.inX
      have a4 := tj.inY
      have hxy2 := hxy
      have hxy2' := hxy'
      unfold Tile.Has at hxy2 hxy2'
      obtain ⟨f1, f2⟩ := hpix v hv x y ch x' y' ch' (by omega) (by omega) hch (by omega) (by omega)
        hch' (by rw [← e1, ← e2]) (by rw [← he, ← he'])
      subst f1
      subst f2
      exact hL.disjoint i.1 j.1 _ _ (List.getElem?_eq_getElem i.2)
        (List.getElem?_eq_getElem j.2) (fun e => hij (Fin.ext e)) x y hxy' hxy)
    (fun i => by
      have hin := hL.tileIn (t := L[i]) (List.getElem_mem _)
      obtain ⟨mi, b1, b2⟩ := hB _ hin
      exact ⟨mi, by rw [htie _ hin]; exact b1, b2⟩) σ
  exact ⟨a, fun hd => (b hd).unique h2'⟩

/-! ### The three set-ups -/

theorem poolSetup2_eq {μ : Type} {m : BMem} {s : μ} {v1 v2 : View} {w h n : Nat} (hn : 0 < n)
    (hn' : n < 4294967296) (wf1 : v1.img.WF m) (wf2 : v2.img.WF m) (fit1 : v1.Fits w h) (fit2 : v2.Fits w h) :
    poolSetup2 v1 v2 w h n s = .ok ((tilesOf w h n).map fun t => t.shift v1.x v1.y,
      (tilesOf w h n).map fun t => t.shift v2.x v2.y) s := by
  rw [poolSetup2, bind_ok (validate_on_ok (m := m) (vs := [v1, v2])
    (by simp; exact ⟨⟨wf1, fit1⟩, wf2, fit2⟩)), poolArea_eq wf1 fit1 hn hn', pure_bind',
    poolArea_eq wf2 fit2 hn hn', pure_bind']
  rfl

theorem poolSetup3_eq {μ : Type} {m : BMem} {s : μ} {v1 v2 v3 : View} {w h n : Nat} (hn : 0 < n)
    (hn' : n < 4294967296) (wf1 : v1.img.WF m) (wf2 : v2.img.WF m) (wf3 : v3.img.WF m)
    (fit1 : v1.Fits w h) (fit2 : v2.Fits w h) (fit3 : v3.Fits w h) :
    poolSetup3 v1 v2 v3 w h n s = .ok ((tilesOf w h n).map fun t => t.shift v1.x v1.y,
      (tilesOf w h n).map fun t => t.shift v2.x v2.y,
      (tilesOf w h n).map fun t => t.shift v3.x v3.y) s := by
  rw [poolSetup3, bind_ok (validate_on_ok (m := m) (vs := [v1, v2, v3])
    (by simp; exact ⟨⟨wf1, fit1⟩, ⟨wf2, fit2⟩, wf3, fit3⟩)), poolArea_eq wf1 fit1 hn hn', pure_bind',
    poolArea_eq wf2 fit2 hn hn', pure_bind', poolArea_eq wf3 fit3 hn hn', pure_bind']
  rfl

theorem poolSetup4_eq {μ : Type} {m : BMem} {s : μ} {v1 v2 v3 v4 : View} {w h n : Nat} (hn : 0 < n)
    (hn' : n < 4294967296) (wf1 : v1.img.WF m) (wf2 : v2.img.WF m) (wf3 : v3.img.WF m) (wf4 : v4.img.WF m)
    (fit1 : v1.Fits w h) (fit2 : v2.Fits w h) (fit3 : v3.Fits w h) (fit4 : v4.Fits w h) :
    poolSetup4 v1 v2 v3 v4 w h n s = .ok ((tilesOf w h n).map fun t => t.shift v1.x v1.y,
      (tilesOf w h n).map fun t => t.shift v2.x v2.y,
      (tilesOf w h n).map fun t => t.shift v3.x v3.y,
      (tilesOf w h n).map fun t => t.shift v4.x v4.y) s := by
  rw [poolSetup4, bind_ok (validate_on_ok (m := m) (vs := [v1, v2, v3])
    (by simp; exact ⟨⟨wf1, fit1⟩, ⟨wf2, fit2⟩, wf3, fit3⟩)), bind_ok (validate_on_ok (m := m) (vs := [v1, v4])
    (by simp; exact ⟨⟨wf1, fit1⟩, wf4, fit4⟩)), poolArea_eq wf1 fit1 hn hn', pure_bind',
    poolArea_eq wf2 fit2 hn hn', pure_bind', poolArea_eq wf3 fit3 hn hn', pure_bind',
    poolArea_eq wf4 fit4 hn hn', pure_bind']
  rfl

theorem shift_get {L : List Tile} {i x y : Nat} (hi : i < L.length) :
    (L.map fun t => t.shift x y)[i]? = some (L[i].shift x y) := by
  rw [List.getElem?_map, List.getElem?_eq_getElem hi]
  rfl

theorem Prog.orUb_bind {A B : Type} (a : A) (f : A → Prog UInt8 B) :
    (Prog.orUb (some a) >>= f) = f a := rfl

theorem task2_eq {μ A : Type} (F : View → View → Nat → Nat → M μ A) (v1 v2 : View) {L : List Tile}
    {i : Nat} (hi : i < L.length) :
    task2 F v1 v2 (L.map fun t => t.shift v1.x v1.y, L.map fun t => t.shift v2.x v2.y) i
      = F (v1.sub L[i]) (v2.sub L[i]) L[i].w L[i].h := by
  simp only [task2, shift_get hi, orUb_some, pure_bind']
  rfl

theorem ptask2_eq {A : Type} (G : View → View → Nat → Nat → Prog UInt8 A) (v1 v2 : View) {L : List Tile}
    {i : Nat} (hi : i < L.length) :
    ptask2 G v1 v2 (L.map fun t => t.shift v1.x v1.y, L.map fun t => t.shift v2.x v2.y) i
      = G (v1.sub L[i]) (v2.sub L[i]) L[i].w L[i].h := by
  simp only [ptask2, shift_get hi, Prog.orUb_bind]
  rfl

theorem task3_eq {μ A : Type} (F : View → View → View → Nat → Nat → M μ A) (v1 v2 v3 : View)
    {L : List Tile} {i : Nat} (hi : i < L.length) :
    task3 F v1 v2 v3 (L.map fun t => t.shift v1.x v1.y, L.map fun t => t.shift v2.x v2.y,
      L.map fun t => t.shift v3.x v3.y) i
      = F (v1.sub L[i]) (v2.sub L[i]) (v3.sub L[i]) L[i].w L[i].h := by
  simp only [task3, shift_get hi, orUb_some, pure_bind']
  rfl

theorem ptask3_eq {A : Type} (G : View → View → View → Nat → Nat → Prog UInt8 A) (v1 v2 v3 : View)
    {L : List Tile} {i : Nat} (hi : i < L.length) :
    ptask3 G v1 v2 v3 (L.map fun t => t.shift v1.x v1.y, L.map fun t => t.shift v2.x v2.y,
      L.map fun t => t.shift v3.x v3.y) i
      = G (v1.sub L[i]) (v2.sub L[i]) (v3.sub L[i]) L[i].w L[i].h := by
  simp only [ptask3, shift_get hi, Prog.orUb_bind]
  rfl

theorem task4_eq {μ A : Type} (F : View → View → View → View → Nat → Nat → M μ A) (v1 v2 v3 v4 : View)
    {L : List Tile} {i : Nat} (hi : i < L.length) :
    task4 F v1 v2 v3 v4 (L.map fun t => t.shift v1.x v1.y, L.map fun t => t.shift v2.x v2.y,
      L.map fun t => t.shift v3.x v3.y, L.map fun t => t.shift v4.x v4.y) i
      = F (v1.sub L[i]) (v2.sub L[i]) (v3.sub L[i]) (v4.sub L[i]) L[i].w L[i].h := by
  simp only [task4, shift_get hi, orUb_some, pure_bind']
  rfl

theorem ptask4_eq {A : Type} (G : View → View → View → View → Nat → Nat → Prog UInt8 A)
    (v1 v2 v3 v4 : View) {L : List Tile} {i : Nat} (hi : i < L.length) :
    ptask4 G v1 v2 v3 v4 (L.map fun t => t.shift v1.x v1.y, L.map fun t => t.shift v2.x v2.y,
      L.map fun t => t.shift v3.x v3.y, L.map fun t => t.shift v4.x v4.y) i
      = G (v1.sub L[i]) (v2.sub L[i]) (v3.sub L[i]) (v4.sub L[i]) L[i].w L[i].h := by
  simp only [ptask4, shift_get hi, Prog.orUb_bind]
  rfl

/-- From tiles to the claim, for any number of images: `a` are the vectors the set-up made. -/
theorem pooledLike_of {Γ : Type} {m : BMem} {ins : List View} {out : View} {w h n : Nat} (hn : 0 < n)
    (wf : out.img.WF m) (fit : out.Fits w h) (hpix : ∀ v ∈ ins, PixClash v out w h)
    {Q : Tile → Prog UInt8 Unit} {B : Tile → M BMem Unit} {val : Nat → Nat → Nat → UInt8}
    {setup : M BMem Γ} {count : Γ → Nat} {body : Γ → Nat → M BMem Unit} {prog : Γ → Nat → Prog UInt8 Unit}
    {single : M BMem Unit} {a : Γ} (hset : setup m = .ok a m) (hcount : count a = (tilesOf w h n).length)
    (hbody : ∀ i (hi : i < (tilesOf w h n).length), body a i = B (tilesOf w h n)[i])
    (hprog : ∀ i (hi : i < (tilesOf w h n).length), prog a i = Q (tilesOf w h n)[i])
    (hsingle : single = B (Tile.full w h))
    (htie : ∀ t, t.In w h → ∀ m₁ : BMem, m₁.size = m.size → (Q t).run m₁ = B t m₁)
    (hfoot : ∀ t, t.In w h → (Q t).Foot (fun c => ∃ v ∈ ins, (v.sub t).cells t.w t.h c)
      ((out.sub t).cells t.w t.h))
    (hB : ∀ t, t.In w h → ∃ m', B t m = .ok () m' ∧
      WritesRoi m m' (out.sub t) t.w t.h fun x y c => val (t.x + x) (t.y + y) c) :
    PooledLike n setup count body prog single m := by
  obtain ⟨l1, l2⟩ := tilesOf_length hn fit.wpos fit.hpos
  have hL := tilesOf_tiling hn fit.wpos fit.hpos
  obtain ⟨m', h1, h2⟩ := pooled_local hL wf fit hpix (fun t ht => htie t ht m rfl) hfoot hB
  have e : (fun i : Fin (tilesOf w h n).length => prog a i) = fun i => Q (tilesOf w h n)[i] := by
    funext i
    exact hprog i.1 i.2
  refine ⟨a, _, m', hset, hcount, l1, l2, ?_, by rw [hsingle]; exact h1, ?_, Sys.finish _⟩
  · intro i hi m₁ hs
    rw [hprog i hi, hbody i hi]
    exact htie _ (hL.tileIn (List.getElem_mem _)) m₁ hs
  · rw [e]
    exact h2

/-! ### Bytewise functions -/

theorem Image.WF.same {m m' : BMem} {img : Image} (wf : img.WF m) (hs : m'.size = m.size) : img.WF m' :=
  ⟨wf.row, by rw [hs]; exact wf.block, wf.small⟩

theorem Ready2.sub {m m₁ : BMem} {in1 in2 out : View} {w h : Nat} (r : Ready2 m in1 in2 out w h)
    (hs : m₁.size = m.size) {t : Tile} (ht : t.In w h) :
    Ready2 m₁ (in1.sub t) (in2.sub t) (out.sub t) t.w t.h :=
  ⟨r.wf1.same hs, r.wf2.same hs, r.wfo.same hs, r.fit1.sub ht, r.fit2.sub ht, r.fito.sub ht, r.c2, r.co,
    r.n1.sub ht, r.n2.sub ht⟩

theorem Ready1.sub {m m₁ : BMem} {inp out : View} {w h : Nat} (r : Ready1 m inp out w h)
    (hs : m₁.size = m.size) {t : Tile} (ht : t.In w h) :
    Ready1 m₁ (inp.sub t) (out.sub t) t.w t.h :=
  ⟨r.wfi.same hs, r.wfo.same hs, r.fiti.sub ht, r.fito.sub ht, r.co, r.n1.sub ht⟩

theorem Pair.sub {m m₁ : BMem} {inp out : View} {w h : Nat} (p : Pair m inp w h out w h)
    (hs : m₁.size = m.size) {t : Tile} (ht : t.In w h) :
    Pair m₁ (inp.sub t) t.w t.h (out.sub t) t.w t.h :=
  ⟨p.wfi.same hs, p.wfo.same hs, p.fiti.sub ht, p.fito.sub ht, p.apart.sub ht ht⟩

theorem prog2_run (f : UInt8 → UInt8 → UInt8) (in1 in2 out : View) (w h : Nat) :
    (prog2 f in1 in2 out w h).run = fold (fun p _ => do
      let a ← readC in1.img.data (in1.cell p.1 p.2.1 p.2.2)
      let b ← readC in2.img.data (in2.cell p.1 p.2.1 p.2.2)
      writeC out.img.data (out.cell p.1 p.2.1 p.2.2) (f a b)) (bytesL w h in1.img.cc) () := by
  rw [prog2, Prog.run_fold]
  refine fold_congr () fun p _ => ?_
  funext _
  simp only [Prog.run_bind, Prog.run_load, Prog.run_store]

theorem prog1_run (f : UInt8 → UInt8) (inp out : View) (w h : Nat) :
    (prog1 f inp out w h).run = fold (fun p _ => do
      let a ← readC inp.img.data (inp.cell p.1 p.2.1 p.2.2)
      writeC out.img.data (out.cell p.1 p.2.1 p.2.2) (f a)) (bytesL w h inp.img.cc) () := by
  rw [prog1, Prog.run_fold]
  refine fold_congr () fun p _ => ?_
  funext _
  simp only [Prog.run_bind, Prog.run_load, Prog.run_store]

theorem prog2_foot {f : UInt8 → UInt8 → UInt8} {in1 in2 out : View} {w h : Nat} (hcc : 0 < in1.img.cc)
    (c2 : in2.img.cc = in1.img.cc) (co : out.img.cc = in1.img.cc) :
    (prog2 f in1 in2 out w h).Foot (fun c => ∃ v ∈ [in1, in2], v.cells w h c) (out.cells w h) := by
  refine Prog.foot_fold () fun p hp _ => ?_
  obtain ⟨h1, h2, h3⟩ := (mem_bytesL hcc).1 hp
  refine Prog.foot_bind (Prog.foot_load ⟨in1, by simp, rfl, _, _, _, h1, h2, h3, rfl⟩) fun a => ?_
  refine Prog.foot_bind (Prog.foot_load ⟨in2, by simp, rfl, _, _, _, h1, h2, by omega, rfl⟩) fun b => ?_
  exact Prog.foot_store _ ⟨rfl, _, _, _, h1, h2, by omega, rfl⟩

theorem prog1_foot {f : UInt8 → UInt8} {inp out : View} {w h : Nat} (hcc : 0 < inp.img.cc)
    (co : out.img.cc = inp.img.cc) :
    (prog1 f inp out w h).Foot (fun c => ∃ v ∈ [inp], v.cells w h c) (out.cells w h) := by
  refine Prog.foot_fold () fun p hp _ => ?_
  obtain ⟨h1, h2, h3⟩ := (mem_bytesL hcc).1 hp
  refine Prog.foot_bind (Prog.foot_load ⟨inp, by simp, rfl, _, _, _, h1, h2, h3, rfl⟩) fun a => ?_
  exact Prog.foot_store _ ⟨rfl, _, _, _, h1, h2, by omega, rfl⟩

theorem prog2_writes {m : BMem} {f : UInt8 → UInt8 → UInt8} {in1 in2 out : View} {w h : Nat}
    (r : Ready2 m in1 in2 out w h) :
    ∃ m', (prog2 f in1 in2 out w h).run m = .ok () m' ∧
      WritesRoi m m' out w h fun x y c => f (in1.get m x y c) (in2.get m x y c) := by
  have hcc := (View.facts r.wf1 r.fit1).1
  rw [prog2_run]
  refine roi_writes r.wfo r.fito nodup_bytesL (fun p => by rw [mem_bytesL hcc, r.co]) ?_
  intro x y c hx hy hc m' hoth
  have hc1 : c < in1.img.cc := by rw [← r.co]; exact hc
  have hc2 : c < in2.img.cc := by rw [r.c2]; exact hc1
  simp only
  rw [bind_ok (readC_get r.wf1 r.fit1 hoth.size_eq hx hy hc1),
    bind_ok (readC_get r.wf2 r.fit2 hoth.size_eq hx hy hc2),
    writeC_get r.wfo r.fito hoth.size_eq hx hy hc,
    hoth.get_noClash r.n1 hx hy hc1, hoth.get_noClash r.n2 hx hy hc2]

theorem prog1_writes {m : BMem} {f : UInt8 → UInt8} {inp out : View} {w h : Nat}
    (r : Ready1 m inp out w h) :
    ∃ m', (prog1 f inp out w h).run m = .ok () m' ∧
      WritesRoi m m' out w h fun x y c => f (inp.get m x y c) := by
  have hcc := (View.facts r.wfi r.fiti).1
  rw [prog1_run]
  refine roi_writes r.wfo r.fito nodup_bytesL (fun p => by rw [mem_bytesL hcc, r.co]) ?_
  intro x y c hx hy hc m' hoth
  have hc1 : c < inp.img.cc := by rw [← r.co]; exact hc
  simp only
  rw [bind_ok (readC_get r.wfi r.fiti hoth.size_eq hx hy hc1),
    writeC_get r.wfo r.fito hoth.size_eq hx hy hc, hoth.get_noClash r.n1 hx hy hc1]

/-- Pooled functions with two inputs. -/
theorem pooled_three {m : BMem} {in1 in2 out : View} {w h n : Nat} (hn : 0 < n) (hn' : n < 4294967296)
    (r : Ready2 m in1 in2 out w h) {F : View → View → View → Nat → Nat → M BMem Unit}
    {f : UInt8 → UInt8 → UInt8}
    (hF : ∀ t, t.In w h → ∀ m₁ : BMem, m₁.size = m.size →
      F (in1.sub t) (in2.sub t) (out.sub t) t.w t.h m₁
        = (prog2 f (in1.sub t) (in2.sub t) (out.sub t) t.w t.h).run m₁) :
    PooledLike n (poolSetup3 in1 in2 out w h n) (fun a => a.1.length) (task3 F in1 in2 out)
      (ptask3 (prog2 f) in1 in2 out) (F in1 in2 out w h) m := by
  have hcc := (View.facts r.wf1 r.fit1).1
  refine pooledLike_of (ins := [in1, in2]) (val := fun x y c => f (in1.get m x y c) (in2.get m x y c))
    (Q := fun t => prog2 f (in1.sub t) (in2.sub t) (out.sub t) t.w t.h)
    (B := fun t => F (in1.sub t) (in2.sub t) (out.sub t) t.w t.h) hn r.wfo r.fito
    ?_ (poolSetup3_eq hn hn' r.wf1 r.wf2 r.wfo r.fit1 r.fit2 r.fito) (by simp) ?_ ?_ rfl ?_ ?_ ?_
  · intro v hv
    simp only [List.mem_cons, List.not_mem_nil, or_false] at hv
    rcases hv with rfl | rfl
    · exact r.n1.pix
    · exact r.n2.pix
  · exact fun i hi => task3_eq F in1 in2 out hi
  · exact fun i hi => ptask3_eq (prog2 f) in1 in2 out hi
  · exact fun t ht m₁ hs => (hF t ht m₁ hs).symm
  · intro t ht
    have := prog2_foot (f := f) (in1 := in1.sub t) (in2 := in2.sub t) (out := out.sub t) (w := t.w)
      (h := t.h) hcc r.c2 r.co
    simpa using this
  · intro t ht
    simp only [hF t ht m rfl, ← View.sub_get]
    exact prog2_writes (Ready2.sub r rfl ht)

/-- Pooled functions with one input: `G` are the accesses, `vals` the values written. -/
theorem pooled_two {m : BMem} {inp out : View} {w h n : Nat} (hn : 0 < n) (hn' : n < 4294967296)
    (wfi : inp.img.WF m) (wfo : out.img.WF m) (fiti : inp.Fits w h) (fito : out.Fits w h)
    (hpix : PixClash inp out w h) {F : View → View → Nat → Nat → M BMem Unit}
    {G : View → View → Nat → Nat → Prog UInt8 Unit} {val : Nat → Nat → Nat → UInt8}
    (hF : ∀ t, t.In w h → ∀ m₁ : BMem, m₁.size = m.size →
      F (inp.sub t) (out.sub t) t.w t.h m₁ = (G (inp.sub t) (out.sub t) t.w t.h).run m₁)
    (hfoot : ∀ t, t.In w h → (G (inp.sub t) (out.sub t) t.w t.h).Foot
      (fun c => ∃ v ∈ [inp.sub t], v.cells t.w t.h c) ((out.sub t).cells t.w t.h))
    (hw : ∀ t, t.In w h → ∃ m', F (inp.sub t) (out.sub t) t.w t.h m = .ok () m' ∧
      WritesRoi m m' (out.sub t) t.w t.h fun x y c => val (t.x + x) (t.y + y) c) :
    PooledLike n (poolSetup2 inp out w h n) (fun a => a.1.length) (task2 F inp out)
      (ptask2 G inp out) (F inp out w h) m := by
  refine pooledLike_of (ins := [inp]) (val := val)
    (Q := fun t => G (inp.sub t) (out.sub t) t.w t.h)
    (B := fun t => F (inp.sub t) (out.sub t) t.w t.h) hn wfo fito
    ?_ (poolSetup2_eq hn hn' wfi wfo fiti fito) (by simp) ?_ ?_ rfl ?_ ?_ ?_
  · intro v hv
    simp only [List.mem_cons, List.not_mem_nil, or_false] at hv
    subst hv
    exact hpix
  · exact fun i hi => task2_eq F inp out hi
  · exact fun i hi => ptask2_eq G inp out hi
  · exact fun t ht m₁ hs => (hF t ht m₁ hs).symm
  · intro t ht
    simpa using hfoot t ht
  · exact hw

/-- Pooled one-input bytewise functions. -/
theorem pooled_unary {m : BMem} {inp out : View} {w h n : Nat} (hn : 0 < n) (hn' : n < 4294967296)
    (r : Ready1 m inp out w h) {F : View → View → Nat → Nat → M BMem Unit}
    {f : UInt8 → UInt8}
    (hF : ∀ t, t.In w h → ∀ m₁ : BMem, m₁.size = m.size →
      F (inp.sub t) (out.sub t) t.w t.h m₁ = (prog1 f (inp.sub t) (out.sub t) t.w t.h).run m₁) :
    PooledLike n (poolSetup2 inp out w h n) (fun a => a.1.length) (task2 F inp out)
      (ptask2 (prog1 f) inp out) (F inp out w h) m := by
  have hcc := (View.facts r.wfi r.fiti).1
  refine pooled_two hn hn' r.wfi r.wfo r.fiti r.fito r.n1.pix (G := prog1 f)
    (val := fun x y c => f (inp.get m x y c)) hF (fun t ht => prog1_foot hcc r.co) fun t ht => ?_
  simp only [hF t ht m rfl, ← View.sub_get]
  exact prog1_writes (Ready1.sub r rfl ht)

end PV
