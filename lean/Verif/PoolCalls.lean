import Verif.PoolMove
/-
  Pooled calls of the functions that split, merge or convert channels.
-/
namespace PV

open Props (Pair three)

theorem pooled_pair {m : BMem} {inp out : View} {w h n : Nat} (hn : 0 < n) (hn' : n < 4294967296)
    (p : Pair m inp w h out w h) {F : View → View → Nat → Nat → M BMem Unit}
    {G : View → View → Nat → Nat → Prog UInt8 Unit} {val : Nat → Nat → Nat → UInt8}
    (hF : ∀ t, t.In w h → ∀ m₁ : BMem, m₁.size = m.size →
      Pair m₁ (inp.sub t) t.w t.h (out.sub t) t.w t.h →
      F (inp.sub t) (out.sub t) t.w t.h m₁ = (G (inp.sub t) (out.sub t) t.w t.h).run m₁)
    (hfoot : ∀ t, t.In w h → (G (inp.sub t) (out.sub t) t.w t.h).Foot
      ((inp.sub t).cells t.w t.h) ((out.sub t).cells t.w t.h))
    (hw : ∀ t, t.In w h → Pair m (inp.sub t) t.w t.h (out.sub t) t.w t.h →
      ∃ m', F (inp.sub t) (out.sub t) t.w t.h m = .ok () m' ∧
      WritesRoi m m' (out.sub t) t.w t.h fun x y c => val (t.x + x) (t.y + y) c) :
    PooledLike n (poolSetup2 inp out w h n) (fun a => a.1.length) (task2 F inp out)
      (ptask2 G inp out) (F inp out w h) m :=
  pooled_two hn hn' p.wfi p.wfo p.fiti p.fito p.apart.pix
    (fun t ht m₁ hs => hF t ht m₁ hs (Pair.sub p hs ht)) (fun t ht => by simpa using hfoot t ht)
    (fun t ht => hw t ht (Pair.sub p rfl ht))

theorem pooled_extract {m : BMem} {inp out : View} {w h n ch : Nat} (hn : 0 < n) (hn' : n < 4294967296)
    (p : Pair m inp w h out w h) (co : out.img.cc = 1) (hch : ch < inp.img.cc) :
    PooledLike n (poolSetup2 inp out w h n) (fun a => a.1.length)
      (task2 (fun v1 v2 w h => ExtractChannel v1 v2 w h ch) inp out)
      (ptask2 (progExtract ch) inp out) (ExtractChannel inp out w h ch) m := by
  refine pooled_pair hn hn' p (val := fun x y _ => inp.get m x y ch)
    (F := fun v1 v2 w h => ExtractChannel v1 v2 w h ch)
    (fun t _ m₁ _ q => progExtract_tie q co hch) (fun t _ => ?_) (fun t _ q => ?_)
  · refine Prog.foot_fold () fun p hp _ => ?_
    obtain ⟨h1, h2⟩ := mem_grid.1 hp
    exact Prog.foot_copy ⟨rfl, _, _, _, h2, h1, hch, rfl⟩
      ⟨rfl, _, _, _, h2, h1, show 0 < out.img.cc by omega, rfl⟩
  · simp only [← View.sub_get]
    exact Props.C20_extractChannel q co hch

theorem pooled_bgr {m : BMem} {inp out : View} {w h n : Nat} (hn : 0 < n) (hn' : n < 4294967296)
    (p : Pair m inp w h out w h) (ci : inp.img.cc = 3) (co : out.img.cc = 3) :
    PooledLike n (poolSetup2 inp out w h n) (fun a => a.1.length) (task2 RgbToBgr inp out)
      (ptask2 progBgr inp out) (RgbToBgr inp out w h) m := by
  refine pooled_pair hn hn' p (val := fun x y c => inp.get m x y (2 - c))
    (fun t _ m₁ _ q => progBgr_tie q ci co) (fun t _ => ?_) (fun t _ q => ?_)
  · refine Prog.foot_fold () fun p hp _ => ?_
    obtain ⟨h1, h2⟩ := mem_grid.1 hp
    have a : ∀ k, k < 3 → k < (inp.sub t).img.cc := fun k hk => show k < inp.img.cc by omega
    have b : ∀ k, k < 3 → k < (out.sub t).img.cc := fun k hk => show k < out.img.cc by omega
    refine Prog.foot_bind (Prog.foot_copy ⟨rfl, _, _, _, h2, h1, a _ (by decide), rfl⟩
      ⟨rfl, _, _, _, h2, h1, b _ (by decide), rfl⟩) fun _ => ?_
    refine Prog.foot_bind (Prog.foot_copy ⟨rfl, _, _, _, h2, h1, a _ (by decide), rfl⟩
      ⟨rfl, _, _, _, h2, h1, b _ (by decide), rfl⟩) fun _ => ?_
    exact Prog.foot_copy ⟨rfl, _, _, _, h2, h1, a _ (by decide), rfl⟩
      ⟨rfl, _, _, _, h2, h1, b _ (by decide), rfl⟩
  · simp only [← View.sub_get]
    exact Props.C21_rgbToBgr_partial q ci co

theorem pooled_gray {m : BMem} {inp out : View} {w h n : Nat} (hn : 0 < n) (hn' : n < 4294967296)
    (p : Pair m inp w h out w h) (ci : inp.img.cc = 3 ∨ inp.img.cc = 1) (co : out.img.cc = 1) :
    PooledLike n (poolSetup2 inp out w h n) (fun a => a.1.length) (task2 ConvertToGrayScale inp out)
      (ptask2 progGray inp out) (ConvertToGrayScale inp out w h) m := by
  rcases ci with ci | ci
  · refine pooled_pair hn hn' p (val := fun x y _ =>
        Props.specMean (inp.get m x y 0) (inp.get m x y 1) (inp.get m x y 2))
      (fun t _ m₁ _ q => progGray_tie q (Or.inl ci) co) (fun t _ => ?_) (fun t _ q => ?_)
    · have hc : ((inp.sub t).img.cc == 1) = false := by
        have : (inp.sub t).img.cc = 3 := ci
        rw [this]
        rfl
      rw [progGray, hc]
      simp only [Bool.false_eq_true, ↓reduceIte]
      refine Prog.foot_fold () fun p hp _ => ?_
      obtain ⟨h1, h2⟩ := mem_grid.1 hp
      have a : ∀ k, k < 3 → k < (inp.sub t).img.cc := fun k hk => show k < inp.img.cc by omega
      have b : ∀ k, k < 1 → k < (out.sub t).img.cc := fun k hk => show k < out.img.cc by omega
      refine Prog.foot_bind (Prog.foot_load ⟨rfl, _, _, _, h2, h1, a _ (by decide), rfl⟩) fun _ => ?_
      refine Prog.foot_bind (Prog.foot_load ⟨rfl, _, _, _, h2, h1, a _ (by decide), rfl⟩) fun _ => ?_
      refine Prog.foot_bind (Prog.foot_load ⟨rfl, _, _, _, h2, h1, a _ (by decide), rfl⟩) fun _ => ?_
      exact Prog.foot_store _ ⟨rfl, _, _, _, h2, h1, b _ (by decide), rfl⟩
    · simp only [← View.sub_get]
      exact Props.C22_convertToGrayScale_rgb q ci co
  · refine pooled_pair hn hn' p (val := fun x y c => inp.get m x y c)
      (fun t _ m₁ _ q => progGray_tie q (Or.inr ci) co) (fun t _ => ?_) (fun t _ q => ?_)
    · have hc : ((inp.sub t).img.cc == 1) = true := by
        have : (inp.sub t).img.cc = 1 := ci
        rw [this]
        rfl
      rw [progGray, hc]
      simp only [↓reduceIte]
      have := prog1_foot (f := fun a => a) (inp := inp.sub t) (out := out.sub t) (w := t.w) (h := t.h)
        (show 0 < inp.img.cc by omega) (show out.img.cc = inp.img.cc by omega)
      simpa using this
    · simp only [← View.sub_get]
      exact Props.C22_convertToGrayScale_gray q ci co

theorem pooled_rgb {m : BMem} {inp out : View} {w h n : Nat} (hn : 0 < n) (hn' : n < 4294967296)
    (p : Pair m inp w h out w h) (ci : inp.img.cc = 1 ∨ inp.img.cc = 3) (co : out.img.cc = 3) :
    PooledLike n (poolSetup2 inp out w h n) (fun a => a.1.length) (task2 ConvertToRgb inp out)
      (ptask2 progRgb inp out) (ConvertToRgb inp out w h) m := by
  rcases ci with ci | ci
  · refine pooled_pair hn hn' p (val := fun x y _ => inp.get m x y 0)
      (fun t _ m₁ _ q => progRgb_tie q (Or.inl ci) co) (fun t _ => ?_) (fun t _ q => ?_)
    · have hc : ((inp.sub t).img.cc == 3) = false := by
        have : (inp.sub t).img.cc = 1 := ci
        rw [this]
        rfl
      rw [progRgb, hc]
      simp only [Bool.false_eq_true, ↓reduceIte]
      refine Prog.foot_fold () fun p hp _ => ?_
      obtain ⟨h1, h2⟩ := mem_grid.1 hp
      refine Prog.foot_bind (Prog.foot_load ⟨rfl, _, _, _, h2, h1, show 0 < inp.img.cc by omega, rfl⟩)
        fun _ => ?_
      refine Prog.foot_fold () fun k hk _ => ?_
      have hk := List.mem_range.1 hk
      exact Prog.foot_store _ ⟨rfl, _, _, k, h2, h1, show k < out.img.cc by omega, by simp [View.cell]⟩
    · simp only [← View.sub_get]
      exact Props.C22_convertToRgb_gray q ci co
  · refine pooled_pair hn hn' p (val := fun x y c => inp.get m x y c)
      (fun t _ m₁ _ q => progRgb_tie q (Or.inr ci) co) (fun t _ => ?_) (fun t _ q => ?_)
    · have hc : ((inp.sub t).img.cc == 3) = true := by
        have : (inp.sub t).img.cc = 3 := ci
        rw [this]
        rfl
      rw [progRgb, hc]
      simp only [↓reduceIte]
      have := prog1_foot (f := fun a => a) (inp := inp.sub t) (out := out.sub t) (w := t.w) (h := t.h)
        (show 0 < inp.img.cc by omega) (show out.img.cc = inp.img.cc by omega)
      simpa using this
    · simp only [← View.sub_get]
      exact Props.C22_convertToRgb_rgb q ci co

/-- Pooled `Merge`. -/
theorem pooled_merge {m : BMem} {i1 i2 i3 out : View} {w h n : Nat} (hn : 0 < n) (hn' : n < 4294967296)
    (p1 : Pair m i1 w h out w h) (p2 : Pair m i2 w h out w h) (p3 : Pair m i3 w h out w h)
    (co : out.img.cc = 3) (c1 : i1.img.cc = 1) (c2 : i2.img.cc = 1) (c3 : i3.img.cc = 1) :
    PooledLike n (poolSetup4 i1 i2 i3 out w h n) (fun a => a.1.length) (task4 Merge i1 i2 i3 out)
      (ptask4 progMerge i1 i2 i3 out) (Merge i1 i2 i3 out w h) m := by
  refine pooledLike_of (ins := [i1, i2, i3]) (val := fun x y c => (three i1 i2 i3 c).get m x y 0)
    (Q := fun t => progMerge (i1.sub t) (i2.sub t) (i3.sub t) (out.sub t) t.w t.h)
    (B := fun t => Merge (i1.sub t) (i2.sub t) (i3.sub t) (out.sub t) t.w t.h) hn p1.wfo p1.fito
    ?_ (poolSetup4_eq hn hn' p1.wfi p2.wfi p3.wfi p1.wfo p1.fiti p2.fiti p3.fiti p1.fito) (by simp)
    ?_ ?_ rfl ?_ ?_ ?_
  · intro v hv
    simp only [List.mem_cons, List.not_mem_nil, or_false] at hv
    rcases hv with rfl | rfl | rfl
    · exact p1.apart.pix
    · exact p2.apart.pix
    · exact p3.apart.pix
  · exact fun i hi => task4_eq Merge i1 i2 i3 out hi
  · exact fun i hi => ptask4_eq progMerge i1 i2 i3 out hi
  · exact fun t ht m₁ hs => (progMerge_tie (Pair.sub p1 hs ht) (Pair.sub p2 hs ht) (Pair.sub p3 hs ht)
      co c1 c2 c3).symm
  · intro t ht
    refine Prog.foot_fold () fun p hp _ => ?_
    obtain ⟨h1, h2⟩ := mem_grid.1 hp
    have b : ∀ k, k < 3 → k < (out.sub t).img.cc := fun k hk => show k < out.img.cc by omega
    refine Prog.foot_bind (Prog.foot_copy
      ⟨i1, by simp, rfl, _, _, _, h2, h1, show 0 < i1.img.cc by omega, rfl⟩
      ⟨rfl, _, _, _, h2, h1, b _ (by decide), rfl⟩) fun _ => ?_
    refine Prog.foot_bind (Prog.foot_copy
      ⟨i2, by simp, rfl, _, _, _, h2, h1, show 0 < i2.img.cc by omega, rfl⟩
      ⟨rfl, _, _, _, h2, h1, b _ (by decide), rfl⟩) fun _ => ?_
    exact Prog.foot_copy
      ⟨i3, by simp, rfl, _, _, _, h2, h1, show 0 < i3.img.cc by omega, rfl⟩
      ⟨rfl, _, _, _, h2, h1, b _ (by decide), rfl⟩
  · intro t ht
    obtain ⟨m', b1, b2⟩ := Props.C20_merge (Pair.sub p1 rfl ht) (Pair.sub p2 rfl ht) (Pair.sub p3 rfl ht)
      co c1 c2 c3
    refine ⟨m', b1, b2.size_eq, fun x y c hx hy hc => ?_, b2.outside⟩
    rw [b2.inside x y c hx hy hc]
    match c with
    | 0 => exact View.sub_get ..
    | 1 => exact View.sub_get ..
    | _ + 2 => exact View.sub_get ..

/-- What one `Split` task writes. Not in the code: for statements and proofs. -/
def splitCells (o1 o2 o3 : View) (t : Tile) (c : Nat × Nat) : Prop :=
  ∃ k, k < 3 ∧ ((three o1 o2 o3 k).sub t).cells t.w t.h c

theorem three_sub (o1 o2 o3 : View) (t : Tile) (k : Nat) :
    three (o1.sub t) (o2.sub t) (o3.sub t) k = (three o1 o2 o3 k).sub t := by
  match k with
  | 0 => rfl
  | 1 => rfl
  | _ + 2 => rfl

/-- Pooled `Split`. -/
theorem pooled_split {m : BMem} {inp o1 o2 o3 : View} {w h n : Nat} (hn : 0 < n) (hn' : n < 4294967296)
    (p1 : Pair m inp w h o1 w h) (p2 : Pair m inp w h o2 w h) (p3 : Pair m inp w h o3 w h)
    (a12 : Apart o1 w h o2 w h) (a13 : Apart o1 w h o3 w h) (a23 : Apart o2 w h o3 w h)
    (ci : inp.img.cc = 3) (c1 : o1.img.cc = 1) (c2 : o2.img.cc = 1) (c3 : o3.img.cc = 1) :
    PooledLike n (poolSetup4 inp o1 o2 o3 w h n) (fun a => a.1.length) (task4 Split inp o1 o2 o3)
      (ptask4 progSplit inp o1 o2 o3) (Split inp o1 o2 o3 w h) m := by
  have hT := tilesOf_tiling hn p1.fiti.wpos p1.fiti.hpos
  obtain ⟨l1, l2⟩ := tilesOf_length hn p1.fiti.wpos p1.fiti.hpos
  have hset := poolSetup4_eq (s := m) hn hn' p1.wfi p1.wfo p2.wfo p3.wfo p1.fiti p1.fito p2.fito p3.fito
  obtain ⟨ms, hms, hspec⟩ := Props.C20_split p1 p2 p3 a12 a13 a23 ci c1 c2 c3
  generalize tilesOf w h n = L at *
  have hin : ∀ i : Fin L.length, L[i].In w h := fun i => hT.tileIn (List.getElem_mem _)
  have hP : ∀ k, k < 3 → Pair m inp w h (three o1 o2 o3 k) w h ∧ (three o1 o2 o3 k).img.cc = 1 := by
    intro c hc
    match c, hc with
    | 0, _ => exact ⟨p1, c1⟩
    | 1, _ => exact ⟨p2, c2⟩
    | 2, _ => exact ⟨p3, c3⟩
  have hA : ∀ k k', k < 3 → k' < 3 → k ≠ k' → Apart (three o1 o2 o3 k) w h (three o1 o2 o3 k') w h := by
    intro k k' hk hk' hne
    have s12 : Apart o2 w h o1 w h := fun x y c x' y' c' hx hy hc hx' hy' hc' hd he =>
      a12 x' y' c' x y c hx' hy' hc' hx hy hc hd.symm he.symm
    have s13 : Apart o3 w h o1 w h := fun x y c x' y' c' hx hy hc hx' hy' hc' hd he =>
      a13 x' y' c' x y c hx' hy' hc' hx hy hc hd.symm he.symm
    have s23 : Apart o3 w h o2 w h := fun x y c x' y' c' hx hy hc hx' hy' hc' hd he =>
      a23 x' y' c' x y c hx' hy' hc' hx hy hc hd.symm he.symm
    match k, hk, k', hk' with
    | 0, _, 1, _ => exact a12
    | 0, _, 2, _ => exact a13
    | 1, _, 0, _ => exact s12
    | 1, _, 2, _ => exact a23
    | 2, _, 0, _ => exact s13
    | 2, _, 1, _ => exact s23
    | 0, _, 0, _ => exact absurd rfl hne
    | 1, _, 1, _ => exact absurd rfl hne
    | 2, _, 2, _ => exact absurd rfl hne
  refine pooledLike_gen (ms := ms) l1 l2 hset (by simp)
    (P := fun i => progSplit (inp.sub L[i]) (o1.sub L[i]) (o2.sub L[i]) (o3.sub L[i]) L[i].w L[i].h)
    (B := fun i => Split (inp.sub L[i]) (o1.sub L[i]) (o2.sub L[i]) (o3.sub L[i]) L[i].w L[i].h)
    (R := fun i => (inp.sub L[i]).cells L[i].w L[i].h) (W := fun i => splitCells o1 o2 o3 L[i])
    (fun i => task4_eq Split inp o1 o2 o3 i.2) (fun i => ptask4_eq progSplit inp o1 o2 o3 i.2)
    (fun i m₁ hs => (progSplit_tie (Pair.sub p1 hs (hin i)) (Pair.sub p2 hs (hin i))
      (Pair.sub p3 hs (hin i)) ci c1 c2 c3).symm) ?_ ?_ hms hspec.size_eq ?_ ?_
  · intro i
    refine Prog.foot_fold () fun p hp _ => ?_
    obtain ⟨h1, h2⟩ := mem_grid.1 hp
    have a : ∀ k, k < 3 → k < (inp.sub L[i]).img.cc := fun k hk => show k < inp.img.cc by omega
    refine Prog.foot_bind (Prog.foot_copy ⟨rfl, _, _, _, h2, h1, a _ (by decide), rfl⟩
      ⟨0, by decide, rfl, _, _, _, h2, h1, show 0 < o1.img.cc by omega, rfl⟩) fun _ => ?_
    refine Prog.foot_bind (Prog.foot_copy ⟨rfl, _, _, _, h2, h1, a _ (by decide), rfl⟩
      ⟨1, by decide, rfl, _, _, _, h2, h1, show 0 < o2.img.cc by omega, rfl⟩) fun _ => ?_
    exact Prog.foot_copy ⟨rfl, _, _, _, h2, h1, a _ (by decide), rfl⟩
      ⟨2, by decide, rfl, _, _, _, h2, h1, show 0 < o3.img.cc by omega, rfl⟩
  · rintro i j hij c ⟨k, hk, hi⟩ hj
    obtain ⟨e1, x, y, ch, hxy, hch, he⟩ := View.cells_sub hi
    have ti := hin i
    have tj := hin j
    have a1 := ti.inX
    have a2 := ti.inY
    have a3 := tj.inX
    have a4 := tj.inY
    have hxy2 := hxy
    unfold Tile.Has at hxy2
    rcases hj with hj | ⟨k', hk', hj⟩
    · obtain ⟨e2, x', y', ch', hxy', hch', he'⟩ := View.cells_sub hj
      unfold Tile.Has at hxy'
      exact (hP k hk).1.apart x' y' ch' x y ch (by omega) (by omega) hch' (by omega) (by omega) hch
        (by rw [← e1, ← e2]) (by rw [← he, ← he'])
    · obtain ⟨e2, x', y', ch', hxy', hch', he'⟩ := View.cells_sub hj
      have hxy2' := hxy'
      unfold Tile.Has at hxy2'
      by_cases hkk : k = k'
      · subst hkk
        obtain ⟨f1, f2, _⟩ := cell_inj (h := h) (hP k hk).1.wfo.row (hP k hk).1.fito.inX
          (x := x) (y := y) (c := ch) (x' := x') (y' := y') (c' := ch') (by omega) hch (by omega) hch'
          (by omega) (by omega) (by rw [← he, ← he'])
        subst f1
        subst f2
        exact hT.disjoint i.1 j.1 _ _ (List.getElem?_eq_getElem i.2) (List.getElem?_eq_getElem j.2)
          (fun e => hij (Fin.ext e)) _ _ hxy hxy'
      · exact hA k k' hk hk' hkk x y ch x' y' ch' (by omega) (by omega) hch (by omega) (by omega) hch'
          (by rw [← e1, ← e2]) (by rw [← he, ← he'])
  · intro i
    obtain ⟨mi, b1, b2⟩ := Props.C20_split (Pair.sub p1 rfl (hin i)) (Pair.sub p2 rfl (hin i))
      (Pair.sub p3 rfl (hin i)) (a12.sub (hin i) (hin i)) (a13.sub (hin i) (hin i))
      (a23.sub (hin i) (hin i)) ci c1 c2 c3
    refine ⟨mi, b1, ?_⟩
    rintro b q ⟨k, hk, e1, x, y, ch, hx', hy', hch, he⟩
    have a1 := (hin i).inX
    have a2 := (hin i).inY
    have hch0 : ch = 0 := by
      have hc1 : ((three o1 o2 o3 k).sub L[i]).img.cc = 1 := (hP k hk).2
      omega
    subst hch0
    have key := b2.inside x y k hx' hy' hk
    have key2 := hspec.inside (L[i].x + x) (L[i].y + y) k (by omega) (by omega) hk
    rw [three_sub, View.sub_get, View.sub_get] at key
    rw [← key] at key2
    have e1' : b = (three o1 o2 o3 k).img.data := e1
    have he' : q = (three o1 o2 o3 k).cell (L[i].x + x) (L[i].y + y) 0 := by
      rw [← View.sub_cell]
      exact he
    rw [e1', he']
    exact key2
  · intro b q hno
    refine hspec.outside b q ?_
    rintro x y c hx' hy' hc ⟨e1, he⟩
    obtain ⟨t, ht, hhas⟩ := hT.cover x y (by omega) (by omega) (by omega) (by omega)
    obtain ⟨i, hi, rfl⟩ := List.getElem_of_mem ht
    unfold Tile.Has at hhas
    refine hno ⟨i, hi⟩ ⟨c, hc, e1, x - L[i].x, y - L[i].y, 0, by show _ < L[i].w; omega,
      by show _ < L[i].h; omega, show 0 < (three o1 o2 o3 c).img.cc by rw [(hP c hc).2]; decide, ?_⟩
    show q = ((three o1 o2 o3 c).sub L[i]).cell _ _ _
    rw [View.sub_cell, he]
    congr 1 <;> omega

end PV
