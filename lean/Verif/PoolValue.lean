import Verif.PoolReduce
/-
  Pooled Sum, Histogram, ProjectionProfile, IsEqual: putting the pieces together.
-/
namespace PV

open Props (One pixels occurrences total rowByte columnSum rowSum)

variable {μ A B : Type}

theorem One.sub {m m₁ : BMem} {v : View} {w h : Nat} (o : One m v w h) (hs : m₁.size = m.size) {t : Tile}
    (ht : t.In w h) : One m₁ (v.sub t) t.w t.h := ⟨o.wf.same hs, o.fit.sub ht⟩

theorem poolSetup1_eq {m : BMem} {s : μ} {v : View} {w h n : Nat} (hn : 0 < n)
    (hn' : n < 4294967296) (wf : v.img.WF m) (fit : v.Fits w h) :
    poolSetup1 v w h n s = .ok ((tilesOf w h n).map fun t => t.shift v.x v.y) s := by
  rw [poolSetup1, bind_ok (validate_on_ok (m := m) (vs := [v]) (by simp; exact ⟨wf, fit⟩)),
    poolArea_eq wf fit hn hn']
  rfl

theorem task1_eq (F : View → Nat → Nat → M μ A) (v : View) {L : List Tile} {i : Nat} (hi : i < L.length) :
    task1 F v (L.map fun t => t.shift v.x v.y) i = F (v.sub L[i]) L[i].w L[i].h := by
  simp only [task1, shift_get hi, orUb_some, pure_bind']
  rfl

theorem ptask1_eq (G : View → Nat → Nat → Prog UInt8 A) (v : View) {L : List Tile} {i : Nat}
    (hi : i < L.length) :
    ptask1 G v (L.map fun t => t.shift v.x v.y) i = G (v.sub L[i]) L[i].w L[i].h := by
  simp only [ptask1, shift_get hi, Prog.orUb_bind]
  rfl

/-- Pooled value computation on one image. -/
theorem pooled_one {m : BMem} {v : View} {w h n : Nat} (hn : 0 < n) (hn' : n < 4294967296)
    (o : One m v w h) {F : View → Nat → Nat → M BMem A} {G : View → Nat → Nat → Prog UInt8 A}
    {collect : List A → M BMem B} {single : M BMem B} {b : B} {val : Tile → A}
    (htie : ∀ t, t.In w h → ∀ m₁ : BMem, One m₁ (v.sub t) t.w t.h →
      (G (v.sub t) t.w t.h).run m₁ = F (v.sub t) t.w t.h m₁)
    (hfoot : ∀ v w h, (G v w h).Foot (fun _ => True) (fun _ => False))
    (hval : ∀ t, t.In w h → One m (v.sub t) t.w t.h → F (v.sub t) t.w t.h m = .ok (val t) m)
    (hsingle : single m = .ok b m) (hcollect : collect ((tilesOf w h n).map val) m = .ok b m) :
    PooledValue n (poolSetup1 v w h n) (fun a => a.length) (task1 F v) (ptask1 G v) collect single m := by
  obtain ⟨l1, l2⟩ := tilesOf_length hn o.fit.wpos o.fit.hpos
  have hT := tilesOf_tiling hn o.fit.wpos o.fit.hpos
  have hset := poolSetup1_eq (s := m) hn hn' o.wf o.fit
  generalize tilesOf w h n = L at *
  exact pooledValue_of (L := L) (val := val) l1 l2 hset (by simp) (fun i hi => task1_eq F v hi)
    (fun i hi => ptask1_eq G v hi)
    (Q := fun t => G (v.sub t) t.w t.h) (C := fun t => F (v.sub t) t.w t.h)
    (fun t ht m₁ hs => htie t (hT.tileIn ht) m₁ (One.sub o hs (hT.tileIn ht)))
    (fun t _ => hfoot _ _ _) (fun t ht => hval t (hT.tileIn ht) (One.sub o rfl (hT.tileIn ht))) hsingle hcollect

/-! ### Only reads -/

theorem readOnly_fold {X ι : Type} (f : ι → X → Prog UInt8 X) (L : List ι) (a : X)
    (hf : ∀ p a, (f p a).Foot (fun _ => True) (fun _ => False)) :
    (Prog.fold f L a).Foot (fun _ => True) (fun _ => False) :=
  Prog.foot_fold a fun p _ a => hf p a

theorem readOnly_load {X : Type} (b k : Nat) (f : UInt8 → X) :
    (do let a ← Prog.load b k; Prog.ret (f a) : Prog UInt8 X).Foot (fun _ => True) (fun _ => False) :=
  Prog.foot_bind (Prog.foot_load trivial) fun _ => trivial

theorem progSum_foot (v : View) (w h : Nat) : (progSum v w h).Foot (fun _ => True) (fun _ => False) :=
  readOnly_fold _ _ _ fun _ _ => readOnly_load _ _ _

theorem progHistogram_foot (v : View) (w h : Nat) :
    (progHistogram v w h).Foot (fun _ => True) (fun _ => False) :=
  readOnly_fold _ _ _ fun _ _ => readOnly_load _ _ _

theorem progProjection_foot (hor : Bool) (v : View) (w h : Nat) :
    (progProjection hor v w h).Foot (fun _ => True) (fun _ => False) := by
  unfold progProjection
  split
  · exact readOnly_fold _ _ _ fun _ _ => readOnly_load _ _ _
  · exact readOnly_fold _ _ _ fun _ _ => readOnly_load _ _ _

theorem progEqual_foot (v1 v2 : View) (w h : Nat) :
    (progEqual v1 v2 w h).Foot (fun _ => True) (fun _ => False) := by
  refine readOnly_fold _ _ _ fun p a => ?_
  split
  · exact Prog.foot_bind (Prog.foot_load trivial) fun _ => readOnly_load _ _ _
  · trivial

/-! ### Sum -/

theorem sum_mod (L : List Nat) (N : Nat) : (L.map (· % N)).sum % N = L.sum % N := by
  induction L with
  | nil => rfl
  | cons a as ih => rw [List.map_cons, List.sum_cons, List.sum_cons, Nat.add_mod, ih, Nat.mod_mod, ← Nat.add_mod]

theorem ofNat_of_toNat {s : UInt32} {n : Nat} (h : s.toNat = n % 2 ^ 32) : s = UInt32.ofNat n := by
  apply UInt32.toNat_inj.1
  rw [h, UInt32.toNat_ofNat']

theorem total_sub (m : BMem) (v : View) (t : Tile) :
    total m (v.sub t) t.w t.h
      = ((grid t.h t.w).map fun p => (v.get m (t.x + p.2) (t.y + p.1) 0).toNat).sum := by
  rw [total, pixels, List.map_map]
  refine congrArg List.sum (List.map_congr_left fun p _ => ?_)
  simp only [Function.comp, View.sub_get]

theorem pooled_sum {m : BMem} {v : View} {w h n : Nat} (hn : 0 < n) (hn' : n < 4294967296)
    (o : One m v w h) (cc : v.img.cc = 1) :
    PooledValue n (poolSetup1 v w h n) (fun a => a.length) (task1 Sum v) (ptask1 progSum v) getSum
      (Sum v w h) m := by
  have hT := tilesOf_tiling hn o.fit.wpos o.fit.hpos
  have l1 := (tilesOf_length hn o.fit.wpos o.fit.hpos).1
  have key : ∀ {v : View} {w h : Nat}, One m v w h → v.img.cc = 1 →
      Sum v w h m = .ok (UInt32.ofNat (total m v w h)) m := by
    intro v w h o cc
    obtain ⟨s, h1, h2⟩ := Props.C25_sum o cc
    rw [h1, ofNat_of_toNat h2]
  refine pooled_one hn hn' o (val := fun t => UInt32.ofNat (total m (v.sub t) t.w t.h))
    (fun t _ m₁ o' => progSum_tie o' cc) progSum_foot (fun t _ o' => key o' cc) (key o cc) ?_
  rw [getSum_ok (by simpa using l1)]
  refine congrArg (Res.ok · m) ?_
  apply UInt32.toNat_inj.1
  rw [UInt32.toNat_ofNat', UInt32.toNat_ofNat', List.map_map]
  have e := tiles_sum hT fun p => (v.get m p.2 p.1 0).toNat
  have e2 : total m v w h = ((grid h w).map fun p => (v.get m p.2 p.1 0).toNat).sum := by
    rw [total, pixels, List.map_map]
    rfl
  rw [e2, ← e]
  simp only [← total_sub]
  refine Eq.trans ?_ (sum_mod ((tilesOf w h n).map _) _)
  rw [List.map_map]
  refine congrArg (· % 2 ^ 32) (congrArg List.sum (List.map_congr_left fun t _ => ?_))
  simp only [Function.comp, UInt32.toNat_ofNat']

/-! ### Histogram -/

theorem list_of_get {X : Type} {l : List X} {n : Nat} {f : Nat → X} (hl : l.length = n)
    (hk : ∀ k, k < n → l[k]? = some (f k)) : l = (List.range n).map f := by
  apply List.ext_getElem?
  intro k
  by_cases h : k < n
  · rw [hk k h, List.getElem?_map, List.getElem?_range h]
    rfl
  · rw [List.getElem?_eq_none (by omega), List.getElem?_eq_none (by simp; omega)]

theorem range_map_get {X : Type} (n : Nat) (f : Nat → X) (k : Nat) (hk : k < n) :
    ((List.range n).map f)[k]? = some (f k) := by
  rw [List.getElem?_map, List.getElem?_range hk]
  rfl

theorem occurrences_sum (m : BMem) (v : View) (w h k : Nat) (hk : k < 256) :
    occurrences m v w h (UInt8.ofNat k)
      = ((grid h w).map fun p => if (v.get m p.2 p.1 0).toNat = k then 1 else 0).sum := by
  rw [occurrences, ← Props.sum_ite_count _ k hk, pixels, List.map_map]
  rfl

theorem pooled_histogram {m : BMem} {v : View} {w h n : Nat} (hn : 0 < n) (hn' : n < 4294967296)
    (o : One m v w h) (cc : v.img.cc = 1) :
    PooledValue n (poolSetup1 v w h n) (fun a => a.length)
      (task1 (fun v w h => withVec (Histogram v w h)) v) (ptask1 progHistogram v) getArray
      (withVec (Histogram v w h)) m := by
  have hT := tilesOf_tiling hn o.fit.wpos o.fit.hpos
  have l1 := (tilesOf_length hn o.fit.wpos o.fit.hpos).1
  have key : ∀ {v : View} {w h : Nat}, One m v w h → v.img.cc = 1 →
      withVec (Histogram v w h) m
        = .ok ((List.range 256).map fun k => UInt32.ofNat (occurrences m v w h (UInt8.ofNat k))) m := by
    intro v w h o cc
    obtain ⟨hist, h1, h2, h3⟩ := Props.histogram_gray o cc []
    rw [withVec_eq, h1, vecRes, list_of_get h2 h3]
  refine pooled_one hn hn' o (F := fun v w h => withVec (Histogram v w h)) (val := fun t => (List.range 256).map fun k =>
      UInt32.ofNat (occurrences m (v.sub t) t.w t.h (UInt8.ofNat k)))
    (fun t _ m₁ o' => progHistogram_tie o' cc) progHistogram_foot (fun t _ o' => key o' cc) (key o cc) ?_
  rw [getArray_ok (n := 256) (num := fun t k => occurrences m (v.sub t) t.w t.h (UInt8.ofNat k)) l1
    (fun t _ => ⟨by simp, fun k hk => range_map_get _ _ k hk⟩)]
  refine congrArg (Res.ok · m) (List.map_congr_left fun k hk => congrArg UInt32.ofNat ?_)
  have hk : k < 256 := List.mem_range.1 hk
  rw [occurrences_sum _ _ _ _ _ hk,
    ← tiles_sum hT fun p => if (v.get m p.2 p.1 0).toNat = k then 1 else 0]
  refine congrArg List.sum (List.map_congr_left fun t _ => ?_)
  rw [occurrences_sum _ _ _ _ _ hk]
  simp only [View.sub_get]

/-! ### IsEqual -/

/-- Equal contents. Not in the code: for statements and proofs. -/
def SameRoi (m : BMem) (in1 in2 : View) (w h : Nat) : Prop :=
  ∀ x y c, x < w → y < h → c < in1.img.cc → in1.get m x y c = in2.get m x y c

open Classical in
theorem pooled_equal {m : BMem} {in1 in2 : View} {w h n : Nat} (hn : 0 < n) (hn' : n < 4294967296)
    (o1 : One m in1 w h) (o2 : One m in2 w h) (cc : in2.img.cc = in1.img.cc) :
    PooledValue n (poolSetup2 in1 in2 w h n) (fun a => a.1.length) (task2 IsEqual in1 in2)
      (ptask2 progEqual in1 in2) getEqual (IsEqual in1 in2 w h) m := by
  have hT := tilesOf_tiling hn o1.fit.wpos o1.fit.hpos
  obtain ⟨l1, l2⟩ := tilesOf_length hn o1.fit.wpos o1.fit.hpos
  have key : ∀ {v1 v2 : View} {w h : Nat}, One m v1 w h → One m v2 w h → v2.img.cc = v1.img.cc →
      IsEqual v1 v2 w h m = .ok (decide (SameRoi m v1 v2 w h)) m := by
    intro v1 v2 w h o1 o2 cc
    obtain ⟨r, h1, h2⟩ := Props.C28_isEqual o1 o2 cc
    rw [h1]
    refine congrArg (Res.ok · m) ?_
    rw [Bool.eq_iff_iff, h2, decide_eq_true_iff]
    rfl
  have hset := poolSetup2_eq (s := m) hn hn' o1.wf o2.wf o1.fit o2.fit
  generalize tilesOf w h n = L at *
  refine pooledValue_of (L := L) (val := fun t => decide (SameRoi m (in1.sub t) (in2.sub t) t.w t.h)) l1 l2 hset
    (by simp) (fun i hi => task2_eq IsEqual in1 in2 hi) (fun i hi => ptask2_eq progEqual in1 in2 hi)
    (Q := fun t => progEqual (in1.sub t) (in2.sub t) t.w t.h)
    (C := fun t => IsEqual (in1.sub t) (in2.sub t) t.w t.h)
    (fun t ht m₁ hs => progEqual_tie (One.sub o1 hs (hT.tileIn ht)) (One.sub o2 hs (hT.tileIn ht)) cc)
    (fun t _ => progEqual_foot _ _ _ _)
    (fun t ht => key (One.sub o1 rfl (hT.tileIn ht)) (One.sub o2 rfl (hT.tileIn ht)) cc) (key o1 o2 cc) ?_
  have h0 : (L.map fun t => decide (SameRoi m (in1.sub t) (in2.sub t) t.w t.h)).isEmpty = false := by
    cases L with
    | nil => simp at l1
    | cons a as => rfl
  rw [getEqual, h0, throwIf_false, pure_bind']
  refine congrArg (Res.ok · m) ?_
  rw [Bool.eq_iff_iff, List.all_eq_true, decide_eq_true_iff]
  constructor
  · intro hall x y c hx hy hc
    obtain ⟨t, ht, hh⟩ := hT.cover x y (by omega) (by omega) (by omega) (by omega)
    unfold Tile.Has at hh
    have := hall _ (List.mem_map.2 ⟨t, ht, rfl⟩)
    rw [decide_eq_true_iff] at this
    have := this (x - t.x) (y - t.y) c (by omega) (by omega) hc
    rw [View.sub_get, View.sub_get, show t.x + (x - t.x) = x by omega, show t.y + (y - t.y) = y by omega] at this
    exact this
  · intro hs b hb
    obtain ⟨t, ht, rfl⟩ := List.mem_map.1 hb
    rw [decide_eq_true_iff]
    intro x y c hx hy hc
    have ti := hT.tileIn ht
    have a1 := ti.inX
    have a2 := ti.inY
    rw [View.sub_get, View.sub_get]
    exact hs _ _ c (by omega) (by omega) hc

/-! ### ProjectionProfile -/

theorem rowByte_sub {m : BMem} {v : View} (hcc : 0 < v.img.cc) (t : Tile) (y k : Nat) :
    rowByte m (v.sub t) y k = rowByte m v (t.y + y) (t.x * v.img.cc + k) := by
  have h1 : (t.x * v.img.cc + k) / v.img.cc = t.x + k / v.img.cc := by
    rw [Nat.mul_comm, Nat.mul_add_div hcc]
  have h2 : (t.x * v.img.cc + k) % v.img.cc = k % v.img.cc := by
    rw [Nat.mul_comm, Nat.mul_add_mod]
  rw [rowByte, rowByte, View.sub_get, h1, h2]
  rfl

theorem chunks_sum {c : Nat → Nat} (h0 : c 0 = 0) (hmono : ∀ i, c i ≤ c (i + 1)) (F : Nat → Nat) (k : Nat) :
    ((List.range k).map fun i => ((List.range (c (i + 1) - c i)).map fun j => F (c i + j)).sum).sum
      = ((List.range (c k)).map F).sum := by
  rw [← chunks h0 hmono F k]
  generalize List.range k = R
  induction R with
  | nil => rfl
  | cons a as ih => rw [List.map_cons, List.sum_cons, ih, List.flatMap_cons, List.sum_append_nat]

/-- Consecutive parts are put one after the other. -/
theorem getProjection_bands {m : μ} {c : Nat → Nat} (h0 : c 0 = 0) (hlt : ∀ i, c i < c (i + 1))
    (F : Nat → UInt32) {k : Nat} (hk : 0 < k) :
    getProjection (c k) ((List.range k).map fun i => (List.range (c (i + 1) - c i)).map fun j => F (c i + j)) m
      = .ok ((List.range (c k)).map F) m := by
  have hmono : ∀ i, c i ≤ c (i + 1) := fun i => Nat.le_of_lt (hlt i)
  have hc := chunks h0 hmono F k
  obtain ⟨k', rfl⟩ : ∃ k', k = k' + 1 := ⟨k - 1, by omega⟩
  rw [List.range_succ_eq_map, List.flatMap_cons] at hc
  rw [List.range_succ_eq_map, List.map_cons, getProjection]
  rcases Nat.eq_zero_or_pos k' with rfl | hk'
  · have : c (0 + 1) = ((List.range (c (0 + 1) - c 0)).map fun j => F (c 0 + j)).length := by simp [h0]
    rw [if_pos this, getArray]
    simp only [List.range_zero, List.map_nil, List.any_cons, List.any_nil, bne_self_eq_false, Bool.or_self,
      throwIf_false, List.foldl_nil, h0, Nat.sub_zero, Nat.zero_add]
    rfl
  · have hlt2 : ∀ j, c 1 < c (j + 2) := by
      intro j
      induction j with
      | zero => exact hlt 1
      | succ j ih => exact Nat.lt_trans ih (hlt (j + 2))
    have hne : ¬ c (k' + 1) = ((List.range (c (0 + 1) - c 0)).map fun j => F (c 0 + j)).length := by
      obtain ⟨j, rfl⟩ : ∃ j, k' = j + 1 := ⟨k' - 1, by omega⟩
      have := hlt2 j
      simp only [List.length_map, List.length_range, h0]
      simp only [Nat.zero_add, Nat.sub_zero]
      exact Nat.ne_of_gt this
    rw [if_neg hne]
    have hlen : (c (k' + 1) != ((((List.range (c (0 + 1) - c 0)).map fun j => F (c 0 + j)) ::
        (List.map Nat.succ (List.range k')).map fun i => (List.range (c (i + 1) - c i)).map fun j => F (c i + j)).map
          List.length).sum) = false := by
      have := congrArg List.length hc
      rw [List.length_map, List.length_range, List.length_append, List.length_flatMap] at this
      rw [List.map_cons, List.sum_cons, List.map_map, bne_eq_false_iff_eq, ← this]
      rfl
    rw [hlen, throwIf_false, pure_bind', List.flatMap_cons, List.flatMap_map]
    refine congrArg (Res.ok · m) ?_
    exact hc

theorem getProjection_length {m m' : μ} {n : Nat} {L : List (List UInt32)} {l : List UInt32}
    (h : getProjection n L m = .ok l m') : l.length = n := by
  cases L with
  | nil => simp [getProjection, throwE] at h
  | cons front rest =>
    rw [getProjection] at h
    split at h
    · rename_i hn
      rw [getArray] at h
      cases hany : (front :: rest).any fun v => v.length != front.length with
      | true => rw [hany, bind_throw (throwIf_true m)] at h; simp at h
      | false =>
        rw [hany, throwIf_false, pure_bind'] at h
        have h := (Res.ok.inj h).1
        rw [← h, hn]
        have hall : ∀ v ∈ rest, v.length = front.length := by
          intro v hv
          have := List.any_eq_false.1 hany v (by simp [hv])
          simpa using this
        clear h hany hn
        have : ∀ (R : List (List UInt32)) (acc : List UInt32), acc.length = front.length →
            (∀ v ∈ R, v.length = front.length) →
            (R.foldl (fun out inp => List.zipWith (fun a b => a + b) out inp) acc).length = front.length := by
          intro R
          induction R with
          | nil => intro acc ha _; exact ha
          | cons v vs ih =>
            intro acc ha hv
            rw [List.foldl_cons]
            exact ih _ (by simp [ha, hv v]) fun u hu => hv u (by simp [hu])
        exact this rest front rfl hall
    · cases hs : n != ((front :: rest).map List.length).sum with
      | true => rw [hs, bind_throw (throwIf_true m)] at h; simp at h
      | false =>
        rw [hs, throwIf_false, pure_bind'] at h
        have h := (Res.ok.inj h).1
        rw [← h, List.length_flatMap]
        exact (bne_eq_false_iff_eq.1 hs).symm

theorem getProjection_whole {m : μ} {n : Nat} {T : List Tile} {val : Tile → List UInt32} {num : Tile → Nat → Nat}
    (hT : 0 < T.length)
    (hval : ∀ t ∈ T, (val t).length = n ∧ ∀ k, k < n → (val t)[k]? = some (UInt32.ofNat (num t k))) :
    getProjection n (T.map val) m
      = .ok ((List.range n).map fun k => UInt32.ofNat (T.map fun t => num t k).sum) m := by
  have := getArray_ok (m := m) hT hval
  cases T with
  | nil => simp at hT
  | cons t ts =>
    rw [List.map_cons] at this ⊢
    rw [getProjection, if_pos (hval t (by simp)).1.symm]
    exact this

/-- The vertical profile: one value per row. -/
theorem pooled_projection_vertical {m : BMem} {v : View} {w h n : Nat} (hn : 0 < n) (hn' : n < 4294967296)
    (o : One m v w h) :
    PooledValue n (poolSetup1 v w h n) (fun a => a.length)
      (task1 (fun v w h => withVec (ProjectionProfile v w h false)) v) (ptask1 (progProjection false) v)
      (getProjection h) (withVec (ProjectionProfile v w h false)) m := by
  have hcc := (View.facts o.wf o.fit).1
  have key : ∀ {v : View} {w h : Nat}, One m v w h →
      withVec (ProjectionProfile v w h false) m
        = .ok ((List.range h).map fun y => UInt32.ofNat (rowSum m v (w * v.img.cc) y)) m := by
    intro v w h o
    obtain ⟨prof, h1, h2, h3⟩ := Props.C26_projection_vertical o []
    rw [withVec_eq, h1, vecRes, list_of_get h2 h3]
  refine pooled_one hn hn' o (F := fun v w h => withVec (ProjectionProfile v w h false))
    (val := fun t => (List.range t.h).map fun y => UInt32.ofNat (rowSum m (v.sub t) (t.w * v.img.cc) y))
    (fun t _ m₁ o' => progProjection_tie false o') (progProjection_foot false) (fun t _ o' => key o') (key o) ?_
  obtain ⟨k1, _, k3⟩ := areaCount_spec hn o.fit.wpos o.fit.hpos
  rw [tilesOf]
  revert k1 k3
  generalize (areaCount w h n).1 = k
  generalize (areaCount w h n).2 = ax
  intro k1 k3
  have hrow : ∀ (t : Tile) (n y : Nat), rowSum m (v.sub t) n y
      = ((List.range n).map fun j => (rowByte m v (t.y + y) (t.x * v.img.cc + j)).toNat).sum := by
    intro t n y
    simp only [rowSum, rowByte_sub hcc]
  cases ax with
  | true =>
    simp only [↓reduceIte] at k3
    have := getProjection_bands (m := m) (c := cut h k) (cut_zero h k) (fun i => cut_lt_succ k1 k3)
      (fun y => UInt32.ofNat (rowSum m v (w * v.img.cc) y)) k1
    rw [cut_end k1] at this
    rw [← this, relTiles, List.map_map]
    refine congrFun (congrArg (getProjection h) (List.map_congr_left fun i _ => ?_)) m
    simp only [Function.comp, ↓reduceIte, hrow, Nat.zero_mul, Nat.zero_add]
    rfl
  | false =>
    rw [getProjection_whole (n := h) (num := fun t y => rowSum m (v.sub t) (t.w * v.img.cc) y)
      (by simp [relTiles]; exact k1)]
    · refine congrArg (Res.ok · m) (List.map_congr_left fun y hy => congrArg UInt32.ofNat ?_)
      have := chunks_sum (c := fun i => cut w k i * v.img.cc) (by simp [cut_zero])
        (fun i => Nat.mul_le_mul_right _ (cut_mono (by omega)))
        (fun j => (rowByte m v y j).toNat) k
      simp only [cut_end k1] at this
      rw [rowSum, ← this, relTiles, List.map_map]
      refine congrArg List.sum (List.map_congr_left fun i _ => ?_)
      simp only [Function.comp, Bool.false_eq_true, ↓reduceIte, hrow, Nat.zero_add, Nat.sub_mul]
    · intro t ht
      obtain ⟨i, _, rfl⟩ := mem_relTiles.1 ht
      exact ⟨by simp, fun k hk => range_map_get _ _ k hk⟩

/-- The horizontal profile of a gray-scale image: one value per column. -/
theorem pooled_projection_horizontal {m : BMem} {v : View} {w h n : Nat} (hn : 0 < n) (hn' : n < 4294967296)
    (o : One m v w h) (cc : v.img.cc = 1) :
    PooledValue n (poolSetup1 v w h n) (fun a => a.length)
      (task1 (fun v w h => withVec (ProjectionProfile v w h true)) v) (ptask1 (progProjection true) v)
      (getProjection w) (withVec (ProjectionProfile v w h true)) m := by
  have hcc := (View.facts o.wf o.fit).1
  have key : ∀ {v : View} {w h : Nat}, One m v w h → v.img.cc = 1 →
      withVec (ProjectionProfile v w h true) m
        = .ok ((List.range w).map fun x => UInt32.ofNat (columnSum m v h x)) m := by
    intro v w h o cc
    obtain ⟨prof, h1, h2, h3⟩ := Props.C26_projection_horizontal o []
    rw [cc, Nat.mul_one] at h2 h3
    rw [withVec_eq, h1, vecRes, list_of_get h2 h3]
  refine pooled_one hn hn' o (F := fun v w h => withVec (ProjectionProfile v w h true))
    (val := fun t => (List.range t.w).map fun x => UInt32.ofNat (columnSum m (v.sub t) t.h x))
    (fun t _ m₁ o' => progProjection_tie true o') (progProjection_foot true) (fun t _ o' => key o' cc) (key o cc) ?_
  obtain ⟨k1, _, k3⟩ := areaCount_spec hn o.fit.wpos o.fit.hpos
  rw [tilesOf]
  revert k1 k3
  generalize (areaCount w h n).1 = k
  generalize (areaCount w h n).2 = ax
  intro k1 k3
  have hcol : ∀ (t : Tile) (n x : Nat), columnSum m (v.sub t) n x
      = ((List.range n).map fun y => (rowByte m v (t.y + y) (t.x + x)).toNat).sum := by
    intro t n x
    simp only [columnSum, rowByte_sub hcc, cc, Nat.mul_one]
  cases ax with
  | false =>
    simp only [Bool.false_eq_true, ↓reduceIte] at k3
    have := getProjection_bands (m := m) (c := cut w k) (cut_zero w k) (fun i => cut_lt_succ k1 k3)
      (fun x => UInt32.ofNat (columnSum m v h x)) k1
    rw [cut_end k1] at this
    rw [← this, relTiles, List.map_map]
    refine congrFun (congrArg (getProjection w) (List.map_congr_left fun i _ => ?_)) m
    simp only [Function.comp, Bool.false_eq_true, ↓reduceIte, hcol, Nat.zero_add]
    rfl
  | true =>
    rw [getProjection_whole (n := w) (num := fun t x => columnSum m (v.sub t) t.h x)
      (by simp [relTiles]; exact k1)]
    · refine congrArg (Res.ok · m) (List.map_congr_left fun x hx => congrArg UInt32.ofNat ?_)
      have := chunks_sum (c := fun i => cut h k i) (by simp [cut_zero])
        (fun i => cut_mono (by omega))
        (fun y => (rowByte m v y x).toNat) k
      simp only [cut_end k1] at this
      rw [columnSum, ← this, relTiles, List.map_map]
      refine congrArg List.sum (List.map_congr_left fun i _ => ?_)
      simp only [Function.comp, ↓reduceIte, hcol, Nat.zero_add]
    · intro t ht
      obtain ⟨i, _, rfl⟩ := mem_relTiles.1 ht
      exact ⟨by simp, fun k hk => range_map_get _ _ k hk⟩

end PV
