import Verif.PoolNumbers
import Verif.PropsPoolForms
import Verif.PropsFormsMore
/-
  Property C173: pooled functions which return a number, a vector or a truth value, and the forms of pooled Split and Normalize.
-/
namespace PV.Props

open Forms

/-! ### What is said about the result -/

/-- The call returns a value with the property `P`: the calling thread makes between one and `threads` tasks; `prog` is the sequence of memory
    accesses of each task; in every interleaving of the accesses nothing goes wrong, and when all tasks have returned, the memory is as it
    was and the results are put together to one value, the same for all interleavings, which satisfies `P`; complete interleavings exist. -/
def Gives {Γ A B : Type} (c : PooledCall Γ A B) (threads : Nat) (prog : Γ → Nat → Prog UInt8 A) (m : BMem) (P : B → Prop) : Prop :=
  ∃ a k b, c.setup m = .ok a m ∧ c.count a = k ∧ 0 < k ∧ k ≤ threads ∧ P b ∧
    (∀ i, i < k → ∀ m₁ : BMem, m₁.size = m.size → (prog a i).run m₁ = c.task a i m₁) ∧
    (∀ σ : List (Fin k),
      ((⟨m, fun i => prog a i⟩ : Sys UInt8 A (Fin k)).exec σ).NoError ∧
      ∀ v, ((⟨m, fun i => prog a i⟩ : Sys UInt8 A (Fin k)).exec σ).Returned v →
        ((⟨m, fun i => prog a i⟩ : Sys UInt8 A (Fin k)).exec σ).mem = m ∧
        c.collect (List.ofFn v) m = .ok b m) ∧
    ∃ σ : List (Fin k), ∃ v, ((⟨m, fun i => prog a i⟩ : Sys UInt8 A (Fin k)).exec σ).Returned v

theorem gives_of {Γ A B : Type} {c : PooledCall Γ A B} {threads : Nat} {prog : Γ → Nat → Prog UInt8 A} {m : BMem} {single : M BMem B} {b : B}
    {P : B → Prop} (h : PooledValue threads c.setup c.count c.task prog c.collect single m) (hs : single m = .ok b m) (hp : P b) :
    Gives c threads prog m P := by
  obtain ⟨a, k, b', h1, h2, h3, h4, h5, h6, h7, h8⟩ := h
  have e : b' = b := (Res.ok.inj (h6.symm.trans hs)).1
  subst e
  exact ⟨a, k, b', h1, h2, h3, h4, hp, h5, h7, h8⟩

/-- A check that succeeds changes nothing. -/
theorem Gives.after {Γ A B : Type} {c : PooledCall Γ A B} {threads : Nat} {prog : Γ → Nat → Prog UInt8 A} {m : BMem} {P : B → Prop}
    (g : Gives c threads prog m P) {check : M BMem Unit} (hc : check m = .ok () m) : Gives (c.after check) threads prog m P := by
  obtain ⟨a, k, b, h1, rest⟩ := g
  refine ⟨a, k, b, ?_, rest⟩
  show (check >>= fun _ => c.setup) m = _
  rw [bind_ok hc, h1]

/-- The call throws before there are tasks, and the memory is as it was. -/
def Refused {Γ A B : Type} (c : PooledCall Γ A B) (m : BMem) : Prop := c.setup m = .throw m

/-! ### C173 : rectangles -/

/-- **C173.** Sum of a rectangle, in 32 bits -/
theorem C173_sum {n : Nat} (hn : 0 < n) (hn' : n < 2 ^ 32) {m : BMem} {v : View} {w h : Nat} (o : One m v w h) (cc : v.img.cc = 1) :
    Gives (OnPool.sum n v w h) n (ptask1 progSum v) m fun s => s.toNat = total m v w h % 2 ^ 32 := by
  obtain ⟨s, h1, h2⟩ := C25_sum o cc
  exact gives_of (C50_sum hn hn' o cc) h1 h2

/-- **C173.** Histogram of a rectangle: whatever the vector of the caller held, it counts the values. Partial: gray-scale images, as C24. -/
theorem C173_histogram_partial {n : Nat} (hn : 0 < n) (hn' : n < 2 ^ 32) {m : BMem} {v : View} {w h : Nat} (o : One m v w h)
    (cc : v.img.cc = 1) :
    Gives (OnPool.histogram n v w h) n (ptask1 progHistogram v) m (Counts m v w h) ∧
    Gives (OnPool.histogramNewRoi n v w h) n (ptask1 progHistogram v) m (Counts m v w h) := by
  obtain ⟨hist, h1, h2, h3, _⟩ := C24_histogram_partial o cc []
  have g : Gives (OnPool.histogram n v w h) n (ptask1 progHistogram v) m (Counts m v w h) :=
    gives_of (b := hist) (C50_histogram hn hn' o cc) (by rw [withVec, h1]) ⟨h2, h3⟩
  exact ⟨g, g.after (validateRoi_ok _ o.fit (o.u32).1 (o.u32).2)⟩

/-- **C173.** IsEqual of two rectangles of images of the same colours -/
theorem C173_isEqual {n : Nat} (hn : 0 < n) (hn' : n < 2 ^ 32) {m : BMem} {v1 v2 : View} {w h : Nat} (o1 : One m v1 w h) (o2 : One m v2 w h)
    (cc : v2.img.cc = v1.img.cc) :
    Gives (OnPool.isEqual n v1 v2 w h) n (ptask2 progEqual v1 v2) m fun r =>
      (r = true ↔ ∀ x y c, x < w → y < h → c < v1.img.cc → v1.get m x y c = v2.get m x y c) := by
  obtain ⟨r, h1, h2⟩ := C28_isEqual o1 o2 cc
  exact gives_of (C50_isEqual hn hn' o1 o2 cc) h1 h2

/-- **C173.** ProjectionProfile of a rectangle. Partial: the horizontal profile of gray-scale images only (`C50_projection_colour_wrong`). -/
theorem C173_profile_partial {n : Nat} (hn : 0 < n) (hn' : n < 2 ^ 32) {m : BMem} {v : View} {w h : Nat} (o : One m v w h) (horizontal : Bool)
    (hc : horizontal = true → v.img.cc = 1) :
    Gives (OnPool.profile n v w h horizontal) n (ptask1 (progProjection horizontal) v) m (Profile m v w h horizontal) ∧
    Gives (OnPool.profileNewRoi n v w h horizontal) n (ptask1 (progProjection horizontal) v) m (Profile m v w h horizontal) := by
  obtain ⟨prof, h1, h2⟩ := profile_any o horizontal []
  have g : Gives (OnPool.profile n v w h horizontal) n (ptask1 (progProjection horizontal) v) m (Profile m v w h horizontal) := by
    cases horizontal with
    | false => exact gives_of (b := prof) (C50_projection_vertical hn hn' o) (by rw [withVec, h1]) h2
    | true => exact gives_of (b := prof) (C50_projection_horizontal_partial hn hn' o (hc rfl)) (by rw [withVec, h1]) h2
  exact ⟨g, g⟩

/-! ### C173 : whole images -/

theorem C173_sum_image {n : Nat} (hn : 0 < n) (hn' : n < 2 ^ 32) {m : BMem} {img : Image} (i : Whole m img) (cc : img.cc = 1) :
    Gives (OnPool.sumWhole n img) n (ptask1 progSum (whole img)) m fun s => s.toNat = total m (whole img) img.width img.height % 2 ^ 32 :=
  C173_sum hn hn' i.one cc

theorem C173_histogram_image_partial {n : Nat} (hn : 0 < n) (hn' : n < 2 ^ 32) {m : BMem} {img : Image} (i : Whole m img) (cc : img.cc = 1) :
    Gives (OnPool.histogramNew n img) n (ptask1 progHistogram (whole img)) m (Counts m (whole img) img.width img.height) ∧
    Gives (OnPool.histogramWhole n img) n (ptask1 progHistogram (whole img)) m (Counts m (whole img) img.width img.height) :=
  have g := (C173_histogram_partial hn hn' i.one cc).1
  ⟨g, g.after (valid_one i.fit _)⟩

theorem C173_isEqual_image {n : Nat} (hn : 0 < n) (hn' : n < 2 ^ 32) {m : BMem} {a b : Image} (i : Whole m a) (k : Whole m b) (s : OneSize a b)
    (cc : b.cc = a.cc) :
    Gives (OnPool.isEqualWhole n a b) n (ptask2 progEqual (whole a) (whole b)) m fun r =>
      (r = true ↔ ∀ x y c, x < a.width → y < a.height → c < a.cc → (whole a).get m x y c = (whole b).get m x y c) :=
  (C173_isEqual hn hn' i.one (v2 := whole b) ⟨k.wf, s.width ▸ s.height ▸ k.fit⟩ cc).after (valid_two i.fit k.fit s.width s.height _)

theorem C173_profile_image_partial {n : Nat} (hn : 0 < n) (hn' : n < 2 ^ 32) {m : BMem} {img : Image} (i : Whole m img) (horizontal : Bool)
    (hc : horizontal = true → img.cc = 1) :
    Gives (OnPool.profileWhole n img horizontal) n (ptask1 (progProjection horizontal) (whole img)) m
      (Profile m (whole img) img.width img.height horizontal) := (C173_profile_partial hn hn' i.one horizontal hc).1

/-! ### C173 : refused calls -/

/-- **C173.** Rectangles that do not fit are refused by all forms before there are tasks. -/
theorem C173_rejects (n : Nat) {m : BMem} {v v2 : View} {w h : Nat} (horizontal : Bool) :
    (Bad [v] w h True → Refused (OnPool.sum n v w h) m ∧ Refused (OnPool.histogram n v w h) m ∧ Refused (OnPool.histogramNewRoi n v w h) m ∧
      Refused (OnPool.profile n v w h horizontal) m) ∧
    (Bad [v, v2] w h True → Refused (OnPool.isEqual n v v2 w h) m) := by
  refine ⟨fun hb => ?_, fun hb => (C48_rejects (v3 := v) n).2.1 hb⟩
  have e : poolSetup1 v w h n m = .throw m := (C48_rejects (v2 := v) (v3 := v) n).1 hb
  refine ⟨e, e, ?_, e⟩
  show (validateRoi v w h >>= fun _ => poolSetup1 v w h n) m = _
  have hv : validateRois [v] w h m = .throw m := by
    rcases rois_dichotomy (m := m) hb with ht | ⟨_, hc⟩
    · exact ht
    · exact absurd trivial hc
  have hv : (validateRoi v w h >>= fun _ => validateRois [] w h) m = .throw m := hv
  rcases hr : validateRoi v w h m with ⟨u, m'⟩ | m' | _
  · rw [bind_ok hr] at hv
    exact absurd hv (by simp [validateRois, pure, M.pure])
  · rw [bind_throw hr] at hv ⊢
    injection hv with e'
    rw [e']
  · rw [bind_ub hr] at hv
    cases hv

/-- **C173.** Two images of different sizes, or one of them empty or with a wrong number of colours -/
theorem C173_rejects_images (n : Nat) {m : BMem} {a b : Image} (h : NoImage a ∨ NoImage b ∨ b.width ≠ a.width ∨ b.height ≠ a.height) :
    Refused (OnPool.isEqualWhole n a b) m := by
  show (validateImages2 a b >>= fun _ => poolSetup2 _ _ _ _ _) m = _
  rw [bind_throw (invalid_two h m)]

/-- **C173.** Images that are empty or have a wrong number of colours -/
theorem C173_rejects_image (n : Nat) {m : BMem} {img : Image} (hi : NoImage img) (hw : img.width < 2 ^ 32) (hh : img.height < 2 ^ 32)
    (horizontal : Bool) :
    Refused (OnPool.sumWhole n img) m ∧ Refused (OnPool.histogramNew n img) m ∧ Refused (OnPool.histogramWhole n img) m ∧
      Refused (OnPool.profileWhole n img horizontal) m := by
  have hb := hi.bad hw hh True
  have r := (C173_rejects n (m := m) (v2 := whole img) horizontal).1 hb
  refine ⟨r.1, r.2.1, ?_, r.2.2.2⟩
  show (validateImage img >>= fun _ => poolSetup1 _ _ _ _) m = _
  rw [bind_throw (invalid_one hi m)]

/-- **C173.** Sum of a colour image: every task throws and changes nothing, so the call fails. -/
theorem C173_sum_colours {n : Nat} (hn : 0 < n) (hn' : n < 2 ^ 32) {m : BMem} {v : View} {w h : Nat} (o : One m v w h) (cc : v.img.cc ≠ 1) :
    ∃ T, (OnPool.sum n v w h).setup m = .ok T m ∧ 0 < (OnPool.sum n v w h).count T ∧
      ∀ i, i < (OnPool.sum n v w h).count T → ∀ m₁ : BMem, m₁.size = m.size → (OnPool.sum n v w h).task T i m₁ = .throw m₁ := by
  have hT := tilesOf_tiling hn o.fit.wpos o.fit.hpos
  have l1 := (tilesOf_length hn o.fit.wpos o.fit.hpos).1
  have hset := poolSetup1_eq (s := m) hn hn' o.wf o.fit
  generalize tilesOf w h n = L at *
  have hlen : (L.map fun t => t.shift v.x v.y).length = L.length := by simp
  refine ⟨_, hset, by show 0 < (L.map _).length; omega, fun i hi m₁ _ => ?_⟩
  have hi : i < L.length := by
    have : i < (L.map fun t => t.shift v.x v.y).length := hi
    omega
  have ti := hT.tileIn (List.getElem_mem hi)
  show task1 Sum v _ i m₁ = _
  rw [task1_eq Sum v hi]
  have a1 := ti.inX
  have a2 := ti.inY
  obtain ⟨_, _, _, w1, h1, _⟩ := View.facts o.wf o.fit
  have b1 := o.fit.inX
  have b2 := o.fit.inY
  refine C25_sum_rejects ⟨fun u hu => ?_, by omega, by omega, Or.inr cc⟩
  obtain rfl := List.mem_singleton.1 hu
  exact ⟨by simp only [View.sub]; omega, by simp only [View.sub]; omega, w1, h1⟩

/-! ### C173 : Split -/

theorem C173_split {n : Nat} (hn : 0 < n) (hn' : n < 2 ^ 32) {m : BMem} {v o1 o2 o3 : View} {w h : Nat}
    (p1 : Pair m v w h o1 w h) (p2 : Pair m v w h o2 w h) (p3 : Pair m v w h o3 w h)
    (a12 : Apart o1 w h o2 w h) (a13 : Apart o1 w h o3 w h) (a23 : Apart o2 w h o3 w h)
    (ci : v.img.cc = 3) (c1 : o1.img.cc = 1) (c2 : o2.img.cc = 1) (c3 : o3.img.cc = 1) :
    ∃ T, OnPool.splitSetup n v o1 o2 o3 w h m = .ok T m ∧
      TasksAlways n T.1.length (task4 Split v o1 o2 o3 T) (ptask4 progSplit v o1 o2 o3 T) m
        fun m' => SplitSpec m m' v (three o1 o2 o3) w h := by
  obtain ⟨m', h1, h2⟩ := C20_split p1 p2 p3 a12 a13 a23 ci c1 c2 c3
  obtain ⟨T, h3, h4⟩ := (C49_split hn hn' p1 p2 p3 a12 a13 a23 ci c1 c2 c3).tasks (Q := fun m' => SplitSpec m m' v (three o1 o2 o3) w h) h1 h2
  refine ⟨T, ?_, h4⟩
  rw [OnPool.splitSetup, bind_ok (validate_pre_ok (vs := [v]) (by simp; exact ⟨p1.wfi, p1.fiti⟩)),
    bind_ok (validate_pre_ok (vs := [o1, o2, o3]) (by simp; exact ⟨⟨p1.wfo, p1.fito⟩, ⟨p2.wfo, p2.fito⟩, p3.wfo, p3.fito⟩)),
    bind_ok (rgb_ok (by simp [ci])), bind_ok (gray_ok (by simp [c1, c2, c3]))]
  exact h3

theorem C173_split_rejects (n : Nat) {m : BMem} {v o1 o2 o3 : View} {w h : Nat}
    (hb : Bad [v, o1, o2, o3] w h (v.img.cc = 3 ∧ o1.img.cc = 1 ∧ o2.img.cc = 1 ∧ o3.img.cc = 1)) :
    OnPool.splitSetup n v o1 o2 o3 w h m = .throw m := by
  have e : OnPool.splitSetup n v o1 o2 o3 w h = (validateRois ([v] ++ [o1, o2, o3]) w h >>= fun _ =>
      (do verifyRgb [v.img]; verifyGray [o1.img, o2.img, o3.img]; poolSetup4 v o1 o2 o3 w h n)) := by
    funext s
    show (validateRois [v] w h >>= fun _ => validateRois [o1, o2, o3] w h >>= fun _ => _) s = _
    rw [show validateRois ([v] ++ [o1, o2, o3]) w h = (validateRoi v w h >>= fun _ => validateRois [o1, o2, o3] w h) from rfl,
      show (validateRois [v] w h : M BMem Unit) = (validateRoi v w h >>= fun _ => pure ()) from rfl, bind_assoc', bind_assoc']
    rfl
  rw [e]
  refine rois_bad_then hb fun hc => ?_
  by_cases h0 : v.img.cc = 3
  · rw [bind_ok (rgb_ok (by simp [h0])), bind_throw (gray_throw ?_)]
    by_cases h1 : o1.img.cc = 1
    · by_cases h2 : o2.img.cc = 1
      · exact ⟨o3.img, by simp, fun h3 => hc ⟨h0, h1, h2, h3⟩⟩
      · exact ⟨o2.img, by simp, h2⟩
    · exact ⟨o1.img, by simp, h1⟩
  · rw [bind_throw (rgb_throw ⟨v.img, by simp, h0⟩)]

theorem C173_split_image {n : Nat} (hn : 0 < n) (hn' : n < 2 ^ 32) {m : BMem} {a o1 o2 o3 : Image} (ia : Whole m a) (i1 : Whole m o1)
    (i2 : Whole m o2) (i3 : Whole m o3) (s1 : OneSize a o1) (s2 : OneSize a o2) (s3 : OneSize a o3) (ca : a.cc = 3) (c1 : o1.cc = 1)
    (c2 : o2.cc = 1) (c3 : o3.cc = 1)
    (p1 : Apart (whole a) a.width a.height (whole o1) a.width a.height) (p2 : Apart (whole a) a.width a.height (whole o2) a.width a.height)
    (p3 : Apart (whole a) a.width a.height (whole o3) a.width a.height) (a12 : Apart (whole o1) a.width a.height (whole o2) a.width a.height)
    (a13 : Apart (whole o1) a.width a.height (whole o3) a.width a.height) (a23 : Apart (whole o2) a.width a.height (whole o3) a.width a.height) :
    ∃ T, OnPool.splitWholeSetup n a o1 o2 o3 m = .ok T m ∧
      TasksAlways n T.1.length (task4 Split (whole a) (whole o1) (whole o2) (whole o3) T)
        (ptask4 progSplit (whole a) (whole o1) (whole o2) (whole o3) T) m
        fun m' => SplitSpec m m' (whole a) (three (whole o1) (whole o2) (whole o3)) a.width a.height := by
  obtain ⟨T, h1, h2⟩ := C173_split hn hn' (pair_whole ia i1 rfl rfl s1.width s1.height p1) (pair_whole ia i2 rfl rfl s2.width s2.height p2)
    (pair_whole ia i3 rfl rfl s3.width s3.height p3) a12 a13 a23 ca c1 c2 c3
  refine ⟨T, ?_, h2⟩
  have e1 := three_valid ia.fit i1.fit i2.fit s1 s2 m
  have e2 := valid_two ia.fit i3.fit s3.width s3.height m
  rw [OnPool.splitWholeSetup, bind_ok e1, bind_ok e2, bind_ok (rgb_ok (by simp [ca])), bind_ok (gray_ok (by simp [c1, c2, c3])), bind_ok e1,
    bind_ok e2]
  exact h1

/-! ### C173 : Normalize -/

/-- **C173.** `Image Normalize( in, startX, startY, width, height )` in a pool: a new gray-scale image; the pooled histogram of the rectangle
    decides between copying and a pooled look-up; in every order of the tasks the new image is the stretched rectangle, and no image
    that existed is changed.

    Partial: gray-scale images (`C104_colour_wrong`); conversions out of range as in C34. -/
theorem C173_normalize_partial {rnd : ℚ → ℚ} (r : Rounding rnd) {oob : ℚ → Option UInt8} (ho : ∀ q, (oob q).isSome) {n : Nat} (hn : 0 < n)
    (hn' : n < 2 ^ 32) {d : Heap} (hd : HeapOk d) {v : View} {w h : Nat} (i : Input d v w h) (cc : v.img.cc = 1) :
    ∃ img d1 hist m' G, OnPool.normalizeRoiImage v w h d = .ok img d1 ∧
      Gives (OnPool.histogramNewRoi n v w h) n (ptask1 progHistogram v) d1.mem (fun l => l = hist) ∧
      ((poolNormalizePlan rnd oob hist d1.mem = .ok .copy d1.mem ∧ CopyRoi v (whole img) w h d1.mem = .ok () m') ∨
       ∃ t, ∃ hl : t.length = 256, poolNormalizePlan rnd oob hist d1.mem = .ok (.table t) d1.mem ∧
        ∃ T, poolSetup2 v (whole img) w h n d1.mem = .ok T d1.mem ∧
          TasksAlways n T.1.length (task2 (fun v1 v2 w h => LookupTable v1 v2 w h t) v (whole img) T)
            (ptask2 (prog1 fun a => t[a.toNat]'(by rw [hl]; exact UInt8.toNat_lt _)) v (whole img) T) d1.mem fun m'' => m'' = m') ∧
      NewImage d ⟨m', d1.next⟩ img w h 1 G ∧ Stretched d.mem m' v (whole img) w h := by
  have p := i.pair hd i.fit.wpos i.fit.hpos (Or.inl rfl) i.small1
  have ap : Apart1 (grown d w h 1).mem v (whole (made d w h 1)) w h :=
    ⟨⟨p.wfi, p.wfo, p.fiti, p.fito, cc.symm, noClash_of_apart p.apart⟩, p.apart⟩
  obtain ⟨hist, m', h1, h2, h3, h4⟩ := C104_normalize_partial r hn hn' ap cc (Or.inl ho)
  obtain ⟨m'', k1, k2, k3⟩ := C34_normalize_partial r ho ap
  have em : m'' = m' := (Res.ok.inj (k1.symm.trans h3)).2
  subst em
  have o : One (grown d w h 1).mem v w h := ⟨p.wfi, p.fiti⟩
  refine ⟨made d w h 1, grown d w h 1, hist, m'', _, ?_, ?_, ?_, made_new hd i.small1 k2, ?_⟩
  · rw [OnPool.normalizeRoiImage, bind_ok (heapMem_keep (validateRoi_ok _ i.fit i.u32.1 i.u32.2))]
    exact generate_ok i.fit.wpos i.fit.hpos i.small1
  · have g : Gives (OnPool.histogram n v w h) n (ptask1 progHistogram v) (grown d w h 1).mem (fun l => l = hist) := gives_of (b := hist) h2 rfl rfl
    exact g.after (validateRoi_ok _ o.fit (o.u32).1 (o.u32).2)
  · rcases h4 with h4 | ⟨t, hl, h5, h6⟩
    · exact Or.inl h4
    · exact Or.inr ⟨t, hl, h5, h6.tasks rfl rfl⟩
  · exact ⟨k3.order, k3.const, k3.low, k3.high, k3.near⟩

/-! ### Examples -/

example : Gives (OnPool.sum 2 ⟨padded 1, 0, 0⟩ 2 2) 2 (ptask1 progSum ⟨padded 1, 0, 0⟩) exMem fun s =>
    s.toNat = total exMem ⟨padded 1, 0, 0⟩ 2 2 % 2 ^ 32 := C173_sum (by decide) (by decide) (one_padded 1 (by decide)) rfl
example : total exMem ⟨padded 1, 0, 0⟩ 2 2 = 82 := by decide

/-- The tasks one after another -/
def inTurn {A : Type} (f : Nat → M BMem A) (m : BMem) : Nat → Option (List A)
  | 0 => some []
  | k + 1 =>
    match inTurn f m k, f k m with
    | some l, .ok a _ => some (l ++ [a])
    | _, _ => none

def callInTurn {Γ A B : Type} (c : PooledCall Γ A B) (m : BMem) : Option B :=
  match c.setup m with
  | .ok a _ =>
    match inTurn (c.task a) m (c.count a) with
    | some l =>
      match c.collect l m with
      | .ok b _ => some b
      | _ => none
    | none => none
  | _ => none

example : callInTurn (OnPool.sumWhole 2 (padded 1)) exMem = some 82 := by decide +kernel
example : (callInTurn (OnPool.histogramWhole 2 (padded 1)) exMem).map (fun l => (l[10]?, l[12]?)) = some (some 1, some 0) := by decide +kernel
example : callInTurn (OnPool.isEqualWhole 2 (padded 1) (padded 2)) exMem = some false := by decide +kernel
example : callInTurn (OnPool.isEqualWhole 2 (padded 1) (padded 1)) exMem = some true := by decide +kernel
example : callInTurn (OnPool.profileWhole 2 (padded 1) true) exMem = some [36, 46] := by decide +kernel
example : callInTurn (OnPool.profileNewRoi 2 ⟨padded 1, 0, 0⟩ 2 2 false) exMem = some [21, 61] := by decide +kernel
example : Refused (OnPool.isEqualWhole 2 (padded 1) (rgbEx 2)) exMem := C173_rejects_images 2 (Or.inr (Or.inr (Or.inl (by decide))))
example : One exMem ⟨rgbEx 1, 0, 0⟩ 1 2 ∧ (rgbEx 1).cc ≠ 1 :=
  ⟨⟨by constructor <;> decide, by constructor <;> decide⟩, by decide⟩
example : HeapOk exHeap ∧ Input exHeap ⟨padded 2, 0, 0⟩ 2 2 ∧ (padded 2).cc = 1 := ⟨exHeap_ok, exInput, rfl⟩

end PV.Props
