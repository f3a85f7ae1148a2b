import Verif.PoolValue
/-
  C48 - C50: pooled functions.
-/
namespace PV.Props

open PV

/-! ### C48 : tiles -/

/-- The two lists of tiles have the same number of tiles, and tiles with the same index have
    the same place relative to their origins and the same size. -/
def SamePlaces (L L' : List Tile) (x y x' y' : Nat) : Prop :=
  L.length = L'.length ∧ ∀ (i : Nat) t t', L[i]? = some t → L'[i]? = some t' →
    ∃ dx dy, t.x = x + dx ∧ t'.x = x' + dx ∧ t.y = y + dy ∧ t'.y = y' + dy ∧ t.w = t'.w ∧ t.h = t'.h

theorem samePlaces_shift (L : List Tile) (x y x' y' : Nat) :
    SamePlaces (L.map fun t => t.shift x y) (L.map fun t => t.shift x' y') x y x' y' := by
  refine ⟨by simp, ?_⟩
  intro i t t' h1 h2
  rw [List.getElem?_map, Option.map_eq_some_iff] at h1 h2
  obtain ⟨s, hs, rfl⟩ := h1
  obtain ⟨s', hs', rfl⟩ := h2
  rw [hs] at hs'
  obtain rfl := Option.some.inj hs'
  exact ⟨s.x, s.y, rfl, rfl, rfl, rfl, rfl, rfl⟩

/-- A list of tiles made for `n` threads. -/
structure GoodTiles (L : List Tile) (x y w h n : Nat) : Prop where
  tiling : Tiling L x y w h
  some : 0 < L.length
  few : L.length ≤ n

theorem goodTiles_shift {w h n : Nat} (x y : Nat) (hn : 0 < n) (hw : 0 < w) (hh : 0 < h) :
    GoodTiles ((tilesOf w h n).map fun t => t.shift x y) x y w h n := by
  obtain ⟨l1, l2⟩ := tilesOf_length hn hw hh
  exact ⟨(tilesOf_tiling hn hw hh).shift x y, by simpa using l1, by simpa using l2⟩

/-- The tiles of a pooled call with an input and an output. -/
theorem C48_tiles {m : BMem} {inp out : View} {w h n : Nat} (hn : 0 < n) (hn' : n < 4294967296)
    (o1 : One m inp w h) (o2 : One m out w h) :
    ∃ a b, poolSetup2 inp out w h n m = .ok (a, b) m ∧ GoodTiles a inp.x inp.y w h n ∧
      GoodTiles b out.x out.y w h n ∧ SamePlaces a b inp.x inp.y out.x out.y :=
  ⟨_, _, poolSetup2_eq hn hn' o1.wf o2.wf o1.fit o2.fit, goodTiles_shift _ _ hn o1.fit.wpos o1.fit.hpos,
    goodTiles_shift _ _ hn o1.fit.wpos o1.fit.hpos, samePlaces_shift _ _ _ _ _⟩

/-- ... of one image. -/
theorem C48_tiles1 {m : BMem} {v : View} {w h n : Nat} (hn : 0 < n) (hn' : n < 4294967296) (o : One m v w h) :
    ∃ a, poolSetup1 v w h n m = .ok a m ∧ GoodTiles a v.x v.y w h n :=
  ⟨_, poolSetup1_eq hn hn' o.wf o.fit, goodTiles_shift _ _ hn o.fit.wpos o.fit.hpos⟩

/-- ... of two inputs and an output. -/
theorem C48_tiles3 {m : BMem} {v1 v2 v3 : View} {w h n : Nat} (hn : 0 < n) (hn' : n < 4294967296)
    (o1 : One m v1 w h) (o2 : One m v2 w h) (o3 : One m v3 w h) :
    ∃ a b c, poolSetup3 v1 v2 v3 w h n m = .ok (a, b, c) m ∧ GoodTiles a v1.x v1.y w h n ∧
      GoodTiles b v2.x v2.y w h n ∧ GoodTiles c v3.x v3.y w h n ∧
      SamePlaces a b v1.x v1.y v2.x v2.y ∧ SamePlaces a c v1.x v1.y v3.x v3.y :=
  ⟨_, _, _, poolSetup3_eq hn hn' o1.wf o2.wf o3.wf o1.fit o2.fit o3.fit,
    goodTiles_shift _ _ hn o1.fit.wpos o1.fit.hpos,
    goodTiles_shift _ _ hn o1.fit.wpos o1.fit.hpos, goodTiles_shift _ _ hn o1.fit.wpos o1.fit.hpos,
    samePlaces_shift _ _ _ _ _, samePlaces_shift _ _ _ _ _⟩

/-- ... of four images. -/
theorem C48_tiles4 {m : BMem} {v1 v2 v3 v4 : View} {w h n : Nat} (hn : 0 < n) (hn' : n < 4294967296)
    (o1 : One m v1 w h) (o2 : One m v2 w h) (o3 : One m v3 w h) (o4 : One m v4 w h) :
    ∃ a b c d, poolSetup4 v1 v2 v3 v4 w h n m = .ok (a, b, c, d) m ∧ GoodTiles a v1.x v1.y w h n ∧
      GoodTiles b v2.x v2.y w h n ∧ GoodTiles c v3.x v3.y w h n ∧ GoodTiles d v4.x v4.y w h n ∧
      SamePlaces a b v1.x v1.y v2.x v2.y ∧ SamePlaces a c v1.x v1.y v3.x v3.y ∧
      SamePlaces a d v1.x v1.y v4.x v4.y :=
  ⟨_, _, _, _, poolSetup4_eq hn hn' o1.wf o2.wf o3.wf o4.wf o1.fit o2.fit o3.fit o4.fit,
    goodTiles_shift _ _ hn o1.fit.wpos o1.fit.hpos, goodTiles_shift _ _ hn o1.fit.wpos o1.fit.hpos,
    goodTiles_shift _ _ hn o1.fit.wpos o1.fit.hpos, goodTiles_shift _ _ hn o1.fit.wpos o1.fit.hpos,
    samePlaces_shift _ _ _ _ _, samePlaces_shift _ _ _ _ _, samePlaces_shift _ _ _ _ _⟩

/-- The tiles of Flip: each output tile is the mirror image of the input tile. -/
theorem C48_flip {m : BMem} {inp out : View} {w h n : Nat} (hor ver : Bool) (hn : 0 < n) (hn' : n < 4294967296)
    (o1 : One m inp w h) (o2 : One m out w h) :
    ∃ a b, poolSetupFlip inp out w h hor ver n m = .ok (a, b) m ∧ GoodTiles a inp.x inp.y w h n ∧
      GoodTiles b out.x out.y w h n ∧ a.length = b.length ∧
      ∀ (i : Nat) s t, a[i]? = some s → b[i]? = some t → s.w = t.w ∧ s.h = t.h ∧
        (t.x - out.x = if hor then w - (s.x - inp.x + s.w) else s.x - inp.x) ∧
        (t.y - out.y = if ver then h - (s.y - inp.y + s.h) else s.y - inp.y) := by
  obtain ⟨_, _, _, hx, hy, _⟩ := View.facts o2.wf o2.fit
  have inX := o2.fit.inX
  have inY := o2.fit.inY
  have g1 := goodTiles_shift inp.x inp.y hn o1.fit.wpos o1.fit.hpos
  have hM := ((tilesOf_tiling hn o1.fit.wpos o1.fit.hpos).mirror hor ver).shift out.x out.y
  refine ⟨_, _, ?_, g1, ⟨hM, ?_, ?_⟩, ?_, ?_⟩
  · rw [poolSetupFlip, bind_ok (poolSetup2_eq hn hn' o1.wf o2.wf o1.fit o2.fit)]
    simp only [flipTiles_eq hn o1.fit.wpos o1.fit.hpos (show out.x + w < 4294967296 by omega)
      (show out.y + h < 4294967296 by omega)]
    rfl
  · simpa using g1.some
  · simpa using g1.few
  · simp
  · intro i s t h1 h2
    rw [List.getElem?_map, Option.map_eq_some_iff] at h1 h2
    obtain ⟨s', hs', rfl⟩ := h1
    obtain ⟨t', ht', rfl⟩ := h2
    rw [List.getElem?_map, hs'] at ht'
    obtain rfl := Option.some.inj ht'
    simp only [Tile.shift, Tile.mirror, Nat.add_sub_cancel_left]
    exact ⟨trivial, trivial, trivial, trivial⟩

/-- The tiles of Transpose: each output tile is the transposed input tile. -/
theorem C48_transpose {m : BMem} {inp out : View} {w h n : Nat} (hn : 0 < n) (hn' : n < 4294967296)
    (p : Pair m inp w h out h w) :
    ∃ a b, poolSetupSizes inp w h out h w true n m = .ok (a, b) m ∧ GoodTiles a inp.x inp.y w h n ∧
      GoodTiles b out.x out.y h w n ∧ a.length = b.length ∧
      ∀ (i : Nat) s t, a[i]? = some s → b[i]? = some t →
        s.w = t.h ∧ s.h = t.w ∧ s.x - inp.x = t.y - out.y ∧ s.y - inp.y = t.x - out.x := by
  obtain ⟨k, k1, k2, k3, hset⟩ := poolSetupSizes_transpose hn hn' p
  have hI := relTiles_tiling (yAxis := true) k1 p.fiti.wpos p.fiti.hpos k3
  have hO := relTiles_tiling (yAxis := false) k1 p.fito.wpos p.fito.hpos k3
  refine ⟨_, _, hset m, ⟨hI.shift _ _, ?_, ?_⟩, ⟨hO.shift _ _, ?_, ?_⟩, ?_, ?_⟩
  · simpa [relTiles] using k1
  · simpa [relTiles] using k2
  · simpa [relTiles] using k1
  · simpa [relTiles] using k2
  · simp [relTiles]
  · intro i s t h1 h2
    rw [List.getElem?_map, Option.map_eq_some_iff] at h1 h2
    obtain ⟨s', hs', rfl⟩ := h1
    obtain ⟨t', ht', rfl⟩ := h2
    obtain ⟨_, rfl⟩ := relTiles_get.1 hs'
    obtain ⟨_, rfl⟩ := relTiles_get.1 ht'
    simp [Tile.shift]

/-- Without a running pool every pooled call is refused before anything is written. -/
theorem C48_no_threads {m : BMem} {inp out : View} {w h : Nat} (o1 : One m inp w h) (o2 : One m out w h) :
    poolSetup2 inp out w h 0 m = .throw m ∧ poolSetup1 inp w h 0 m = .throw m := by
  constructor
  · rw [poolSetup2, bind_ok (validate_on_ok (m := m) (vs := [inp, out])
      (by simp; exact ⟨⟨o1.wf, o1.fit⟩, o2.wf, o2.fit⟩))]
    rfl
  · rw [poolSetup1, bind_ok (validate_on_ok (m := m) (vs := [inp]) (by simp; exact ⟨o1.wf, o1.fit⟩))]
    rfl

/-- A rectangle that does not fit is refused before anything is written, whatever the pool. -/
theorem C48_rejects {m : BMem} {v1 v2 v3 : View} {w h : Nat} (n : Nat) :
    (Bad [v1] w h True → poolSetup1 v1 w h n m = .throw m) ∧
    (Bad [v1, v2] w h True → poolSetup2 v1 v2 w h n m = .throw m) ∧
    (Bad [v1, v2, v3] w h True → poolSetup3 v1 v2 v3 w h n m = .throw m) :=
  ⟨fun hb => rois_bad_then hb fun hc => absurd trivial hc,
   fun hb => rois_bad_then hb fun hc => absurd trivial hc,
   fun hb => rois_bad_then hb fun hc => absurd trivial hc⟩

/-- 100 x 3 pixels on 8 threads: six columns of 17 or 16 pixels, because there are only three
    rows. -/
example : (tilesOf 100 3 8).map (fun t => (t.x, t.w)) = [(0, 17), (17, 17), (34, 17), (51, 17), (68, 16), (84, 16)] := by
  decide
/-- 5 rows on two threads. -/
example : (tilesOf 4 5 2).map (fun t => (t.y, t.h)) = [(0, 3), (3, 2)] := by decide
example : ∃ a b, poolSetup2 ⟨tight 1, 0, 0⟩ ⟨padded 2, 0, 0⟩ 2 2 2 exMem = .ok (a, b) exMem ∧
    a = [⟨0, 0, 2, 1⟩, ⟨0, 1, 2, 1⟩] := ⟨_, _, rfl, by decide⟩

/-! ### C49 : pooled pixel functions -/

theorem binary_tie {m : BMem} {f : UInt8 → UInt8 → UInt8} {in1 in2 out : View} {w h : Nat}
    (r : Ready2 m in1 in2 out w h) {imgs : List Image} (i1 : in1.img ∈ imgs)
    (i2 : in2.img ∈ imgs ∨ in2.img.rowSize = in1.img.rowSize) (io : out.img ∈ imgs) :
    (do validateRois [in1, in2, out] w h
        checkCommonColorCount in1.img [in2.img, out.img]
        binaryRows f in1 in2 out in1.img.cc
          (optimiseRoi (u32 (w * in1.img.cc)) h imgs).1 (optimiseRoi (u32 (w * in1.img.cc)) h imgs).2 : M BMem Unit) m
      = (prog2 f in1 in2 out w h).run m := by
  rw [prologue2_ok r, prog2_run]
  exact congrFun (binaryRows_fold r.wf1 r.wf2 r.wfo r.fit1 r.fit2 r.fito r.c2 r.co i1 i2 io) m

theorem C49_absoluteDifference {m : BMem} {in1 in2 out : View} {w h n : Nat} (hn : 0 < n) (hn' : n < 4294967296)
    (r : Ready2 m in1 in2 out w h) :
    PooledLike n (poolSetup3 in1 in2 out w h n) (fun a => a.1.length) (task3 AbsoluteDifference in1 in2 out)
      (ptask3 (prog2 absDiffE) in1 in2 out) (AbsoluteDifference in1 in2 out w h) m :=
  pooled_three hn hn' r fun _ ht _ hs => binary_tie (Ready2.sub r hs ht) (by simp) (Or.inl (by simp)) (by simp)

theorem C49_bitwiseAnd {m : BMem} {in1 in2 out : View} {w h n : Nat} (hn : 0 < n) (hn' : n < 4294967296)
    (r : Ready2 m in1 in2 out w h) :
    PooledLike n (poolSetup3 in1 in2 out w h n) (fun a => a.1.length) (task3 BitwiseAnd in1 in2 out)
      (ptask3 (prog2 fun a b => a &&& b) in1 in2 out) (BitwiseAnd in1 in2 out w h) m :=
  pooled_three hn hn' r fun _ ht _ hs => binary_tie (Ready2.sub r hs ht) (by simp) (Or.inl (by simp)) (by simp)

theorem C49_bitwiseOr {m : BMem} {in1 in2 out : View} {w h n : Nat} (hn : 0 < n) (hn' : n < 4294967296)
    (r : Ready2 m in1 in2 out w h) :
    PooledLike n (poolSetup3 in1 in2 out w h n) (fun a => a.1.length) (task3 BitwiseOr in1 in2 out)
      (ptask3 (prog2 fun a b => a ||| b) in1 in2 out) (BitwiseOr in1 in2 out w h) m :=
  pooled_three hn hn' r fun _ ht _ hs => binary_tie (Ready2.sub r hs ht) (by simp) (Or.inl (by simp)) (by simp)

theorem C49_bitwiseXor {m : BMem} {in1 in2 out : View} {w h n : Nat} (hn : 0 < n) (hn' : n < 4294967296)
    (r : Ready2 m in1 in2 out w h) :
    PooledLike n (poolSetup3 in1 in2 out w h n) (fun a => a.1.length) (task3 BitwiseXor in1 in2 out)
      (ptask3 (prog2 fun a b => a ^^^ b) in1 in2 out) (BitwiseXor in1 in2 out w h) m :=
  pooled_three hn hn' r fun _ ht _ hs => binary_tie (Ready2.sub r hs ht) (by simp) (Or.inl (by simp)) (by simp)

theorem C49_maximum {m : BMem} {in1 in2 out : View} {w h n : Nat} (hn : 0 < n) (hn' : n < 4294967296)
    (r : Ready2 m in1 in2 out w h) :
    PooledLike n (poolSetup3 in1 in2 out w h n) (fun a => a.1.length) (task3 Maximum in1 in2 out)
      (ptask3 (prog2 maxE) in1 in2 out) (Maximum in1 in2 out w h) m :=
  pooled_three hn hn' r fun _ ht _ hs => binary_tie (Ready2.sub r hs ht) (by simp) (Or.inl (by simp)) (by simp)

theorem C49_minimum {m : BMem} {in1 in2 out : View} {w h n : Nat} (hn : 0 < n) (hn' : n < 4294967296)
    (r : Ready2 m in1 in2 out w h) :
    PooledLike n (poolSetup3 in1 in2 out w h n) (fun a => a.1.length) (task3 Minimum in1 in2 out)
      (ptask3 (prog2 minE) in1 in2 out) (Minimum in1 in2 out w h) m :=
  pooled_three hn hn' r fun _ ht _ hs => binary_tie (Ready2.sub r hs ht) (by simp) (Or.inl (by simp)) (by simp)

theorem guard_optimise {m : BMem} {in1 in2 out : View} {w h : Nat} (r : Ready2 m in1 in2 out w h)
    (hg : SubtractGuard in1 in2 out w h) (he : in2.img.rowSize ≠ in1.img.rowSize) :
    optimiseRoi (u32 (w * in1.img.cc)) h [in1.img, in1.img, out.img]
      = optimiseRoi (u32 (w * in1.img.cc)) h [in1.img, in2.img, out.img] := by
  obtain ⟨_, _, _, _, _, _, _, _, hwcc, _⟩ := View.facts r.wf1 r.fit1
  rw [u32_of_lt hwcc]
  rcases hg with hg | hg | hg
  · exact absurd hg he
  · rcases optimiseRoi_cases (w * in1.img.cc) h [in1.img, in1.img, out.img] r.fit1.hpos with
      ha | ⟨_, ha, _⟩
    · rcases optimiseRoi_cases (w * in1.img.cc) h [in1.img, in2.img, out.img] r.fit1.hpos with
        hb | ⟨_, hb, _⟩
      · rw [ha, hb]
      · exact absurd ⟨hb _ (by simp), hb _ (by simp)⟩ hg
    · exact absurd ⟨ha _ (by simp), ha _ (by simp)⟩ hg
  · subst hg
    rcases optimiseRoi_cases (w * in1.img.cc) 1 [in1.img, in1.img, out.img] (by decide) with
      ha | ⟨ha, _, _⟩ <;>
    rcases optimiseRoi_cases (w * in1.img.cc) 1 [in1.img, in2.img, out.img] (by decide) with
      hb | ⟨hb, _, _⟩ <;> rw [ha, hb] <;> simp

theorem subtract_tie {m : BMem} {in1 in2 out : View} {w h : Nat} (r : Ready2 m in1 in2 out w h)
    (hg : SubtractGuard in1 in2 out w h) :
    Subtract in1 in2 out w h m = (prog2 subE in1 in2 out w h).run m := by
  by_cases he : in2.img.rowSize = in1.img.rowSize
  · exact binary_tie r (by simp) (Or.inr he) (by simp)
  · have := binary_tie (f := subE) r (imgs := [in1.img, in2.img, out.img]) (by simp) (Or.inl (by simp)) (by simp)
    rw [← this, Subtract]
    simp only [guard_optimise r hg he]

/-- The guard passes on to the tiles. -/
theorem guard_sub {m : BMem} {in1 in2 out : View} {w h : Nat} (r : Ready2 m in1 in2 out w h)
    (hg : SubtractGuard in1 in2 out w h) {t : Tile} (ht : t.In w h) :
    SubtractGuard (in1.sub t) (in2.sub t) (out.sub t) t.w t.h := by
  obtain ⟨hcc, _, _, _, _, _, _, _, _, hle⟩ := View.facts r.wf1 r.fit1
  have a := ht.inX
  have b := ht.inY
  have c := ht.hpos
  rcases hg with hg | hg | hg
  · exact Or.inl hg
  · refine Or.inr (Or.inl ?_)
    rintro ⟨e1, e2⟩
    have e1 : in1.img.rowSize = t.w * in1.img.cc := e1
    have e2 : out.img.rowSize = t.w * in1.img.cc := e2
    have : w * in1.img.cc ≤ t.w * in1.img.cc := by omega
    have : w ≤ t.w := Nat.le_of_mul_le_mul_right this hcc
    have : t.w = w := by omega
    rw [this] at e1 e2
    exact hg ⟨e1, e2⟩
  · exact Or.inr (Or.inr (by omega))

/-- Subtract under the guard of C12.  What is missing: padded second inputs, for which the
    pooled and the single-threaded call differ (`C49_subtract_wrong`). -/
theorem C49_subtract_partial {m : BMem} {in1 in2 out : View} {w h n : Nat} (hn : 0 < n) (hn' : n < 4294967296)
    (r : Ready2 m in1 in2 out w h) (hg : SubtractGuard in1 in2 out w h) :
    PooledLike n (poolSetup3 in1 in2 out w h n) (fun a => a.1.length) (task3 Subtract in1 in2 out)
      (ptask3 (prog2 subE) in1 in2 out) (Subtract in1 in2 out w h) m :=
  pooled_three hn hn' r fun _ ht _ hs => subtract_tie (Ready2.sub r hs ht) (guard_sub r hg ht)

/-- Two threads, the images of `C12_subtract_wrong`: the tasks compute 200 where the
    single-threaded call computes 50. -/
theorem C49_subtract_wrong :
    after ((do
      let a ← poolSetup3 ⟨tight 1, 0, 0⟩ ⟨padded 2, 0, 0⟩ ⟨tight 3, 0, 0⟩ 2 2 2
      task3 Subtract ⟨tight 1, 0, 0⟩ ⟨padded 2, 0, 0⟩ ⟨tight 3, 0, 0⟩ a 0
      task3 Subtract ⟨tight 1, 0, 0⟩ ⟨padded 2, 0, 0⟩ ⟨tight 3, 0, 0⟩ a 1 : M BMem Unit) subMem) 3 2 = some 200 ∧
    after (Subtract ⟨tight 1, 0, 0⟩ ⟨padded 2, 0, 0⟩ ⟨tight 3, 0, 0⟩ 2 2 subMem) 3 2 = some 50 := by
  decide +kernel

theorem C49_invert {m : BMem} {inp out : View} {w h n : Nat} (hn : 0 < n) (hn' : n < 4294967296)
    (r : Ready1 m inp out w h) :
    PooledLike n (poolSetup2 inp out w h n) (fun a => a.1.length) (task2 Invert inp out)
      (ptask2 (prog1 fun a => ~~~ a) inp out) (Invert inp out w h) m := by
  refine pooled_unary hn hn' r fun t ht m₁ hs => ?_
  have r' := Ready1.sub r hs ht
  rw [Invert, prologue1_ok r', prog1_run]
  exact congrFun (unaryRows_fold r'.wfi r'.wfo r'.fiti r'.fito r'.co) m₁

theorem gray_tie {m : BMem} {f : UInt8 → UInt8} {inp out : View} {w h : Nat} (r : Ready1 m inp out w h)
    (g : inp.img.cc = 1) :
    unaryRows f inp out 1 (optimiseRoi w h [inp.img, out.img]).1 (optimiseRoi w h [inp.img, out.img]).2 m
      = (prog1 f inp out w h).run m := by
  obtain ⟨_, _, _, _, _, _, _, _, hw, _⟩ := View.facts r.wfi r.fiti
  have := unaryRows_fold (f := f) r.wfi r.wfo r.fiti r.fito r.co
  rw [g, Nat.mul_one] at hw
  rw [g, Nat.mul_one, u32_of_lt hw] at this
  rw [this, prog1_run, g]

theorem C49_threshold {m : BMem} {inp out : View} {w h n : Nat} (t : UInt8) (hn : 0 < n) (hn' : n < 4294967296)
    (r : Ready1 m inp out w h) (g : inp.img.cc = 1) :
    PooledLike n (poolSetup2 inp out w h n) (fun a => a.1.length)
      (task2 (fun v1 v2 w h => Threshold v1 v2 w h t) inp out)
      (ptask2 (prog1 (thrE t)) inp out) (Threshold inp out w h t) m := by
  refine pooled_unary hn hn' r (F := fun v1 v2 w h => Threshold v1 v2 w h t) fun t' ht m₁ hs => ?_
  have r' := Ready1.sub r hs ht
  simp only [Threshold]
  rw [grayPrologue_ok r' g]
  exact gray_tie r' g

/-- `FunctionTask::Threshold` with two limits up to `_process`, src/function_pool.cpp 360-371. -/
def poolSetupThreshold2 (inp out : View) (w h : Nat) (lo hi : UInt8) (n : Nat) :
    M BMem (List Tile × List Tile) := do
  let a ← poolSetup2 inp out w h n
  throwIf (decide (lo > hi))
  pure a

theorem C49_threshold2 {m : BMem} {inp out : View} {w h n : Nat} (lo hi : UInt8) (hlh : lo ≤ hi) (hn : 0 < n)
    (hn' : n < 4294967296) (r : Ready1 m inp out w h) (g : inp.img.cc = 1) :
    PooledLike n (poolSetupThreshold2 inp out w h lo hi n) (fun a => a.1.length)
      (task2 (fun v1 v2 w h => Threshold2 v1 v2 w h lo hi) inp out)
      (ptask2 (prog1 (thr2E lo hi)) inp out) (Threshold2 inp out w h lo hi) m := by
  have hnot : decide (lo > hi) = false := by
    have : lo.toNat ≤ hi.toNat := UInt8.le_iff_toNat_le.1 hlh
    simp only [gt_iff_lt, UInt8.lt_iff_toNat_lt, decide_eq_false_iff_not]
    omega
  have e : poolSetupThreshold2 inp out w h lo hi n = poolSetup2 inp out w h n := by
    simp only [poolSetupThreshold2, hnot, throwIf_false, pure_bind']
    exact bind_pure' _
  rw [e]
  refine pooled_unary hn hn' r (F := fun v1 v2 w h => Threshold2 v1 v2 w h lo hi) fun t' ht m₁ hs => ?_
  have r' := Ready1.sub r hs ht
  simp only [Threshold2]
  rw [grayPrologue_ok r' g]
  simp only [hnot, throwIf_false, pure_bind']
  exact gray_tie r' g

/-- Swapped limits are refused by the calling thread. -/
theorem C49_threshold2_rejects_limits {m : BMem} {inp out : View} {w h n : Nat} (lo hi : UInt8) (hlh : hi < lo)
    (hn : 0 < n) (hn' : n < 4294967296) (r : Ready1 m inp out w h) :
    poolSetupThreshold2 inp out w h lo hi n m = .throw m := by
  rw [poolSetupThreshold2, bind_ok (poolSetup2_eq hn hn' r.wfi r.wfo r.fiti r.fito)]
  have : decide (lo > hi) = true := by simpa using hlh
  simp only [this]
  rfl

theorem C49_lookupTable {m : BMem} {inp out : View} {w h n : Nat} (table : List UInt8)
    (hlen : table.length = 256) (hn : 0 < n) (hn' : n < 4294967296) (r : Ready1 m inp out w h) :
    PooledLike n (poolSetup2 inp out w h n) (fun a => a.1.length)
      (task2 (fun v1 v2 w h => LookupTable v1 v2 w h table) inp out)
      (ptask2 (prog1 fun a => table[a.toNat]'(by rw [hlen]; exact UInt8.toNat_lt _)) inp out)
      (LookupTable inp out w h table) m := by
  refine pooled_unary hn hn' r (F := fun v1 v2 w h => LookupTable v1 v2 w h table) fun t' ht m₁ hs => ?_
  have r' := Ready1.sub r hs ht
  generalize inp.sub t' = inp' at *
  generalize out.sub t' = out' at *
  generalize t'.w = w' at *
  generalize t'.h = h' at *
  simp only [LookupTable]
  rw [bind_ok (validate_pre_ok (vs := [inp', out'])
    (by simp; exact ⟨⟨r'.wfi, r'.fiti⟩, r'.wfo, r'.fito⟩))]
  have hl : (table.length != 256) = false := by simp [hlen]
  rw [hl, throwIf_false, pure_bind', bind_ok (common_ok (by simp [r'.co]))]
  have hb : (fun (outX inX : Nat) (_ : Unit) => (do
        let a ← readC inp'.img.data inX
        let t ← orUb table[a.toNat]?
        writeC out'.img.data outX t : M BMem Unit)) = fun outX inX _ => (do
        let a ← readC inp'.img.data inX
        writeC out'.img.data outX (table[a.toNat]'(by rw [hlen]; exact UInt8.toNat_lt _))) := by
    funext outX inX _
    congr 1
    funext a
    rw [List.getElem?_eq_getElem (by rw [hlen]; exact UInt8.toNat_lt _)]
    rfl
  rw [hb, prog1_run]
  exact congrFun (unaryRows_fold (f := fun a => table[a.toNat]'(by rw [hlen]; exact UInt8.toNat_lt _))
    r'.wfi r'.wfo r'.fiti r'.fito r'.co) m₁

theorem C49_flip {m : BMem} {inp out : View} {w h n : Nat} (hor ver : Bool) (hn : 0 < n)
    (hn' : n < 4294967296) (p : Pair m inp w h out w h) (ci : inp.img.cc = 1) (co : out.img.cc = 1) :
    PooledLike n (poolSetupFlip inp out w h hor ver n) (fun a => a.1.length)
      (task2 (fun v1 v2 w h => Flip v1 v2 w h hor ver) inp out)
      (ptask2 (progFlip hor ver) inp out) (Flip inp out w h hor ver) m :=
  pooled_flip hor ver hn hn' p ci co

theorem C49_transpose {m : BMem} {inp out : View} {w h n : Nat} (hn : 0 < n)
    (hn' : n < 4294967296) (p : Pair m inp w h out h w) (ci : inp.img.cc = 1) (co : out.img.cc = 1) :
    PooledLike n (poolSetupSizes inp w h out h w true n) (fun a => a.1.length)
      (task2 Transpose inp out) (ptask2 progTranspose inp out) (Transpose inp out w h) m :=
  pooled_transpose hn hn' p ci co

theorem C49_extractChannel {m : BMem} {inp out : View} {w h n ch : Nat} (hn : 0 < n) (hn' : n < 4294967296)
    (p : Pair m inp w h out w h) (co : out.img.cc = 1) (hch : ch < inp.img.cc) :
    PooledLike n (poolSetup2 inp out w h n) (fun a => a.1.length)
      (task2 (fun v1 v2 w h => ExtractChannel v1 v2 w h ch) inp out)
      (ptask2 (progExtract ch) inp out) (ExtractChannel inp out w h ch) m :=
  pooled_extract hn hn' p co hch

theorem C49_rgbToBgr {m : BMem} {inp out : View} {w h n : Nat} (hn : 0 < n) (hn' : n < 4294967296)
    (p : Pair m inp w h out w h) (ci : inp.img.cc = 3) (co : out.img.cc = 3) :
    PooledLike n (poolSetup2 inp out w h n) (fun a => a.1.length) (task2 RgbToBgr inp out)
      (ptask2 progBgr inp out) (RgbToBgr inp out w h) m :=
  pooled_bgr hn hn' p ci co

theorem C49_convertToGrayScale {m : BMem} {inp out : View} {w h n : Nat} (hn : 0 < n) (hn' : n < 4294967296)
    (p : Pair m inp w h out w h) (ci : inp.img.cc = 3 ∨ inp.img.cc = 1) (co : out.img.cc = 1) :
    PooledLike n (poolSetup2 inp out w h n) (fun a => a.1.length) (task2 ConvertToGrayScale inp out)
      (ptask2 progGray inp out) (ConvertToGrayScale inp out w h) m :=
  pooled_gray hn hn' p ci co

theorem C49_convertToRgb {m : BMem} {inp out : View} {w h n : Nat} (hn : 0 < n) (hn' : n < 4294967296)
    (p : Pair m inp w h out w h) (ci : inp.img.cc = 1 ∨ inp.img.cc = 3) (co : out.img.cc = 3) :
    PooledLike n (poolSetup2 inp out w h n) (fun a => a.1.length) (task2 ConvertToRgb inp out)
      (ptask2 progRgb inp out) (ConvertToRgb inp out w h) m :=
  pooled_rgb hn hn' p ci co

theorem C49_merge {m : BMem} {i1 i2 i3 out : View} {w h n : Nat} (hn : 0 < n) (hn' : n < 4294967296)
    (p1 : Pair m i1 w h out w h) (p2 : Pair m i2 w h out w h) (p3 : Pair m i3 w h out w h)
    (co : out.img.cc = 3) (c1 : i1.img.cc = 1) (c2 : i2.img.cc = 1) (c3 : i3.img.cc = 1) :
    PooledLike n (poolSetup4 i1 i2 i3 out w h n) (fun a => a.1.length) (task4 Merge i1 i2 i3 out)
      (ptask4 progMerge i1 i2 i3 out) (Merge i1 i2 i3 out w h) m :=
  pooled_merge hn hn' p1 p2 p3 co c1 c2 c3

theorem C49_split {m : BMem} {inp o1 o2 o3 : View} {w h n : Nat} (hn : 0 < n) (hn' : n < 4294967296)
    (p1 : Pair m inp w h o1 w h) (p2 : Pair m inp w h o2 w h) (p3 : Pair m inp w h o3 w h)
    (a12 : Apart o1 w h o2 w h) (a13 : Apart o1 w h o3 w h) (a23 : Apart o2 w h o3 w h)
    (ci : inp.img.cc = 3) (c1 : o1.img.cc = 1) (c2 : o2.img.cc = 1) (c3 : o3.img.cc = 1) :
    PooledLike n (poolSetup4 inp o1 o2 o3 w h n) (fun a => a.1.length) (task4 Split inp o1 o2 o3)
      (ptask4 progSplit inp o1 o2 o3) (Split inp o1 o2 o3 w h) m :=
  pooled_split hn hn' p1 p2 p3 a12 a13 a23 ci c1 c2 c3

/-- Different numbers of colour channels: the set-up accepts the call, and then every task
    throws without writing anything. -/
theorem C49_colours_rejected {m : BMem} {in1 in2 out : View} {w h n : Nat} (hn : 0 < n) (hn' : n < 4294967296)
    (o1 : One m in1 w h) (o2 : One m in2 w h) (o3 : One m out w h) (hc : ¬ SameColors2 in1 in2 out)
    {F : View → View → View → Nat → Nat → M BMem Unit}
    (hF : F ∈ [AbsoluteDifference, BitwiseAnd, BitwiseOr, BitwiseXor, Maximum, Minimum, Subtract]) :
    ∃ a, poolSetup3 in1 in2 out w h n m = .ok a m ∧ 0 < a.1.length ∧
      ∀ i, i < a.1.length → ∀ m₁ : BMem, m₁.size = m.size → task3 F in1 in2 out a i m₁ = .throw m₁ := by
  have hT := tilesOf_tiling hn o1.fit.wpos o1.fit.hpos
  have l1 := (tilesOf_length hn o1.fit.wpos o1.fit.hpos).1
  have hset := poolSetup3_eq (s := m) hn hn' o1.wf o2.wf o3.wf o1.fit o2.fit o3.fit
  generalize tilesOf w h n = L at *
  refine ⟨_, hset, by simpa using l1, fun i hi m₁ hs => ?_⟩
  have hi : i < L.length := by simpa using hi
  have ti := hT.tileIn (List.getElem_mem hi)
  rw [task3_eq F in1 in2 out hi]
  have a1 := ti.inX
  have a2 := ti.inY
  obtain ⟨_, _, _, w1, h1, _⟩ := View.facts o1.wf o1.fit
  have hu : ∀ v : View, One m v w h → (v.sub L[i]).U32 := by
    intro v o
    obtain ⟨_, _, _, w1, h1, _⟩ := View.facts o.wf o.fit
    have b1 := o.fit.inX
    have b2 := o.fit.inY
    exact ⟨by simp only [View.sub]; omega, by simp only [View.sub]; omega, w1, h1⟩
  have b1 := o1.fit.inX
  have b2 := o1.fit.inY
  have hb : Bad [in1.sub L[i], in2.sub L[i], out.sub L[i]] L[i].w L[i].h
      (SameColors2 (in1.sub L[i]) (in2.sub L[i]) (out.sub L[i])) := by
    refine ⟨?_, by omega, by omega, Or.inr hc⟩
    intro v hv
    simp only [List.mem_cons, List.not_mem_nil, or_false] at hv
    rcases hv with rfl | rfl | rfl
    · exact hu _ o1
    · exact hu _ o2
    · exact hu _ o3
  simp only [List.mem_cons, List.not_mem_nil, or_false] at hF
  rcases hF with rfl | rfl | rfl | rfl | rfl | rfl | rfl
  · exact C09_absoluteDifference_rejects hb
  · exact (C10_bitwise_rejects hb).1
  · exact (C10_bitwise_rejects hb).2.1
  · exact (C10_bitwise_rejects hb).2.2
  · exact (C11_rejects hb).1
  · exact (C11_rejects hb).2
  · exact C12_subtract_rejects hb

/-- Two rows, two threads. -/
example : PooledLike 2 (poolSetup3 ⟨tight 1, 0, 0⟩ ⟨padded 2, 0, 0⟩ ⟨tight 3, 0, 0⟩ 2 2 2) (fun a => a.1.length)
    (task3 Maximum ⟨tight 1, 0, 0⟩ ⟨padded 2, 0, 0⟩ ⟨tight 3, 0, 0⟩)
    (ptask3 (prog2 maxE) ⟨tight 1, 0, 0⟩ ⟨padded 2, 0, 0⟩ ⟨tight 3, 0, 0⟩)
    (Maximum ⟨tight 1, 0, 0⟩ ⟨padded 2, 0, 0⟩ ⟨tight 3, 0, 0⟩ 2 2) exMem :=
  C49_maximum (by decide) (by decide) ready2_ex
example : PooledLike 2 (poolSetupFlip ⟨tight 1, 0, 0⟩ ⟨padded 2, 0, 0⟩ 2 2 true true 2) (fun a => a.1.length)
    (task2 (fun v1 v2 w h => Flip v1 v2 w h true true) ⟨tight 1, 0, 0⟩ ⟨padded 2, 0, 0⟩)
    (ptask2 (progFlip true true) ⟨tight 1, 0, 0⟩ ⟨padded 2, 0, 0⟩)
    (Flip ⟨tight 1, 0, 0⟩ ⟨padded 2, 0, 0⟩ 2 2 true true) exMem :=
  C49_flip true true (by decide) (by decide) pair_ex rfl rfl

/-! ### C50 : pooled Sum, Histogram, ProjectionProfile, IsEqual -/

theorem C50_sum {m : BMem} {v : View} {w h n : Nat} (hn : 0 < n) (hn' : n < 4294967296)
    (o : One m v w h) (cc : v.img.cc = 1) :
    PooledValue n (poolSetup1 v w h n) (fun a => a.length) (task1 Sum v) (ptask1 progSum v) getSum
      (Sum v w h) m :=
  pooled_sum hn hn' o cc

/-- The single-threaded Histogram is itself wrong for colour images (C24). -/
theorem C50_histogram {m : BMem} {v : View} {w h n : Nat} (hn : 0 < n) (hn' : n < 4294967296)
    (o : One m v w h) (cc : v.img.cc = 1) :
    PooledValue n (poolSetup1 v w h n) (fun a => a.length)
      (task1 (fun v w h => withVec (Histogram v w h)) v) (ptask1 progHistogram v) getArray
      (withVec (Histogram v w h)) m :=
  pooled_histogram hn hn' o cc

theorem C50_isEqual {m : BMem} {in1 in2 : View} {w h n : Nat} (hn : 0 < n) (hn' : n < 4294967296)
    (o1 : One m in1 w h) (o2 : One m in2 w h) (cc : in2.img.cc = in1.img.cc) :
    PooledValue n (poolSetup2 in1 in2 w h n) (fun a => a.1.length) (task2 IsEqual in1 in2)
      (ptask2 progEqual in1 in2) getEqual (IsEqual in1 in2 w h) m :=
  pooled_equal hn hn' o1 o2 cc

theorem C50_projection_vertical {m : BMem} {v : View} {w h n : Nat} (hn : 0 < n) (hn' : n < 4294967296)
    (o : One m v w h) :
    PooledValue n (poolSetup1 v w h n) (fun a => a.length)
      (task1 (fun v w h => withVec (ProjectionProfile v w h false)) v) (ptask1 (progProjection false) v)
      (getProjection h) (withVec (ProjectionProfile v w h false)) m :=
  pooled_projection_vertical hn hn' o

/-- The horizontal profile for gray-scale images.  What is missing: colour images, for which
    the pooled call never has the result of the single-threaded one
    (`C50_projection_colour_wrong`). -/
theorem C50_projection_horizontal_partial {m : BMem} {v : View} {w h n : Nat} (hn : 0 < n)
    (hn' : n < 4294967296) (o : One m v w h) (cc : v.img.cc = 1) :
    PooledValue n (poolSetup1 v w h n) (fun a => a.length)
      (task1 (fun v w h => withVec (ProjectionProfile v w h true)) v) (ptask1 (progProjection true) v)
      (getProjection w) (withVec (ProjectionProfile v w h true)) m :=
  pooled_projection_horizontal hn hn' o cc

/-- C50 is false for the horizontal profile of every colour image: whatever the tasks
    computed, the pooled call returns `w` values or throws, while the single-threaded call
    returns `w` times the number of channels. -/
theorem C50_projection_colour_wrong {m : BMem} {v : View} {w h : Nat} (o : One m v w h) (cc : v.img.cc ≠ 1)
    (vals : List (List UInt32)) :
    getProjection w vals m ≠ withVec (ProjectionProfile v w h true) m := by
  obtain ⟨prof, h1, h2, h3⟩ := C26_projection_horizontal o []
  rw [withVec_eq, h1, vecRes]
  intro he
  have := getProjection_length he
  rw [h2] at this
  have hcc := (View.facts o.wf o.fit).1
  have hw := o.fit.wpos
  have h4 : w * 2 ≤ w * v.img.cc := Nat.mul_le_mul_left _ (by omega)
  omega

/-- A run of all tasks one after the other. -/
def poolRun {A B : Type} (setup : M BMem (List Tile)) (body : List Tile → Nat → M BMem A)
    (collect : List A → M BMem B) : M BMem B := do
  let a ← setup
  let vs ← fold (fun i vs => do let x ← body a i; pure (vs ++ [x])) (List.range a.length) []
  collect vs

/-- ... and it does not always throw: for a 48 x 1 RGB image and three threads the values of
    different columns are added up and returned. -/
theorem C50_projection_colour_silent :
    (match poolRun (poolSetup1 ⟨⟨1, 48, 1, 3, 144⟩, 0, 0⟩ 48 1 3)
        (task1 (fun v w h => withVec (ProjectionProfile v w h true)) ⟨⟨1, 48, 1, 3, 144⟩, 0, 0⟩)
        (getProjection 48) ⟨fun _ => 144, fun _ _ => 1⟩ with
      | .ok l _ => l == List.replicate 48 3
      | _ => false) = true := by
  decide +kernel

example : PooledValue 2 (poolSetup1 ⟨padded 1, 0, 0⟩ 2 2 2) (fun a => a.length) (task1 Sum ⟨padded 1, 0, 0⟩)
    (ptask1 progSum ⟨padded 1, 0, 0⟩) getSum (Sum ⟨padded 1, 0, 0⟩ 2 2) exMem :=
  C50_sum (by decide) (by decide) (one_padded 1 (by decide)) rfl
example : (match poolRun (poolSetup1 ⟨padded 1, 0, 0⟩ 2 2 2) (task1 Sum ⟨padded 1, 0, 0⟩) getSum exMem with
    | .ok s _ => s == 82
    | _ => false) = true := by decide +kernel

end PV.Props
