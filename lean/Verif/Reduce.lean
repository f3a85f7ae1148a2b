import Verif.PixelFn
/-
  Model of the functions of src/image_function.cpp that collect numbers from an image:
  Accumulate, Histogram, IsBinary, IsEqual, ProjectionProfile, Sum, and of GetPixel and
  SetPixel.

  The `std::vector<uint32_t>` argument of the caller is part of the state, so that it is
  visible what a refused call leaves behind.
-/
namespace PV

variable {μ ν α A ι : Type}

/-- Pixels and the caller's vector of 32-bit counters. -/
abbrev VMem := BMem × List UInt32

/-- An action on the pixels only. Not in the code: machinery of the model. -/
def onImg (x : M BMem α) : M VMem α := fun s =>
  match x s.1 with
  | .ok a m => .ok a (m, s.2)
  | .throw m => .throw (m, s.2)
  | .ub => .ub

theorem onImg_ok {x : M BMem α} {m m' : BMem} {v : List UInt32} {a : α} (h : x m = .ok a m') :
    onImg x (m, v) = .ok a (m', v) := by
  rw [onImg, h]

theorem onImg_throw {x : M BMem α} {m m' : BMem} {v : List UInt32} (h : x m = .throw m') :
    onImg x (m, v) = .throw (m', v) := by
  rw [onImg, h]

/-- `vector.resize( n ); std::fill( begin, end, 0u );`. src/image_function.cpp 874-875, 1350-1351. -/
def vecReset (n : Nat) : M VMem Unit := fun s => .ok () (s.1, List.replicate n 0)

/-- `vector[i] += n`; an index outside of the vector is undefined behaviour. src/image_function.cpp 267, 888, 898, 1368, 1382. -/
def vecAdd (i : Nat) (n : UInt32) : M VMem Unit := fun s =>
  match s.2[i]? with
  | some v => .ok () (s.1, s.2.set i (v + n))
  | none => .ub

/-- `if ( vector.size() != n ) throw ...;`. src/image_function.cpp 253-254. -/
def vecSizeIs (n : Nat) : M VMem Unit := fun s => if s.2.length = n then .ok () s else .throw s

/-- A call with a local vector that starts empty: its final content is the result. src/image_function_helper.cpp 444-448, 462-466. -/
def withVec (x : M VMem Unit) : M BMem (List UInt32) := fun m =>
  match x (m, []) with
  | .ok _ s => .ok s.2 s.1
  | .throw s => .throw s.1
  | .ub => .ub

/-- src/image_function.cpp 244-269 -/
def Accumulate (image : View) (w h : Nat) : M VMem Unit := do
  validateRois [image] w h
  let r := optimiseRoi (u32 (w * image.img.cc)) h [image.img]
  vecSizeIs (u32 (r.1 * r.2))
  let _ ← rowLoop1 image.img.rowSize 1 (fun imageX v => do
      let a ← onImg (readC image.img.data imageX)
      vecAdd v (UInt32.ofNat a.toNat)
      pure (v + 1)) (image.start image.img.cc) r.1 r.2 0

/-- src/image_function.cpp 867-902 -/
def Histogram (image : View) (w h : Nat) : M VMem Unit := do
  validateRois [image] w h
  let r := optimiseRoi w h [image.img]
  vecReset (256 * image.img.cc)
  if image.img.cc == 1 then
    rowLoop1 image.img.rowSize 1 (fun imageX _ => do
      let a ← onImg (readC image.img.data imageX)
      vecAdd a.toNat 1) (image.start image.img.cc) r.1 r.2 ()
  else
    rowLoop1 image.img.rowSize image.img.cc (fun imageX _ =>
      fold (fun colorChannel _ => do
        let a ← onImg (readC image.img.data (imageX + colorChannel))
        vecAdd (a.toNat * image.img.cc + colorChannel) 1) (List.range image.img.cc) ())
      (image.start image.img.cc) r.1 r.2 ()

/-- src/image_function.cpp 919-963 (histogram of the pixels selected by a mask). -/
def HistogramMask (image mask : View) (w h : Nat) : M VMem Unit := do
  validateRois [image, mask] w h
  let r := optimiseRoi w h [image.img, mask.img]
  vecReset (256 * image.img.cc)
  if image.img.cc == 1 then
    rowLoop2 image.img.rowSize 1 mask.img.rowSize 1 (fun imageX imageXMask _ => do
      let k ← onImg (readC mask.img.data imageXMask)
      if k > 0 then do
        let a ← onImg (readC image.img.data imageX)
        vecAdd a.toNat 1
      else pure ()) (image.start image.img.cc) (mask.start 1) r.1 r.2 ()
  else
    rowLoop2 image.img.rowSize image.img.cc mask.img.rowSize 1 (fun imageX imageXMask _ => do
      let k ← onImg (readC mask.img.data imageXMask)
      if k > 0 then
        fold (fun colorChannel _ => do
          let a ← onImg (readC image.img.data (imageX + colorChannel))
          vecAdd (a.toNat * image.img.cc + colorChannel) 1) (List.range image.img.cc) ()
      else pure ()) (image.start image.img.cc) (mask.start 1) r.1 r.2 ()

/-- src/image_function.cpp 1344-1385.  In the horizontal branch the outer loop runs over
    columns and the inner one down the rows, so the roles of the two lengths of `rowLoop2`
    are exchanged. -/
def ProjectionProfile (image : View) (w h : Nat) (horizontal : Bool) : M VMem Unit := do
  validateRois [image] w h
  vecReset (if horizontal then u32 (w * image.img.cc) else h)
  let body := fun (p data : Nat) (_ : Unit) => do
    let a ← onImg (readC image.img.data p)
    vecAdd data (UInt32.ofNat a.toNat)
  if horizontal then
    rowLoop2 1 image.img.rowSize 1 0 body (image.start image.img.cc) 0
      (u32 (h * image.img.rowSize)) (u32 (w * image.img.cc)) ()
  else
    rowLoop2 image.img.rowSize 1 1 0 body (image.start image.img.cc) 0
      (u32 (w * image.img.cc)) h ()

/-- src/image_function.cpp 1947-1969 -/
def Sum (image : View) (w h : Nat) : M BMem UInt32 := do
  validateRois [image] w h
  verifyGray [image.img]
  let r := optimiseRoi w h [image.img]
  rowLoop1 image.img.rowSize 1 (fun imageX sum => do
    let a ← readC image.img.data imageX
    pure (sum + UInt32.ofNat a.toNat)) (image.start 1) r.1 r.2 0

/-- src/image_function.cpp 1008-1024 -/
def IsBinary (image : View) (w h : Nat) : M BMem Bool := do
  validateRois [image] w h
  verifyGray [image.img]
  let histogram ← withVec (Histogram image w h)
  pure (decide ((histogram.filter fun v => decide (v > 0)).length < 3))

/-- src/image_function.cpp 1039-1068.  `return false` in the loop is the flag `ok = false`,
    after which the remaining rounds do nothing. -/
def IsEqual (in1 in2 : View) (w h : Nat) : M BMem Bool := do
  validateRois [in1, in2] w h
  checkCommonColorCount in1.img [in2.img]
  let r := optimiseRoi (u32 (w * in1.img.cc)) h [in1.img, in2.img]
  rowLoop2 in1.img.rowSize 1 in2.img.rowSize 1 (fun in1X in2X ok =>
    if ok then do
      let a ← readC in1.img.data in1X
      let b ← readC in2.img.data in2X
      pure (a == b)
    else pure false) (in1.start in1.img.cc) (in2.start in1.img.cc) r.1 r.2 true

/-- src/image_function.cpp 839-845 -/
def GetPixel (image : Image) (x y : Nat) : M BMem UInt8 := do
  throwIf (image.empty || decide (x ≥ image.width) || decide (y ≥ image.height) || image.cc != 1)
  readC image.data (u32 (y * image.rowSize) + x)

/-- src/image_function.cpp 1713-1719 -/
def SetPixel (image : Image) (x y : Nat) (value : UInt8) : M BMem Unit := do
  throwIf (image.empty || decide (x ≥ image.width) || decide (y ≥ image.height) || image.cc != 1)
  writeC image.data (u32 (y * image.rowSize) + x) value

/-- src/image_function.cpp 1721-1742 -/
def SetPixels (image : Image) (X Y : List Nat) (value : UInt8) : M BMem Unit := do
  throwIf (image.empty || X.isEmpty || X.length != Y.length || image.cc != 1)
  fold (fun p _ => do
    throwIf (decide (p.1 ≥ image.width) || decide (p.2 ≥ image.height))
    writeC image.data (u32 (p.2 * image.rowSize) + p.1) value) (X.zip Y) ()

/-! ### Lemmas -/

/-- A sequence of steps that only change the local value. -/
theorem fold_reads {m : μ} {body : ι → A → M μ A} {f : ι → A → A} (L : List ι) (a : A)
    (h : ∀ p ∈ L, ∀ a, body p a m = .ok (f p a) m) :
    fold body L a m = .ok (L.foldl (fun a p => f p a) a) m := by
  induction L generalizing a with
  | nil => rfl
  | cons p ps ih =>
    rw [fold_cons, bind_ok (h p (List.mem_cons_self ..) a)]
    exact ih _ fun q hq => h q (List.mem_cons_of_mem _ hq)

/-- `v[i] += n` on a list. Not in the code: for statements and proofs. -/
def bump (v : List UInt32) (i : Nat) (n : UInt32) : List UInt32 :=
  match v[i]? with
  | some x => v.set i (x + n)
  | none => v

theorem bump_length (v : List UInt32) (i : Nat) (n : UInt32) : (bump v i n).length = v.length := by
  unfold bump
  split <;> simp

theorem bump_get (v : List UInt32) (i k : Nat) (n : UInt32) :
    (bump v i n)[k]? = v[k]?.map fun x => x + (if i = k then n else 0) := by
  unfold bump
  split
  · rename_i x hx
    rw [List.getElem?_set]
    by_cases h : i = k
    · subst h
      have hl : i < v.length := by
        apply Classical.byContradiction
        intro hn
        rw [List.getElem?_eq_none (by omega)] at hx
        cases hx
      rw [if_pos rfl, if_pos hl, hx]
      simp
    · simp [h]
  · rename_i hx
    by_cases h : i = k
    · subst h
      rw [hx]
      rfl
    · simp [h]

theorem vecAdd_ok {m : BMem} {v : List UInt32} {i : Nat} (n : UInt32) (h : i < v.length) :
    vecAdd i n (m, v) = .ok () (m, bump v i n) := by
  rw [vecAdd, bump]
  simp only [List.getElem?_eq_getElem h]

/-- A sequence of steps adding `am p` to entry `ix p`. -/
theorem fold_bumps {m : BMem} {body : ι → Unit → M VMem Unit} {ix : ι → Nat} {am : ι → UInt32}
    (L : List ι) (v : List UInt32)
    (h : ∀ p ∈ L, ∀ u : List UInt32, u.length = v.length →
      body p () (m, u) = .ok () (m, bump u (ix p) (am p))) :
    fold body L () (m, v) = .ok () (m, L.foldl (fun u p => bump u (ix p) (am p)) v) := by
  induction L generalizing v with
  | nil => rfl
  | cons p ps ih =>
    rw [fold_cons, bind_ok (h p (List.mem_cons_self ..) v rfl)]
    exact ih _ fun q hq u hu => h q (List.mem_cons_of_mem _ hq) u (by rw [hu, bump_length])

theorem bumps_length {ix : ι → Nat} {am : ι → UInt32} (L : List ι) (v : List UInt32) :
    (L.foldl (fun u p => bump u (ix p) (am p)) v).length = v.length := by
  induction L generalizing v with
  | nil => rfl
  | cons p ps ih => rw [List.foldl_cons, ih, bump_length]

theorem bumps_get {ix : ι → Nat} {am : ι → Nat} (L : List ι) (v : List UInt32) (k : Nat) :
    (L.foldl (fun u p => bump u (ix p) (UInt32.ofNat (am p))) v)[k]?
      = v[k]?.map fun x => x + UInt32.ofNat ((L.map fun p => if ix p = k then am p else 0).sum) := by
  induction L generalizing v with
  | nil => simp
  | cons p ps ih =>
    rw [List.foldl_cons, ih, bump_get, Option.map_map, List.map_cons, List.sum_cons]
    congr 1
    funext x
    rw [Function.comp_apply, UInt32.ofNat_add, ← UInt32.add_assoc]
    congr 2
    split <;> rfl

theorem sum_map_zero (L : List ι) : (L.map fun _ => 0).sum = 0 := by
  induction L with
  | nil => rfl
  | cons a as ih => rw [List.map_cons, List.sum_cons, ih]

/-- Summation over a grid of contributions of one row. -/
theorem sum_grid_row (f : Nat × Nat → Nat) (h w k : Nat) (hk : k < h) :
    ((grid h w).map fun p => if p.1 = k then f p else 0).sum
      = ((List.range w).map fun i => f (k, i)).sum := by
  induction h with
  | zero => omega
  | succ h ih =>
    rw [grid, List.range_succ, List.flatMap_append, List.map_append, List.sum_append]
    have e : ((List.range h).flatMap fun j => (List.range w).map fun i => (j, i)) = grid h w := rfl
    rw [e]
    simp only [List.flatMap_cons, List.flatMap_nil, List.append_nil, List.map_map]
    by_cases hkh : k = h
    · subst hkh
      have z : ∀ L : List (Nat × Nat), (∀ p ∈ L, p.1 ≠ k) →
          (L.map fun p => if p.1 = k then f p else 0).sum = 0 := by
        intro L hL
        induction L with
        | nil => rfl
        | cons a as ih' =>
          rw [List.map_cons, List.sum_cons, if_neg (hL a (List.mem_cons_self ..)),
            ih' fun p hp => hL p (List.mem_cons_of_mem _ hp)]
      rw [z _ fun p hp => by have := (mem_grid.1 hp).1; omega, Nat.zero_add]
      congr 1
      refine List.map_congr_left fun i _ => ?_
      simp
    · rw [ih (by omega)]
      have : ((List.range w).map ((fun p : Nat × Nat => if p.1 = k then f p else 0) ∘ fun i => (h, i))).sum
          = 0 := by
        have : ((fun p : Nat × Nat => if p.1 = k then f p else 0) ∘ fun i => (h, i)) = fun _ => 0 := by
          funext i
          exact if_neg (fun hc => hkh hc.symm)
        rw [this, sum_map_zero]
      omega

/-- A counter that is incremented once per step. -/
theorem fold_counter {g : ι → Nat → M μ Unit} (L : List ι) (n : Nat) :
    fold (fun p v => g p v >>= fun _ => pure (v + 1)) L n
      = fold (fun p _ => g p.1 p.2) (L.zipIdx n) () >>= fun _ => pure (n + L.length) := by
  induction L generalizing n with
  | nil => rfl
  | cons p ps ih =>
    rw [List.zipIdx_cons, fold_cons, fold_cons, bind_assoc', bind_assoc']
    congr 1
    funext _
    rw [pure_bind', ih]
    congr 1
    funext _
    rw [List.length_cons]
    congr 1
    omega

theorem zipIdx_append' (L₁ L₂ : List ι) (n : Nat) :
    (L₁ ++ L₂).zipIdx n = L₁.zipIdx n ++ L₂.zipIdx (n + L₁.length) := List.zipIdx_append

theorem length_grid (h w : Nat) : (grid h w).length = h * w := by
  have := congrArg List.length (range_mul_eq_grid h w)
  rw [List.length_range, List.length_map] at this
  exact this.symm

theorem zipIdx_range_map (w n h : Nat) :
    ((List.range w).map fun i => (h, i)).zipIdx n = (List.range w).map fun i => ((h, i), n + i) := by
  induction w with
  | zero => rfl
  | succ w ih =>
    rw [List.range_succ, List.map_append, zipIdx_append', ih, List.map_append]
    simp

theorem zipIdx_grid (h w : Nat) :
    (grid h w).zipIdx 0 = (grid h w).map fun p => (p, p.1 * w + p.2) := by
  induction h with
  | zero => rfl
  | succ h ih =>
    have e : grid (h + 1) w = grid h w ++ (List.range w).map fun i => (h, i) := by
      rw [grid, List.range_succ, List.flatMap_append]
      simp only [List.flatMap_cons, List.flatMap_nil, List.append_nil]
      rfl
    rw [e, zipIdx_append', ih, List.map_append, List.map_map, length_grid, Nat.zero_add,
      zipIdx_range_map]
    rfl

/-- The grid contributes exactly once to each linear position. -/
theorem sum_grid_pos (f : Nat × Nat → Nat) (h w y x : Nat) (hy : y < h) (hx : x < w) :
    ((grid h w).map fun p => if p.1 * w + p.2 = y * w + x then f p else 0).sum = f (y, x) := by
  have e : ((grid h w).map fun p => if p.1 * w + p.2 = y * w + x then f p else 0)
      = (grid h w).map fun p => if p.1 = y then (if p.2 = x then f p else 0) else 0 := by
    refine List.map_congr_left fun p hp => ?_
    have hp2 := (mem_grid.1 hp).2
    by_cases h1 : p.1 * w + p.2 = y * w + x
    · obtain ⟨a, b⟩ := mul_add_inj hp2 hx h1
      rw [if_pos h1, if_pos a, if_pos b]
    · rw [if_neg h1]
      by_cases a : p.1 = y
      · rw [if_pos a]
        by_cases b : p.2 = x
        · rw [a, b] at h1
          exact absurd rfl h1
        · rw [if_neg b]
      · rw [if_neg a]
  rw [e, sum_grid_row _ h w y hy]
  clear e
  induction w with
  | zero => omega
  | succ w ih =>
    rw [List.range_succ, List.map_append, List.sum_append]
    by_cases hxw : x = w
    · subst hxw
      have z : ∀ n, n ≤ x → ((List.range n).map fun i => if i = x then f (y, i) else 0).sum = 0 := by
        intro n hn
        induction n with
        | zero => rfl
        | succ n ih' =>
          rw [List.range_succ, List.map_append, List.sum_append, ih' (by omega)]
          simp
          omega
      rw [z x (Nat.le_refl _)]
      simp
    · rw [ih (by omega)]
      simp
      omega

end PV
