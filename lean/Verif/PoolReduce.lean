import Verif.PoolCalls
import Verif.PropsReduce
/-
  Pooled Sum, Histogram, ProjectionProfile and IsEqual (src/function_pool.cpp): every task
  computes the value of its tile, the calling thread puts the values together afterwards.

  The results of the tasks are the entries of the vectors of `OutputInfo`: task `i` writes
  entry `i` only, so here the result of a task is simply the value it returns.
-/
namespace PV

open Props (Pair One)

variable {μ A B Γ : Type}

/-! ### Putting the results together: `OutputInfo`, src/function_pool.cpp 44-149 -/

/-- `OutputInfo::getSum`, src/function_pool.cpp 92-105 -/
def getSum (sum : List UInt32) : M μ UInt32 := do
  throwIf sum.isEmpty
  pure (sum.foldl (fun total value => total + value) 0)

/-- `OutputInfo::isEqual`, src/function_pool.cpp 107-124 -/
def getEqual (equality : List Bool) : M μ Bool := do
  throwIf equality.isEmpty
  pure (equality.all fun value => value)

/-- `OutputInfo::_getArray`, src/function_pool.cpp 127-148; adding `in` to `out` entry by
    entry is `zipWith` because the sizes have been compared. -/
def getArray (input : List (List UInt32)) : M μ (List UInt32) :=
  match input with
  | [] => throwE
  | front :: rest => do
    throwIf ((front :: rest).any fun v => v.length != front.length)
    pure (rest.foldl (fun out inp => List.zipWith (fun a b => a + b) out inp) front)

/-- `OutputInfo::getProjection`, src/function_pool.cpp 64-90; `n` is the size of the vector
    of the caller. -/
def getProjection (n : Nat) (projection : List (List UInt32)) : M μ (List UInt32) :=
  match projection with
  | [] => throwE
  | front :: rest =>
    if n = front.length then getArray (front :: rest)
    else do
      throwIf (n != ((front :: rest).map List.length).sum)
      pure ((front :: rest).flatMap fun v => v)

/-! ### Accesses -/

/-- src/function_pool.cpp 455-458, 486-489, 508-511. -/
def ptask1 (G : View → Nat → Nat → Prog UInt8 A) (v : View) (a : List Tile) (i : Nat) : Prog UInt8 A := do
  let t ← Prog.orUb a[i]?
  G (v.at t) t.w t.h

/-- The accesses of `Sum`. src/image_function.cpp 1947-1969. -/
def progSum (v : View) (w h : Nat) : Prog UInt8 UInt32 :=
  Prog.fold (fun p s => do
    let a ← Prog.load v.img.data (v.cell p.2 p.1 0)
    Prog.ret (s + UInt32.ofNat a.toNat)) (grid h w) 0

/-- The accesses of `IsEqual`. src/image_function.cpp 1039-1068. -/
def progEqual (in1 in2 : View) (w h : Nat) : Prog UInt8 Bool :=
  Prog.fold (fun p ok =>
    if ok then do
      let a ← Prog.load in1.img.data (in1.cell (p.2 / in1.img.cc) p.1 (p.2 % in1.img.cc))
      let b ← Prog.load in2.img.data (in2.cell (p.2 / in2.img.cc) p.1 (p.2 % in2.img.cc))
      Prog.ret (a == b)
    else Prog.ret false) (grid h (w * in1.img.cc)) true

/-- The accesses of `Histogram` for one colour channel. src/image_function.cpp 867-902. -/
def progHistogram (v : View) (w h : Nat) : Prog UInt8 (List UInt32) :=
  Prog.fold (fun p u => do
    let a ← Prog.load v.img.data (v.cell p.2 p.1 0)
    Prog.ret (bump u a.toNat 1)) (grid h w) (List.replicate 256 0)

/-- The accesses of `ProjectionProfile`; the horizontal profile goes down the columns. src/image_function.cpp 1344-1385. -/
def progProjection (horizontal : Bool) (v : View) (w h : Nat) : Prog UInt8 (List UInt32) :=
  if horizontal then
    Prog.fold (fun p u => do
      let a ← Prog.load v.img.data (v.cell (p.1 / v.img.cc) p.2 (p.1 % v.img.cc))
      Prog.ret (bump u p.1 (UInt32.ofNat a.toNat))) (grid (w * v.img.cc) h) (List.replicate (w * v.img.cc) 0)
  else
    Prog.fold (fun p u => do
      let a ← Prog.load v.img.data (v.cell (p.2 / v.img.cc) p.1 (p.2 % v.img.cc))
      Prog.ret (bump u p.1 (UInt32.ofNat a.toNat))) (grid h (w * v.img.cc)) (List.replicate h 0)

/-! ### The claim -/

/-- What a pooled call that computes a value must do, compared with the single-threaded call
    `single`: as `PooledLike`, and when all tasks have returned, the values they returned are
    put together to the value of `single`; no memory is changed. Not in the code: for statements and proofs. -/
def PooledValue (threads : Nat) (setup : M BMem Γ) (count : Γ → Nat) (body : Γ → Nat → M BMem A)
    (prog : Γ → Nat → Prog UInt8 A) (collect : List A → M BMem B) (single : M BMem B) (m : BMem) : Prop :=
  ∃ a k b, setup m = .ok a m ∧ count a = k ∧ 0 < k ∧ k ≤ threads ∧
    (∀ i, i < k → ∀ m₁ : BMem, m₁.size = m.size → (prog a i).run m₁ = body a i m₁) ∧
    single m = .ok b m ∧
    (∀ σ : List (Fin k),
      ((⟨m, fun i => prog a i⟩ : Sys UInt8 A (Fin k)).exec σ).NoError ∧
      ∀ v, ((⟨m, fun i => prog a i⟩ : Sys UInt8 A (Fin k)).exec σ).Returned v →
        ((⟨m, fun i => prog a i⟩ : Sys UInt8 A (Fin k)).exec σ).mem = m ∧
        collect (List.ofFn v) m = .ok b m) ∧
    ∃ σ : List (Fin k), ∃ v, ((⟨m, fun i => prog a i⟩ : Sys UInt8 A (Fin k)).exec σ).Returned v

/-- From the tiles to the claim. -/
theorem pooledValue_of {m : BMem} {L : List Tile} {n : Nat} (hk : 0 < L.length) (hkn : L.length ≤ n)
    {setup : M BMem Γ} {count : Γ → Nat} {body : Γ → Nat → M BMem A} {prog : Γ → Nat → Prog UInt8 A}
    {collect : List A → M BMem B} {single : M BMem B} {a : Γ} {b : B}
    {Q : Tile → Prog UInt8 A} {C : Tile → M BMem A} {val : Tile → A}
    (hset : setup m = .ok a m) (hcount : count a = L.length)
    (hbody : ∀ i (hi : i < L.length), body a i = C L[i])
    (hprog : ∀ i (hi : i < L.length), prog a i = Q L[i])
    (htie : ∀ t ∈ L, ∀ m₁ : BMem, m₁.size = m.size → (Q t).run m₁ = C t m₁)
    (hfoot : ∀ t ∈ L, (Q t).Foot (fun _ => True) (fun _ => False))
    (hval : ∀ t ∈ L, C t m = .ok (val t) m)
    (hsingle : single m = .ok b m) (hcollect : collect (L.map val) m = .ok b m) :
    PooledValue n setup count body prog collect single m := by
  have e : (fun i : Fin L.length => prog a i) = fun i => Q L[i] := by
    funext i
    exact hprog i.1 i.2
  have key := fun σ : List (Fin L.length) =>
    interleave (m := m) (P := fun i : Fin L.length => Q L[i]) (R := fun _ _ => True) (W := fun _ _ => False)
      (fun i => hfoot _ (List.getElem_mem _)) (fun _ _ _ _ h => h.elim) (v := fun i => val L[i])
      (res := fun _ => m) (fun i => (htie _ (List.getElem_mem _) m rfl).trans (hval _ (List.getElem_mem _))) σ
  refine ⟨a, L.length, b, hset, hcount, hk, hkn, ?_, hsingle, ?_, ?_⟩
  · intro i hi m₁ hs
    rw [hprog i hi, hbody i hi]
    exact htie _ (List.getElem_mem _) m₁ hs
  · rw [e]
    intro σ
    obtain ⟨h1, h2, h3⟩ := key σ
    refine ⟨h1, fun v hv => ?_⟩
    obtain ⟨s1, _, s3⟩ := h3 ⟨v, hv⟩
    constructor
    · generalize ((⟨m, fun i => Q L[i]⟩ : Sys UInt8 A (Fin L.length)).exec σ).mem = mf at s1 s3
      cases mf with
      | mk sz by' =>
      cases m with
      | mk sz2 by2 =>
      simp only at s1 s3
      subst s1
      congr 1
      funext b k
      exact s3 b k fun _ h => h
    · have : v = fun i => val L[i] := funext fun i => h2 i _ (hv i)
      subst this
      have e2 : List.ofFn (fun i : Fin L.length => val L[i]) = L.map val := by
        apply List.ext_getElem
        · simp
        · intro i h1 h2
          simp
      rw [e2]
      exact hcollect
  · rw [e]
    obtain ⟨σ, hσ⟩ := Sys.finish (⟨m, fun i => Q L[i]⟩ : Sys UInt8 A (Fin L.length))
    refine ⟨σ, fun i => val L[i], fun i => ?_⟩
    obtain ⟨h1, h2, _⟩ := key σ
    have hd := hσ i
    have hn := h1 i
    have hr := h2 i
    revert hd hn hr
    cases ((⟨m, fun i => Q L[i]⟩ : Sys UInt8 A (Fin L.length)).exec σ).task i with
    | ret a => intro _ _ hr; rw [hr a rfl]
    | throw => intro _ hn; exact absurd rfl hn.1
    | ub => intro _ hn; exact absurd rfl hn.2
    | read b k c => intro hd; exact hd.elim
    | write b k v c => intro hd; exact hd.elim

/-! ### Tiles as lists of points -/

/-- The points of the tiles are the points of the rectangle. -/
theorem tiles_perm {L : List Tile} {w h : Nat} (hL : Tiling L 0 0 w h) :
    (L.flatMap fun t => (grid t.h t.w).map fun p => (t.y + p.1, t.x + p.2)).Perm (grid h w) := by
  have hn : (L.flatMap fun t => (grid t.h t.w).map fun p => (t.y + p.1, t.x + p.2)).Nodup := by
    rw [List.nodup_iff_pairwise_ne, List.pairwise_flatMap]
    constructor
    · intro t _
      refine nodup_map_inj (nodup_grid _ _) ?_
      intro a _ b _ hab
      have := Prod.mk.inj hab
      exact Prod.ext (by omega) (by omega)
    · rw [List.pairwise_iff_getElem]
      intro i j hi hj hij x hx y hy he
      subst he
      obtain ⟨p, hp, rfl⟩ := List.mem_map.1 hx
      obtain ⟨q, hq, e⟩ := List.mem_map.1 hy
      obtain ⟨p1, p2⟩ := mem_grid.1 hp
      obtain ⟨q1, q2⟩ := mem_grid.1 hq
      have e := Prod.mk.inj e
      exact hL.disjoint i j _ _ (List.getElem?_eq_getElem hi) (List.getElem?_eq_getElem hj) (by omega)
        (L[i].x + p.2) (L[i].y + p.1) ⟨by omega, by omega, by omega, by omega⟩
        ⟨by omega, by omega, by omega, by omega⟩
  rw [List.perm_ext_iff_of_nodup hn (nodup_grid _ _)]
  rintro ⟨y, x⟩
  rw [mem_grid, List.mem_flatMap]
  constructor
  · rintro ⟨t, ht, hx⟩
    obtain ⟨p, hp, e⟩ := List.mem_map.1 hx
    obtain ⟨p1, p2⟩ := mem_grid.1 hp
    have e := Prod.mk.inj e
    have := hL.inside t ht
    simp only
    omega
  · rintro ⟨hy, hx⟩
    simp only at hy hx
    obtain ⟨t, ht, hh⟩ := hL.cover x y (by omega) (by omega) (by omega) (by omega)
    unfold Tile.Has at hh
    refine ⟨t, ht, List.mem_map.2 ⟨(y - t.y, x - t.x), mem_grid.2 ⟨by simp only; omega, by simp only; omega⟩, ?_⟩⟩
    exact Prod.ext (by simp only; omega) (by simp only; omega)

/-- Sum over the tiles of the sums of each tile. -/
theorem tiles_sum {L : List Tile} {w h : Nat} (hL : Tiling L 0 0 w h) (f : Nat × Nat → Nat) :
    (L.map fun t => ((grid t.h t.w).map fun p => f (t.y + p.1, t.x + p.2)).sum).sum
      = ((grid h w).map f).sum := by
  rw [← ((tiles_perm hL).map f).sum_nat, List.map_flatMap]
  generalize L = L'
  induction L' with
  | nil => rfl
  | cons t ts ih =>
    rw [List.map_cons, List.sum_cons, List.flatMap_cons, List.sum_append_nat, ih, List.map_map]
    rfl

/-- Consecutive pieces of an interval. -/
theorem chunks {X : Type} {c : Nat → Nat} (h0 : c 0 = 0) (hmono : ∀ i, c i ≤ c (i + 1)) (F : Nat → X) (k : Nat) :
    ((List.range k).flatMap fun i => (List.range (c (i + 1) - c i)).map fun j => F (c i + j))
      = (List.range (c k)).map F := by
  induction k with
  | zero => simp [h0]
  | succ k ih =>
    rw [List.range_succ, List.flatMap_append, ih]
    simp only [List.flatMap_cons, List.flatMap_nil, List.append_nil]
    have : c (k + 1) = c k + (c (k + 1) - c k) := by have := hmono k; omega
    conv => rhs; rw [this, List.range_add, List.map_append, List.map_map]
    rfl

/-! ### Collecting -/

theorem sum_toNat (vals : List UInt32) (s : UInt32) :
    (vals.foldl (fun total value => total + value) s).toNat = (s.toNat + (vals.map UInt32.toNat).sum) % 2 ^ 32 := by
  induction vals generalizing s with
  | nil => simp [Nat.mod_eq_of_lt s.toNat_lt]
  | cons v vs ih =>
    rw [List.foldl_cons, ih, List.map_cons, List.sum_cons, UInt32.toNat_add]
    omega

theorem getSum_ok {m : μ} {vals : List UInt32} (h : 0 < vals.length) :
    getSum vals m = .ok (UInt32.ofNat (vals.map UInt32.toNat).sum) m := by
  have h0 : vals.isEmpty = false := by
    cases vals with
    | nil => simp at h
    | cons a as => rfl
  rw [getSum, h0, throwIf_false, pure_bind']
  have e : vals.foldl (fun total value => total + value) 0 = UInt32.ofNat (vals.map UInt32.toNat).sum := by
    apply UInt32.toNat_inj.1
    rw [sum_toNat, UInt32.toNat_ofNat']
    simp
  rw [e]
  rfl

theorem zipWith_get (a b : List UInt32) (hl : a.length = b.length) (k : Nat) :
    (List.zipWith (fun a b => a + b) a b)[k]? = a[k]?.map fun x => x + b.getD k 0 := by
  rw [List.getElem?_zipWith]
  by_cases hk : k < a.length
  · rw [List.getElem?_eq_getElem hk, List.getElem?_eq_getElem (by omega : k < b.length)]
    simp [List.getD_eq_getElem?_getD, List.getElem?_eq_getElem (by omega : k < b.length)]
  · rw [List.getElem?_eq_none (by omega), List.getElem?_eq_none (by omega)]
    rfl

/-- Adding vectors of the same size. -/
theorem getArray_ok {m : μ} {n : Nat} {T : List Tile} {val : Tile → List UInt32} {num : Tile → Nat → Nat}
    (hT : 0 < T.length)
    (hval : ∀ t ∈ T, (val t).length = n ∧ ∀ k, k < n → (val t)[k]? = some (UInt32.ofNat (num t k))) :
    getArray (T.map val) m
      = .ok ((List.range n).map fun k => UInt32.ofNat (T.map fun t => num t k).sum) m := by
  have key : ∀ (S : List Tile) (acc : List UInt32) (an : Nat → Nat), (∀ t ∈ S, t ∈ T) → acc.length = n →
      (∀ k, k < n → acc[k]? = some (UInt32.ofNat (an k))) →
      (S.map val).foldl (fun out inp => List.zipWith (fun a b => a + b) out inp) acc
        = (List.range n).map fun k => UInt32.ofNat (an k + (S.map fun t => num t k).sum) := by
    intro S
    induction S with
    | nil =>
      intro acc an _ hl hk
      apply List.ext_getElem?
      intro k
      simp only [List.map_nil, List.foldl_nil, List.sum_nil, Nat.add_zero]
      by_cases h : k < n
      · rw [hk k h, List.getElem?_map, List.getElem?_range h]
        rfl
      · rw [List.getElem?_eq_none (by omega), List.getElem?_eq_none (by simp; omega)]
    | cons t ts ih =>
      intro acc an hS hl hk
      obtain ⟨v1, v2⟩ := hval t (hS t (by simp))
      rw [List.map_cons, List.foldl_cons, ih _ (fun k => an k + num t k) (fun s hs => hS s (by simp [hs]))
        (by simp [hl, v1])]
      · simp [Nat.add_assoc]
      · intro k hk'
        rw [zipWith_get _ _ (by rw [hl, v1]), hk k hk', List.getD_eq_getElem?_getD, v2 k hk']
        simp [UInt32.ofNat_add]
  cases T with
  | nil => simp at hT
  | cons t ts =>
    have h0 : ((val t :: ts.map val).any fun v => v.length != (val t).length) = false := by
      rw [List.any_eq_false]
      intro v hv
      have : v ∈ (t :: ts).map val := by simpa using hv
      obtain ⟨s, hs, rfl⟩ := List.mem_map.1 this
      rw [(hval s hs).1, (hval t (by simp)).1]
      simp
    rw [List.map_cons, getArray, h0, throwIf_false, pure_bind']
    rw [key ts (val t) (num t) (fun s hs => by simp [hs]) (hval t (by simp)).1 (hval t (by simp)).2]
    simp only [List.map_cons, List.sum_cons]
    rfl

/-! ### Ties -/

/-- The outcome of a call with the vector as result. Not in the code: for statements and proofs. -/
def vecRes : Res VMem Unit → Res BMem (List UInt32)
  | .ok _ s => .ok s.2 s.1
  | .throw s => .throw s.1
  | .ub => .ub

theorem withVec_eq (x : M VMem Unit) (m : BMem) : withVec x m = vecRes (x (m, [])) := rfl

/-- Reading cells and adding to a vector: the caller's vector as state, or as local value. -/
theorem vec_tie {ι : Type} {m : BMem} {b : Nat} {ad : ι → Nat} {ix : ι → UInt8 → Nat} {am : UInt8 → UInt32}
    (L : List ι) (u : List UInt32) (hix : ∀ p ∈ L, ∀ a, ix p a < u.length) :
    vecRes (fold (fun p _ => do
        let a ← onImg (readC b (ad p))
        vecAdd (ix p a) (am a)) L () (m, u))
    = fold (fun p u => do
        let a ← readC b (ad p)
        pure (bump u (ix p a) (am a))) L u m := by
  induction L generalizing u with
  | nil => rfl
  | cons p ps ih =>
    rw [fold_cons, fold_cons]
    by_cases hv : m.Valid b (ad p)
    · have h1 : readC b (ad p) m = .ok (m.byte b (ad p)) m := readC_ok hv
      have h2 : (do
          let a ← onImg (readC b (ad p))
          vecAdd (ix p a) (am a) : M VMem Unit) (m, u)
          = .ok () (m, bump u (ix p (m.byte b (ad p))) (am (m.byte b (ad p)))) := by
        rw [bind_ok (onImg_ok h1)]
        exact vecAdd_ok _ (hix p (by simp) _)
      have h3 : (do
          let a ← readC b (ad p)
          pure (bump u (ix p a) (am a)) : M BMem _) m
          = .ok (bump u (ix p (m.byte b (ad p))) (am (m.byte b (ad p)))) m := by
        rw [bind_ok h1]
        rfl
      rw [bind_ok h2, bind_ok h3]
      exact ih _ fun q hq a => by rw [bump_length]; exact hix q (by simp [hq]) a
    · have h1 : readC b (ad p) m = .ub := by rw [readC, if_neg hv]
      have h2 : (do
          let a ← onImg (readC b (ad p))
          vecAdd (ix p a) (am a) : M VMem Unit) (m, u) = .ub := by
        refine bind_ub ?_
        rw [onImg, h1]
      have h3 : (do
          let a ← readC b (ad p)
          pure (bump u (ix p a) (am a)) : M BMem _) m = .ub := bind_ub h1
      rw [bind_ub h2, bind_ub h3]
      rfl

theorem progHistogram_tie {m : BMem} {v : View} {w h : Nat} (o : One m v w h) (cc : v.img.cc = 1) :
    (progHistogram v w h).run m = withVec (Histogram v w h) m := by
  obtain ⟨_, hr, _, _, _, hfit, _, _, hwcc, _⟩ := View.facts o.wf o.fit
  rw [cc] at hwcc
  rw [withVec_eq, Histogram, bind_ok (validate_on_ok (m := m) (vs := [v]) (by simp; exact ⟨o.wf, o.fit⟩))]
  simp only [cc, BEq.rfl, ↓reduceIte]
  have e := rowLoop1_opt (μ := VMem) (A := Unit) (row := v.img.rowSize) (step := 1)
    (body := fun imageX _ => do
      let a ← onImg (readC v.img.data imageX)
      vecAdd a.toNat 1) (pY := v.start 1) (n := w) (height := h) () (imgs := [v.img])
    ⟨v.img, by simp, rfl⟩ hr (by decide) hfit (by omega) o.fit.hpos
  rw [Nat.mul_one] at e
  rw [e,
    bind_ok (show vecReset 256 (m, []) = .ok () (m, List.replicate 256 0) from rfl)]
  rw [vec_tie (ix := fun (_ : Nat × Nat) a => a.toNat) (am := fun _ => 1) _ _ (by
    intro p _ a
    rw [List.length_replicate]
    exact a.toNat_lt), progHistogram, Prog.run_fold]
  simp only [Prog.run_bind, Prog.run_load, Prog.run]
  refine congrFun (fold_congr _ fun p hp => ?_) m
  funext u
  rw [View.cell_addr0 o.wf o.fit cc]

theorem rowCell {m : BMem} {v : View} {w h : Nat} (o : One m v w h) (y k : Nat) :
    v.start v.img.cc + y * v.img.rowSize + k = v.cell (k / v.img.cc) y (k % v.img.cc) := by
  have e := View.start_cell o.wf o.fit (k / v.img.cc) y (k % v.img.cc)
  rw [Nat.mul_comm (k / _), Nat.div_add_mod] at e
  exact e

theorem progProjection_tie {m : BMem} {v : View} {w h : Nat} (hor : Bool) (o : One m v w h) :
    (progProjection hor v w h).run m = withVec (ProjectionProfile v w h hor) m := by
  obtain ⟨hcc, hr, _, _, _, hfit, _, _, hwcc, _⟩ := View.facts o.wf o.fit
  rw [withVec_eq, ProjectionProfile, bind_ok (validate_on_ok (m := m) (vs := [v]) (by simp; exact ⟨o.wf, o.fit⟩))]
  cases hor with
  | true =>
    simp only [↓reduceIte]
    rw [u32_of_lt hwcc, u32_of_lt hfit]
    rw [rowLoop2_eq (n := h) (height := w * v.img.cc) () (by decide) hr (by omega) hfit,
      bind_ok (show vecReset (w * v.img.cc) (m, []) = .ok () (m, List.replicate (w * v.img.cc) 0) from rfl)]
    rw [vec_tie (ix := fun (p : Nat × Nat) _ => 0 + p.1 * 1 + p.2 * 0) (am := fun a => UInt32.ofNat a.toNat) _ _ (by
      intro p hp a
      have := (mem_grid.1 hp).1
      rw [List.length_replicate]
      omega), progProjection, if_pos rfl, Prog.run_fold]
    simp only [Prog.run_bind, Prog.run_load, Prog.run]
    refine congrFun (fold_congr _ fun p hp => ?_) m
    funext u
    have e : v.start v.img.cc + p.1 * 1 + p.2 * v.img.rowSize
        = v.start v.img.cc + p.2 * v.img.rowSize + p.1 := by omega
    have e2 : 0 + p.1 * 1 + p.2 * 0 = p.1 := by omega
    rw [e, rowCell o, e2]
  | false =>
    simp only [Bool.false_eq_true, ↓reduceIte]
    rw [u32_of_lt hwcc]
    have e := rowLoop2_eq (μ := VMem) (A := Unit) (row := v.img.rowSize) (step := 1) (row₁ := 1) (step₁ := 0)
      (body := fun (p data : Nat) (_ : Unit) => do
        let a ← onImg (readC v.img.data p)
        vecAdd data (UInt32.ofNat a.toNat)) (pY := v.start v.img.cc) (qY := 0)
      (n := w * v.img.cc) (height := h) () hr (by decide) hfit (by omega)
    rw [Nat.mul_one] at e
    rw [e, bind_ok (show vecReset h (m, []) = .ok () (m, List.replicate h 0) from rfl)]
    rw [vec_tie (ix := fun (p : Nat × Nat) _ => 0 + p.1 * 1 + p.2 * 0) (am := fun a => UInt32.ofNat a.toNat) _ _ (by
      intro p hp a
      have := (mem_grid.1 hp).1
      rw [List.length_replicate]
      omega), progProjection, if_neg (by decide), Prog.run_fold]
    simp only [Prog.run_bind, Prog.run_load, Prog.run]
    refine congrFun (fold_congr _ fun p hp => ?_) m
    funext u
    have e2 : 0 + p.1 * 1 + p.2 * 0 = p.1 := by omega
    rw [Nat.mul_one p.2, rowCell o, e2]

theorem progSum_tie {m : BMem} {v : View} {w h : Nat} (o : One m v w h) (cc : v.img.cc = 1) :
    (progSum v w h).run m = Sum v w h m := by
  obtain ⟨_, hr, _, _, _, hfit, _, _, hwcc, _⟩ := View.facts o.wf o.fit
  rw [cc] at hwcc
  rw [Sum, bind_ok (validate_on_ok (vs := [v]) (by simp; exact ⟨o.wf, o.fit⟩)),
    bind_ok (gray_ok (by simp [cc]))]
  have e := rowLoop1_opt (μ := BMem) (A := UInt32) (row := v.img.rowSize) (step := 1)
    (body := fun imageX sum => do
      let a ← readC v.img.data imageX
      pure (sum + UInt32.ofNat a.toNat)) (pY := v.start 1) (n := w) (height := h) 0 (imgs := [v.img])
    ⟨v.img, by simp, rfl⟩ hr (by decide) hfit (by omega) o.fit.hpos
  rw [Nat.mul_one] at e
  simp only [e]
  rw [progSum, Prog.run_fold]
  simp only [Prog.run_bind, Prog.run_load, Prog.run]
  refine congrFun (fold_congr _ fun p hp => ?_) m
  funext u
  rw [View.cell_addr0 o.wf o.fit cc]

theorem progEqual_tie {m : BMem} {in1 in2 : View} {w h : Nat} (o1 : One m in1 w h) (o2 : One m in2 w h)
    (cc : in2.img.cc = in1.img.cc) :
    (progEqual in1 in2 w h).run m = IsEqual in1 in2 w h m := by
  obtain ⟨hcc, hr, _, _, _, hfit, _, _, hwcc, hle⟩ := View.facts o1.wf o1.fit
  rw [IsEqual, bind_ok (validate_on_ok (m := m) (vs := [in1, in2])
      (by simp; exact ⟨⟨o1.wf, o1.fit⟩, o2.wf, o2.fit⟩)),
    bind_ok (common_ok (by simp [cc])), u32_of_lt hwcc]
  have e := rowLoop2_opt (μ := BMem) (A := Bool) (row := in1.img.rowSize) (row₁ := in2.img.rowSize) (step := 1)
    (body := fun in1X in2X ok =>
      if ok then do
        let a ← readC in1.img.data in1X
        let b ← readC in2.img.data in2X
        pure (a == b)
      else pure false) (pY := in1.start in1.img.cc) (qY := in2.start in1.img.cc)
    (n := w * in1.img.cc) (height := h) true (imgs := [in1.img, in2.img])
    ⟨in1.img, by simp, rfl⟩ ⟨in2.img, by simp, rfl⟩ hr (by decide) hfit (by omega) o1.fit.hpos
  rw [Nat.mul_one] at e
  simp only [e]
  rw [progEqual, Prog.run_fold]
  refine congrFun (fold_congr _ fun p hp => ?_) m
  funext u
  have r1 := rowCell o1 p.1 p.2
  have r2 := rowCell o2 p.1 p.2
  rw [cc] at r2
  cases u with
  | true =>
    simp only [↓reduceIte, Prog.run_bind, Prog.run_load, Prog.run, Nat.mul_one, r1, r2, cc]
  | false => rfl

end PV
