import Verif.GpuAtomic
import Verif.CudaLemmas
import Verif.PropsReduce
/-
  Kernels that count and sum with atomic updates.
-/
namespace PV
open Props (One occurrences columnSum rowSum rowByte pixels)

/-- Only positions inside `W` by `H` do something. As `guarded`, for example src/cuda/image_function_cuda.cu 73. -/
def guardedA (W H : Nat) (body : Nat → Nat → AProg) (x y : Nat) : AProg := if x < W ∧ y < H then body x y else .ret

/-- `atomicAdd( &histogram[data[id]], 1 )`. src/cuda/image_function_cuda.cu 206, src/opencl/image_function_opencl.cpp 211. -/
def kernelHistogram (a : Addr) (x y : Nat) : AProg :=
  .read (a x y).1 (a x y).2 fun v => .atomic ⟨.add, v.toNat, 1⟩ .ret

/-- `atomicAnd( isEqual, static_cast<uint32_t>( in1[..] == in2[..] ) )` -/
def kernelAllEqual (a1 a2 : Addr) (x y : Nat) : AProg :=
  .read (a1 x y).1 (a1 x y).2 fun p => .read (a2 x y).1 (a2 x y).2 fun q => .atomic ⟨.and, 0, if p = q then 1 else 0⟩ .ret

/-- `if ( out[..] != in[..] ) atomic_add( nonEqualCount, 1 )`.
    src/cuda/image_function_cuda.cu 227, src/opencl/image_function_opencl.cpp 243. -/
def kernelCountDiff (a1 a2 : Addr) (x y : Nat) : AProg :=
  .read (a2 x y).1 (a2 x y).2 fun q => .read (a1 x y).1 (a1 x y).2 fun p => if q ≠ p then .atomic ⟨.add, 0, 1⟩ .ret else .ret

/-- `atomicAdd( &projection[x], (*imageX) )`, or with `y`.
    src/cuda/image_function_cuda.cu 277, 288, src/opencl/image_function_opencl.cpp 293, 304. -/
def kernelProjection (horizontal : Bool) (a : Addr) (x y : Nat) : AProg :=
  .read (a x y).1 (a x y).2 fun v => .atomic ⟨.add, if horizontal then x else y, UInt32.ofNat v.toNat⟩ .ret

/-! ### Sums -/

theorem on_bump (i : Nat) (n : UInt32) (vec : List UInt32) : Update.on ⟨.add, i, n⟩ vec = bump vec i n := by
  apply List.ext_getElem?
  intro k
  rw [bump_get]
  show (vec.modify i fun c => c + n)[k]? = _
  rw [List.getElem?_modify]
  by_cases h : i = k
  · simp [h]
  · simp [h]

theorem all_bumps {ι : Type} (L : List ι) (ix : ι → Nat) (am : ι → UInt32) (vec : List UInt32) :
    Update.all (L.flatMap fun p => [⟨.add, ix p, am p⟩]) vec = L.foldl (fun u p => bump u (ix p) (am p)) vec := by
  induction L generalizing vec with
  | nil => rfl
  | cons p L ih =>
    show Update.all (L.flatMap fun p => [⟨.add, ix p, am p⟩]) (Update.on ⟨.add, ix p, am p⟩ vec) = _
    rw [ih, on_bump]
    rfl

section
variable {β : Type} {L : ALaunch β} {m : BMem} {w h : Nat}

theorem byte_valid {v : View} (wf : v.img.WF m) (fit : v.Fits w h) {a : Addr} {W H cc : Nat} {pm : PosMap W H w h cc} (hcc : v.img.cc = cc)
    (ha : a.Of v pm) {X Y : Nat} (hX : X < W) (hY : Y < H) :
    m.Valid (a X Y).1 (a X Y).2 ∧ m.byte (a X Y).1 (a X Y).2 = v.get m (pm.pos X Y).1 (pm.pos X Y).2.1 (pm.pos X Y).2.2 := by
  obtain ⟨p1, p2, p3⟩ := pm.posIn X Y hX hY
  rw [ha X Y hX hY]
  exact ⟨View.cell_valid wf fit p1 p2 (by rw [hcc]; exact p3), rfl⟩

theorem histogram_always {v : View} (o : One m v w h) (g : v.img.cc = 1) (hL : L.Covers w h) {a : Addr}
    (ha : a.Of v (PosMap.pixels w h v.img.cc g)) (hk : L.kernel = guardedA w h (kernelHistogram a)) (hv : L.vec = List.replicate 256 0) :
    L.Always m fun r => ∃ hist, r = L.result hist ∧ hist.length = 256 ∧
      ∀ k, k < 256 → hist[k]? = some (UInt32.ofNat (occurrences m v w h (UInt8.ofNat k))) := by
  have A := ALaunch.always (m := m) hL (A := fun X Y => [⟨.add, (v.get m X Y 0).toNat, UInt32.ofNat 1⟩]) (fun _ => .add)
    (fun X Y hn => by rw [hk, guardedA, if_neg hn])
    (fun X Y hX hY => by
      obtain ⟨h1, h2⟩ := byte_valid o.wf o.fit rfl ha hX hY
      rw [hk, guardedA, if_pos ⟨hX, hY⟩, kernelHistogram, AProg.acts, if_pos h1, h2, AProg.acts, if_pos]
      · rfl
      · rw [hv, List.length_replicate]
        exact UInt8.toNat_lt _)
    (fun X Y _ _ u hu => by rw [List.mem_singleton.1 hu])
  refine A.mono fun r hr => ⟨_, hr, ?_, ?_⟩
  · rw [hv, all_bumps _ (fun p : Nat × Nat => (v.get m p.2 p.1 0).toNat) (fun _ => UInt32.ofNat 1), bumps_length, List.length_replicate]
  · intro k hk
    rw [hv, all_bumps _ (fun p : Nat × Nat => (v.get m p.2 p.1 0).toNat) (fun _ => UInt32.ofNat 1), bumps_get (am := fun _ => 1),
      List.getElem?_replicate, if_pos hk, Option.map_some, UInt32.zero_add, occurrences, ← Props.sum_ite_count _ _ hk, pixels, List.map_map]
    rfl

theorem sum_grid_col (W H : Nat) (f : Nat → Nat → Nat) (k : Nat) (hk : k < W) :
    ((grid H W).map fun p => if p.2 = k then f p.1 p.2 else 0).sum = ((List.range H).map fun y => f y k).sum := by
  have : ∀ l : List Nat, ((l.flatMap fun y => (List.range W).map fun x => (y, x)).map fun p : Nat × Nat => if p.2 = k then f p.1 p.2 else 0).sum
      = (l.map fun y => f y k).sum := by
    intro l
    induction l with
    | nil => rfl
    | cons y l ih =>
      rw [List.flatMap_cons, List.map_append, List.sum_append, ih, List.map_cons, List.sum_cons, List.map_map]
      congr 1
      have : ∀ n, (((List.range n).map ((fun p : Nat × Nat => if p.2 = k then f p.1 p.2 else 0) ∘ fun x => (y, x))).sum)
          = if k < n then f y k else 0 := by
        intro n
        induction n with
        | zero => rfl
        | succ n ih =>
          rw [List.range_succ, List.map_append, List.sum_append, ih, List.map_singleton, List.sum_singleton, Function.comp_apply]
          by_cases h1 : n = k
          · subst h1; simp
          · simp only [if_neg h1]
            by_cases h2 : k < n
            · rw [if_pos h2, if_pos (by omega)]; omega
            · rw [if_neg h2, if_neg (by omega)]
      rw [this, if_pos hk]
  exact this _

theorem bytes_pos {v : View} {h0 : 0 < v.img.cc} (X Y : Nat) :
    v.get m ((PosMap.bytes w h v.img.cc h0).pos X Y).1 ((PosMap.bytes w h v.img.cc h0).pos X Y).2.1
      ((PosMap.bytes w h v.img.cc h0).pos X Y).2.2 = rowByte m v Y X := rfl

theorem projection_acts {v : View} {hor : Bool} (o : One m v w h) {h0 : 0 < v.img.cc} {a : Addr} {n : Nat}
    (ha : a.Of v (PosMap.bytes w h v.img.cc h0)) {X Y : Nat} (hX : X < w * v.img.cc) (hY : Y < h) (hn : (if hor then X else Y) < n) :
    (kernelProjection hor a X Y).acts m n = some [⟨.add, if hor then X else Y, UInt32.ofNat (rowByte m v Y X).toNat⟩] := by
  obtain ⟨h1, h2⟩ := byte_valid o.wf o.fit rfl ha hX hY
  rw [kernelProjection, AProg.acts, if_pos h1, h2, AProg.acts, if_pos hn]
  rfl

theorem projection_horizontal {v : View} (o : One m v w h) (hL : L.Covers (w * v.img.cc) h) {h0 : 0 < v.img.cc} {a : Addr}
    (ha : a.Of v (PosMap.bytes w h v.img.cc h0)) (hk : L.kernel = guardedA (w * v.img.cc) h (kernelProjection true a))
    (hv : L.vec = List.replicate (w * v.img.cc) 0) :
    L.Always m fun r => ∃ prof, r = L.result prof ∧ prof.length = w * v.img.cc ∧
      ∀ k, k < w * v.img.cc → prof[k]? = some (UInt32.ofNat (columnSum m v h k)) := by
  have A := ALaunch.always (m := m) hL (A := fun X Y => [⟨.add, X, UInt32.ofNat (rowByte m v Y X).toNat⟩]) (fun _ => .add)
    (fun X Y hn => by rw [hk, guardedA, if_neg hn])
    (fun X Y hX hY => by
      rw [hk, guardedA, if_pos ⟨hX, hY⟩, projection_acts o ha hX hY (by rw [hv, List.length_replicate]; exact hX)]
      rfl)
    (fun X Y _ _ u hu => by rw [List.mem_singleton.1 hu])
  refine A.mono fun r hr => ⟨_, hr, ?_, ?_⟩
  · rw [hv, all_bumps _ (fun p : Nat × Nat => p.2) (fun p => UInt32.ofNat (rowByte m v p.1 p.2).toNat), bumps_length, List.length_replicate]
  · intro k hk
    rw [hv, all_bumps _ (fun p : Nat × Nat => p.2) (fun p => UInt32.ofNat (rowByte m v p.1 p.2).toNat),
      bumps_get (am := fun p : Nat × Nat => (rowByte m v p.1 p.2).toNat), List.getElem?_replicate, if_pos hk, Option.map_some,
      UInt32.zero_add, sum_grid_col _ _ (fun y x => (rowByte m v y x).toNat) _ hk]
    rfl

theorem projection_vertical {v : View} (o : One m v w h) (hL : L.Covers (w * v.img.cc) h) {h0 : 0 < v.img.cc} {a : Addr}
    (ha : a.Of v (PosMap.bytes w h v.img.cc h0)) (hk : L.kernel = guardedA (w * v.img.cc) h (kernelProjection false a))
    (hv : L.vec = List.replicate h 0) :
    L.Always m fun r => ∃ prof, r = L.result prof ∧ prof.length = h ∧
      ∀ y, y < h → prof[y]? = some (UInt32.ofNat (rowSum m v (w * v.img.cc) y)) := by
  have A := ALaunch.always (m := m) hL (A := fun X Y => [⟨.add, Y, UInt32.ofNat (rowByte m v Y X).toNat⟩]) (fun _ => .add)
    (fun X Y hn => by rw [hk, guardedA, if_neg hn])
    (fun X Y hX hY => by
      rw [hk, guardedA, if_pos ⟨hX, hY⟩, projection_acts o ha hX hY (by rw [hv, List.length_replicate]; exact hY)]
      rfl)
    (fun X Y _ _ u hu => by rw [List.mem_singleton.1 hu])
  refine A.mono fun r hr => ⟨_, hr, ?_, ?_⟩
  · rw [hv, all_bumps _ (fun p : Nat × Nat => p.1) (fun p => UInt32.ofNat (rowByte m v p.1 p.2).toNat), bumps_length, List.length_replicate]
  · intro k hk
    rw [hv, all_bumps _ (fun p : Nat × Nat => p.1) (fun p => UInt32.ofNat (rowByte m v p.1 p.2).toNat),
      bumps_get (am := fun p : Nat × Nat => (rowByte m v p.1 p.2).toNat), List.getElem?_replicate, if_pos hk, Option.map_some,
      UInt32.zero_add, sum_grid_row _ _ _ _ hk]
    rfl

/-! ### Comparison -/

theorem all_equal_bytes {in1 in2 : View} (cc : in2.img.cc = in1.img.cc) (hcc : 0 < in1.img.cc) :
    (∀ p ∈ grid h (w * in1.img.cc), rowByte m in1 p.1 p.2 = rowByte m in2 p.1 p.2) ↔
      ∀ x y c, x < w → y < h → c < in1.img.cc → in1.get m x y c = in2.get m x y c := by
  constructor
  · intro hall x y c hx hy hc
    have := hall (y, x * in1.img.cc + c) (mem_grid.2 ⟨hy, mul_add_lt hx hc⟩)
    have d1 : (x * in1.img.cc + c) / in1.img.cc = x := by
      rw [Nat.mul_comm, Nat.mul_add_div hcc, Nat.div_eq_of_lt hc, Nat.add_zero]
    have d2 : (x * in1.img.cc + c) % in1.img.cc = c := by
      rw [Nat.mul_comm, Nat.mul_add_mod, Nat.mod_eq_of_lt hc]
    simp only [rowByte, cc, d1, d2] at this
    exact this
  · intro hall p hp
    obtain ⟨hp1, hp2⟩ := mem_grid.1 hp
    simp only [rowByte, cc]
    exact hall _ _ _ (Nat.div_lt_of_lt_mul (by rw [Nat.mul_comm]; exact hp2)) hp1 (Nat.mod_lt _ hcc)

theorem all_and {ι : Type} (T : List ι) (P : ι → Prop) [DecidablePred P] (b : Bool) :
    Update.all (T.flatMap fun p => [⟨.and, 0, if P p then 1 else 0⟩]) [if b then 1 else 0] = [if b && decide (∀ p ∈ T, P p) then 1 else 0] := by
  induction T generalizing b with
  | nil => simp [Update.all]
  | cons p T ih =>
    show Update.all (T.flatMap fun p => [⟨.and, 0, if P p then 1 else 0⟩]) [(if b then 1 else 0) &&& (if P p then 1 else 0)] = _
    have e : (((if b then 1 else 0) &&& (if P p then 1 else 0)) : UInt32) = if (b && decide (P p)) then 1 else 0 := by
      cases b <;> by_cases h : P p <;> simp [h]
    rw [e, ih]
    congr 1
    simp only [List.forall_mem_cons, Bool.decide_and, Bool.and_assoc]

theorem allEqual_always {in1 in2 : View} (o1 : One m in1 w h) (o2 : One m in2 w h) (cc : in2.img.cc = in1.img.cc)
    (hL : L.Covers (w * in1.img.cc) h) {h0 : 0 < in1.img.cc} {a1 a2 : Addr}
    (ha1 : a1.Of in1 (PosMap.bytes w h in1.img.cc h0)) (ha2 : a2.Of in2 (PosMap.bytes w h in1.img.cc h0))
    (hk : L.kernel = guardedA (w * in1.img.cc) h (kernelAllEqual a1 a2)) (hv : L.vec = [1]) :
    L.Always m fun r => ∃ e, r = L.result [e] ∧
      (e ≠ 0 ↔ ∀ x y c, x < w → y < h → c < in1.img.cc → in1.get m x y c = in2.get m x y c) := by
  have eb : ∀ X Y, in2.get m ((PosMap.bytes w h in1.img.cc h0).pos X Y).1 ((PosMap.bytes w h in1.img.cc h0).pos X Y).2.1
      ((PosMap.bytes w h in1.img.cc h0).pos X Y).2.2 = rowByte m in2 Y X := fun X Y => by
    show in2.get m (X / in1.img.cc) Y (X % in1.img.cc) = in2.get m (X / in2.img.cc) Y (X % in2.img.cc)
    rw [cc]
  have A := ALaunch.always (m := m) hL (A := fun X Y => [⟨.and, 0, if rowByte m in1 Y X = rowByte m in2 Y X then 1 else 0⟩]) (fun _ => .and)
    (fun X Y hn => by rw [hk, guardedA, if_neg hn])
    (fun X Y hX hY => by
      obtain ⟨h1, h2⟩ := byte_valid o1.wf o1.fit rfl ha1 hX hY
      obtain ⟨h3, h4⟩ := byte_valid o2.wf o2.fit cc ha2 hX hY
      rw [hk, guardedA, if_pos ⟨hX, hY⟩, kernelAllEqual, AProg.acts, if_pos h1, h2, AProg.acts, if_pos h3, h4, eb, AProg.acts, if_pos]
      · rfl
      · rw [hv]; exact Nat.one_pos)
    (fun X Y _ _ u hu => by rw [List.mem_singleton.1 hu])
  refine A.mono fun r hr => ?_
  rw [hv, show ([1] : List UInt32) = [if true then 1 else 0] from rfl,
    all_and _ (fun p : Nat × Nat => rowByte m in1 p.1 p.2 = rowByte m in2 p.1 p.2)] at hr
  refine ⟨_, hr, ?_⟩
  rw [← all_equal_bytes cc h0, Bool.true_and]
  by_cases hall : ∀ p ∈ grid h (w * in1.img.cc), rowByte m in1 p.1 p.2 = rowByte m in2 p.1 p.2
  · rw [decide_eq_true hall]
    exact ⟨fun _ => hall, fun _ => by decide⟩
  · rw [decide_eq_false hall]
    exact ⟨fun h => absurd rfl h, fun h => absurd h hall⟩

theorem all_count {ι : Type} (T : List ι) (P : ι → Prop) [DecidablePred P] (n : UInt32) :
    Update.all (T.flatMap fun p => if P p then [⟨.add, 0, 1⟩] else []) [n] = [n + UInt32.ofNat (T.countP fun p => decide (P p))] := by
  induction T generalizing n with
  | nil =>
    show [n] = [n + 0]
    rw [UInt32.add_zero]
  | cons p T ih =>
    rw [List.flatMap_cons]
    by_cases h : P p
    · rw [if_pos h]
      show Update.all (T.flatMap fun p => if P p then [⟨.add, 0, 1⟩] else []) [n + 1] = _
      rw [ih, List.countP_cons_of_pos (by simpa using h), UInt32.ofNat_add, UInt32.add_comm (UInt32.ofNat _), ← UInt32.add_assoc]
      rfl
    · rw [if_neg h, List.nil_append, ih, List.countP_cons_of_neg (by simpa using h)]

theorem countDiff_always {in1 in2 : View} (o1 : One m in1 w h) (o2 : One m in2 w h) (cc : in2.img.cc = in1.img.cc)
    (hL : L.Covers (w * in1.img.cc) h) {h0 : 0 < in1.img.cc} {a1 a2 : Addr}
    (ha1 : a1.Of in1 (PosMap.bytes w h in1.img.cc h0)) (ha2 : a2.Of in2 (PosMap.bytes w h in1.img.cc h0))
    (hk : L.kernel = guardedA (w * in1.img.cc) h (kernelCountDiff a1 a2)) (hv : L.vec = [0]) :
    L.Always m fun r => ∃ e, r = L.result [e] ∧
      (e = 0 ↔ ∀ x y c, x < w → y < h → c < in1.img.cc → in1.get m x y c = in2.get m x y c) := by
  have eb : ∀ X Y, in2.get m ((PosMap.bytes w h in1.img.cc h0).pos X Y).1 ((PosMap.bytes w h in1.img.cc h0).pos X Y).2.1
      ((PosMap.bytes w h in1.img.cc h0).pos X Y).2.2 = rowByte m in2 Y X := fun X Y => by
    show in2.get m (X / in1.img.cc) Y (X % in1.img.cc) = in2.get m (X / in2.img.cc) Y (X % in2.img.cc)
    rw [cc]
  have A := ALaunch.always (m := m) hL (A := fun X Y => if rowByte m in2 Y X ≠ rowByte m in1 Y X then [⟨.add, 0, 1⟩] else []) (fun _ => .add)
    (fun X Y hn => by rw [hk, guardedA, if_neg hn])
    (fun X Y hX hY => by
      obtain ⟨h1, h2⟩ := byte_valid o1.wf o1.fit rfl ha1 hX hY
      obtain ⟨h3, h4⟩ := byte_valid o2.wf o2.fit cc ha2 hX hY
      rw [hk, guardedA, if_pos ⟨hX, hY⟩, kernelCountDiff, AProg.acts, if_pos h3, h4, eb, AProg.acts, if_pos h1, h2, bytes_pos]
      by_cases hd : rowByte m in2 Y X ≠ rowByte m in1 Y X
      · rw [if_pos hd, if_pos hd, AProg.acts, if_pos]
        · rfl
        · rw [hv]; exact Nat.one_pos
      · rw [if_neg hd, if_neg hd]
        rfl)
    (fun X Y _ _ u hu => by
      split at hu
      · rw [List.mem_singleton.1 hu]
      · exact absurd hu List.not_mem_nil)
  refine A.mono fun r hr => ?_
  rw [hv, all_count _ (fun p : Nat × Nat => rowByte m in2 p.1 p.2 ≠ rowByte m in1 p.1 p.2), UInt32.zero_add] at hr
  refine ⟨_, hr, ?_⟩
  rw [← all_equal_bytes cc h0]
  have hsmall : (grid h (w * in1.img.cc)).countP (fun p => decide (rowByte m in2 p.1 p.2 ≠ rowByte m in1 p.1 p.2)) < 4294967296 := by
    obtain ⟨_, _, _, _, _, h6, _, _, _, h10⟩ := View.facts o1.wf o1.fit
    refine Nat.lt_of_le_of_lt List.countP_le_length ?_
    rw [length_grid]
    have : h * (w * in1.img.cc) ≤ h * in1.img.rowSize := Nat.mul_le_mul_left _ (by omega)
    omega
  have e0 : ∀ n, n < 4294967296 → (UInt32.ofNat n = 0 ↔ n = 0) := by
    intro n hn
    constructor
    · intro e
      have := congrArg UInt32.toNat e
      rw [UInt32.toNat_ofNat', Nat.mod_eq_of_lt hn] at this
      exact this
    · rintro rfl; rfl
  rw [e0 _ hsmall, List.countP_eq_zero]
  constructor
  · intro hall p hp
    have := hall p hp
    simp only [ne_eq, decide_not, Bool.not_eq_true', decide_eq_false_iff_not, Decidable.not_not] at this
    exact this.symm
  · intro hall p hp
    rw [hall p hp]
    simp

end
end PV
