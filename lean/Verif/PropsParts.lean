import Verif.PropsLaws
import Mathlib.Data.List.Perm.Basic
/-
  C189: numbers of an image follow from those of its parts and from its histogram.
-/
namespace PV.Props
open PV.Laws

/-- The rectangle `k` columns to the right, and the one `k` rows below -/
def rightOf (v : View) (k : Nat) : View := ⟨v.img, v.x + k, v.y⟩
def belowOf (v : View) (k : Nat) : View := ⟨v.img, v.x, v.y + k⟩

theorem get_rightOf (v : View) (m : BMem) (k x y c : Nat) : (rightOf v k).get m x y c = v.get m (k + x) y c := by
  simp only [View.get, View.cell, rightOf, Nat.add_assoc]

theorem get_belowOf (v : View) (m : BMem) (k x y c : Nat) : (belowOf v k).get m x y c = v.get m x (k + y) c := by
  simp only [View.get, View.cell, belowOf, Nat.add_assoc]

theorem One.left {m : BMem} {v : View} {w1 w2 h : Nat} (o : One m v (w1 + w2) h) (h1 : 0 < w1) : One m v w1 h :=
  ⟨o.wf, o.fit.nonempty, o.fit.colors, h1, o.fit.hpos, by have := o.fit.inX; omega, o.fit.inY⟩

theorem One.right {m : BMem} {v : View} {w1 w2 h : Nat} (o : One m v (w1 + w2) h) (h2 : 0 < w2) : One m (rightOf v w1) w2 h :=
  ⟨o.wf, o.fit.nonempty, o.fit.colors, h2, o.fit.hpos, by show v.x + w1 + w2 ≤ v.img.width; have := o.fit.inX; omega, o.fit.inY⟩

theorem One.upper {m : BMem} {v : View} {w h1 h2 : Nat} (o : One m v w (h1 + h2)) (g1 : 0 < h1) : One m v w h1 :=
  ⟨o.wf, o.fit.nonempty, o.fit.colors, o.fit.wpos, g1, o.fit.inX, by have := o.fit.inY; omega⟩

theorem One.lower {m : BMem} {v : View} {w h1 h2 : Nat} (o : One m v w (h1 + h2)) (g2 : 0 < h2) : One m (belowOf v h1) w h2 :=
  ⟨o.wf, o.fit.nonempty, o.fit.colors, o.fit.wpos, g2, o.fit.inX, by show v.y + h1 + h2 ≤ v.img.height; have := o.fit.inY; omega⟩

theorem pixels_columns (m : BMem) (v : View) (w1 w2 h : Nat) :
    (pixels m v (w1 + w2) h).Perm (pixels m v w1 h ++ pixels m (rightOf v w1) w2 h) := by
  simp only [pixels, grid, List.map_flatMap, List.map_map]
  refine List.Perm.trans (List.Perm.of_eq ?_) (List.flatMap_append_perm _ _ _).symm
  refine congrArg (fun f => List.flatMap f (List.range h)) (funext fun y => ?_)
  rw [List.range_add, List.map_append, List.map_map]
  refine congrArg _ (List.map_congr_left fun x _ => ?_)
  exact (get_rightOf v m w1 x y 0).symm

theorem pixels_rows (m : BMem) (v : View) (w h1 h2 : Nat) :
    pixels m v w (h1 + h2) = pixels m v w h1 ++ pixels m (belowOf v h1) w h2 := by
  simp only [pixels, grid, List.map_flatMap, List.map_map]
  rw [List.range_add, List.flatMap_append, List.flatMap_map]
  refine congrArg _ (congrArg (fun f => List.flatMap f (List.range h2)) (funext fun y => List.map_congr_left fun x _ => ?_))
  exact (get_belowOf v m h1 x y 0).symm

theorem count_at {m : BMem} {u : View} {w h k : Nat} (ou : One m u w h) (hk : k < 256) :
    (((List.range 256).map fun k => UInt32.ofNat ((pixels m u w h).count (UInt8.ofNat k))).getD k 0).toNat = (pixels m u w h).count (UInt8.ofNat k) := by
  have e := congrArg (fun l : List Nat => l[k]?) (counts_toNat ou)
  simp only [List.getElem?_map, List.getElem?_range hk, Option.map_some, Option.some.injEq] at e
  simp only [List.getD, List.getElem?_map, List.getElem?_range hk, Option.map_some, Option.getD_some]
  exact e

/-- Numbers of three rectangles, the pixels of the first one being those of the two others -/
theorem numbers_add {m : BMem} {v a b : View} {w h wa ha wb hb : Nat} (o : One m v w h) (oa : One m a wa ha) (ob : One m b wb hb) (cv : v.img.cc = 1)
    (ca : a.img.cc = 1) (cb : b.img.cc = 1) (hp : (pixels m v w h).Perm (pixels m a wa ha ++ pixels m b wb hb)) (vec veca vecb : List UInt32) :
    ∃ hist hista histb s sa sb, Histogram v w h (m, vec) = .ok () (m, hist) ∧ Histogram a wa ha (m, veca) = .ok () (m, hista) ∧
      Histogram b wb hb (m, vecb) = .ok () (m, histb) ∧ Sum v w h m = .ok s m ∧ Sum a wa ha m = .ok sa m ∧ Sum b wb hb m = .ok sb m ∧
      hist.length = 256 ∧ hista.length = 256 ∧ histb.length = 256 ∧
      (∀ k, k < 256 → (hist.getD k 0).toNat = (hista.getD k 0).toNat + (histb.getD k 0).toNat) ∧ s = sa + sb := by
  obtain ⟨h1, s, h2, h3⟩ := numbers o cv vec
  obtain ⟨a1, sa, a2, a3⟩ := numbers oa ca veca
  obtain ⟨b1, sb, b2, b3⟩ := numbers ob cb vecb
  refine ⟨_, _, _, s, sa, sb, h1, a1, b1, h2, a2, b2, by simp, by simp, by simp, ?_, ?_⟩
  · intro k hk
    rw [count_at o hk, count_at oa hk, count_at ob hk, hp.count_eq, List.count_append]
  · apply UInt32.toNat_inj.1
    rw [UInt32.toNat_add, h3, a3, b3, (hp.map UInt8.toNat).sum_nat, List.map_append, List.sum_append]
    omega

/-- C189: the histogram and the sum of a rectangle are those of its left and its right part together. -/
theorem C189_columns {m : BMem} {v : View} {w1 w2 h : Nat} (o : One m v (w1 + w2) h) (cc : v.img.cc = 1) (h1 : 0 < w1) (h2 : 0 < w2)
    (vec veca vecb : List UInt32) :
    ∃ hist hista histb s sa sb, Histogram v (w1 + w2) h (m, vec) = .ok () (m, hist) ∧ Histogram v w1 h (m, veca) = .ok () (m, hista) ∧
      Histogram (rightOf v w1) w2 h (m, vecb) = .ok () (m, histb) ∧ Sum v (w1 + w2) h m = .ok s m ∧ Sum v w1 h m = .ok sa m ∧
      Sum (rightOf v w1) w2 h m = .ok sb m ∧ hist.length = 256 ∧ hista.length = 256 ∧ histb.length = 256 ∧
      (∀ k, k < 256 → (hist.getD k 0).toNat = (hista.getD k 0).toNat + (histb.getD k 0).toNat) ∧ s = sa + sb := by
  exact numbers_add o (o.left h1) (o.right h2) cc cc cc (pixels_columns m v w1 w2 h) vec veca vecb

/-- C189: the same for the upper and the lower part -/
theorem C189_rows {m : BMem} {v : View} {w h1 h2 : Nat} (o : One m v w (h1 + h2)) (cc : v.img.cc = 1) (g1 : 0 < h1) (g2 : 0 < h2)
    (vec veca vecb : List UInt32) :
    ∃ hist hista histb s sa sb, Histogram v w (h1 + h2) (m, vec) = .ok () (m, hist) ∧ Histogram v w h1 (m, veca) = .ok () (m, hista) ∧
      Histogram (belowOf v h1) w h2 (m, vecb) = .ok () (m, histb) ∧ Sum v w (h1 + h2) m = .ok s m ∧ Sum v w h1 m = .ok sa m ∧
      Sum (belowOf v h1) w h2 m = .ok sb m ∧ hist.length = 256 ∧ hista.length = 256 ∧ histb.length = 256 ∧
      (∀ k, k < 256 → (hist.getD k 0).toNat = (hista.getD k 0).toNat + (histb.getD k 0).toNat) ∧ s = sa + sb := by
  exact numbers_add o (o.upper g1) (o.lower g2) cc cc cc (List.Perm.of_eq (pixels_rows m v w h1 h2)) vec veca vecb

/-- C189: the histogram of an image changed by a lookup table has for each value the numbers of all values which the table maps to it. -/
theorem C189_table {m : BMem} {inp out : View} {w h : Nat} (t : List UInt8) (ht : t.length = 256) (r : Ready1 m inp out w h) (ci : inp.img.cc = 1)
    (vec vec' : List UInt32) :
    ∃ m' hist hist', LookupTable inp out w h t m = .ok () m' ∧ Histogram inp w h (m, vec) = .ok () (m, hist) ∧
      Histogram out w h (m', vec') = .ok () (m', hist') ∧ hist.length = 256 ∧ hist'.length = 256 ∧
      ∀ k, k < 256 → (hist'.getD k 0).toNat = (((List.range 256).filter fun u => (t.getD u 0).toNat == k).map fun u => (hist.getD u 0).toNat).sum := by
  obtain ⟨m', e, W⟩ := C15_lookupTable t ht r
  have co : out.img.cc = 1 := by rw [r.co, ci]
  have hp := pixels_mapped (f := fun a => t[a.toNat]'(by rw [ht]; exact UInt8.toNat_lt _)) co W
  have oi : One m inp w h := ⟨r.wfi, r.fiti⟩
  have oo : One m' out w h := ⟨Image.WF.of_size r.wfo W.size_eq, r.fito⟩
  obtain ⟨h1, _⟩ := numbers oi ci vec
  obtain ⟨h2, _⟩ := numbers oo co vec'
  refine ⟨m', _, _, e, h1, h2, by simp, by simp, fun k hk => ?_⟩
  rw [count_at oo hk, hp, count_two (p := fun u => (t.getD u 0).toNat == k), ← sum_counts fun u => (t.getD u 0).toNat == k]
  · refine congrArg List.sum (List.map_congr_left fun u hu => ?_)
    have hu := List.mem_range.1 (List.mem_filter.1 hu).1
    exact (count_at oi hu).symm
  · intro x
    have hx : x.toNat < t.length := by rw [ht]; exact x.toNat_lt
    have e2 : t.getD x.toNat 0 = t[x.toNat] := by
      rw [List.getD, List.getElem?_eq_getElem hx, Option.getD_some]
    rw [e2, beq_iff_eq]
    constructor
    · intro q
      have := congrArg UInt8.toNat q
      rwa [ofNat_toNat' hk] at this
    · intro q
      apply UInt8.toNat_inj.1
      rw [ofNat_toNat' hk]
      exact q

theorem rowByte_right (m : BMem) (v : View) (hc : 0 < v.img.cc) (w1 y k : Nat) : rowByte m (rightOf v w1) y k = rowByte m v y (w1 * v.img.cc + k) := by
  rw [rowByte, rowByte, get_rightOf, Nat.mul_comm w1, Nat.mul_add_div hc, Nat.mul_add_mod]
  rfl

theorem rowByte_below (m : BMem) (v : View) (h1 y k : Nat) : rowByte m (belowOf v h1) y k = rowByte m v (h1 + y) k := by
  rw [rowByte, rowByte, get_belowOf]
  rfl

theorem rowSum_add (m : BMem) (v : View) (hc : 0 < v.img.cc) (w1 n y : Nat) :
    rowSum m v (w1 * v.img.cc + n) y = rowSum m v (w1 * v.img.cc) y + rowSum m (rightOf v w1) n y := by
  rw [rowSum, rowSum, rowSum, List.range_add, List.map_append, List.sum_append, List.map_map]
  refine congrArg _ (congrArg List.sum (List.map_congr_left fun k _ => ?_))
  rw [rowByte_right m v hc]
  rfl

theorem columnSum_add (m : BMem) (v : View) (h1 h2 k : Nat) : columnSum m v (h1 + h2) k = columnSum m v h1 k + columnSum m (belowOf v h1) h2 k := by
  rw [columnSum, columnSum, columnSum, List.range_add, List.map_append, List.sum_append, List.map_map]
  refine congrArg _ (congrArg List.sum (List.map_congr_left fun y _ => ?_))
  rw [rowByte_below m v]
  rfl

theorem entries_add {p a b : List UInt32} {n : Nat} {f g : Nat → Nat} (lp : p.length = n) (la : a.length = n) (lb : b.length = n)
    (hp : ∀ k, k < n → p[k]? = some (UInt32.ofNat (f k + g k))) (ha : ∀ k, k < n → a[k]? = some (UInt32.ofNat (f k)))
    (hb : ∀ k, k < n → b[k]? = some (UInt32.ofNat (g k))) : p = List.zipWith (· + ·) a b := by
  refine List.ext_getElem? fun k => ?_
  by_cases hk : k < n
  · rw [hp k hk, List.getElem?_zipWith, ha k hk, hb k hk, UInt32.ofNat_add]
  · rw [List.getElem?_eq_none (by omega), List.getElem?_eq_none (by rw [List.length_zipWith]; omega)]

theorem entries_append {p a b : List UInt32} {n1 n2 : Nat} {f : Nat → Nat} (lp : p.length = n1 + n2) (la : a.length = n1) (lb : b.length = n2)
    (hp : ∀ k, k < n1 + n2 → p[k]? = some (UInt32.ofNat (f k))) (ha : ∀ k, k < n1 → a[k]? = some (UInt32.ofNat (f k)))
    (hb : ∀ k, k < n2 → b[k]? = some (UInt32.ofNat (f (n1 + k)))) : p = a ++ b := by
  refine List.ext_getElem? fun k => ?_
  by_cases h1 : k < n1
  · rw [hp k (by omega), List.getElem?_append_left (by omega), ha k h1]
  · rw [List.getElem?_append_right (by omega), la]
    by_cases h2 : k < n1 + n2
    · rw [hp k h2, hb (k - n1) (by omega), show n1 + (k - n1) = k by omega]
    · rw [List.getElem?_eq_none (by omega), List.getElem?_eq_none (by omega)]

/-- C189: the sums of columns of a rectangle are those of its left part followed by those of its right part, and the sums of its rows are the sums of
    the sums of both parts. -/
theorem C189_profile_columns {m : BMem} {v : View} {w1 w2 h : Nat} (o : One m v (w1 + w2) h) (h1 : 0 < w1) (h2 : 0 < w2) (vec : List UInt32) :
    ∃ ca cb ra rb, ProjectionProfile v w1 h true (m, vec) = .ok () (m, ca) ∧ ProjectionProfile (rightOf v w1) w2 h true (m, vec) = .ok () (m, cb) ∧
      ProjectionProfile v (w1 + w2) h true (m, vec) = .ok () (m, ca ++ cb) ∧
      ProjectionProfile v w1 h false (m, vec) = .ok () (m, ra) ∧ ProjectionProfile (rightOf v w1) w2 h false (m, vec) = .ok () (m, rb) ∧
      ProjectionProfile v (w1 + w2) h false (m, vec) = .ok () (m, List.zipWith (· + ·) ra rb) ∧
      ca.length = w1 * v.img.cc ∧ cb.length = w2 * v.img.cc ∧ ra.length = h ∧ rb.length = h := by
  have hc : 0 < v.img.cc := (View.facts o.wf o.fit).1
  obtain ⟨c, e1, l1, v1⟩ := C26_projection_horizontal o vec
  obtain ⟨ca, e2, l2, v2⟩ := C26_projection_horizontal (o.left h1) vec
  obtain ⟨cb, e3, l3, v3⟩ := C26_projection_horizontal (o.right h2) vec
  obtain ⟨r, e4, l4, v4⟩ := C26_projection_vertical o vec
  obtain ⟨ra, e5, l5, v5⟩ := C26_projection_vertical (o.left h1) vec
  obtain ⟨rb, e6, l6, v6⟩ := C26_projection_vertical (o.right h2) vec
  have ec : c = ca ++ cb := by
    refine entries_append (n2 := w2 * v.img.cc) (f := columnSum m v h) (by rw [l1, Nat.add_mul]) l2 l3 (by rw [← Nat.add_mul]; exact v1) v2 fun k hk => ?_
    rw [v3 k hk, columnSum, columnSum]
    refine congrArg (fun l : List Nat => some (UInt32.ofNat l.sum)) (List.map_congr_left fun y _ => ?_)
    rw [rowByte_right m v hc]
  have er : r = List.zipWith (· + ·) ra rb := by
    refine entries_add (f := rowSum m v (w1 * v.img.cc)) (g := rowSum m (rightOf v w1) (w2 * v.img.cc)) l4 l5 l6 (fun y hy => ?_) v5 v6
    rw [v4 y hy, Nat.add_mul, rowSum_add m v hc]
  rw [ec] at e1
  rw [er] at e4
  exact ⟨ca, cb, ra, rb, e2, e3, e1, e5, e6, e4, l2, l3, l5, l6⟩

/-- C189: the same for the upper and the lower part, rows and columns being exchanged -/
theorem C189_profile_rows {m : BMem} {v : View} {w h1 h2 : Nat} (o : One m v w (h1 + h2)) (g1 : 0 < h1) (g2 : 0 < h2) (vec : List UInt32) :
    ∃ ca cb ra rb, ProjectionProfile v w h1 false (m, vec) = .ok () (m, ra) ∧ ProjectionProfile (belowOf v h1) w h2 false (m, vec) = .ok () (m, rb) ∧
      ProjectionProfile v w (h1 + h2) false (m, vec) = .ok () (m, ra ++ rb) ∧
      ProjectionProfile v w h1 true (m, vec) = .ok () (m, ca) ∧ ProjectionProfile (belowOf v h1) w h2 true (m, vec) = .ok () (m, cb) ∧
      ProjectionProfile v w (h1 + h2) true (m, vec) = .ok () (m, List.zipWith (· + ·) ca cb) ∧
      ca.length = w * v.img.cc ∧ cb.length = w * v.img.cc ∧ ra.length = h1 ∧ rb.length = h2 := by
  obtain ⟨c, e1, l1, v1⟩ := C26_projection_horizontal o vec
  obtain ⟨ca, e2, l2, v2⟩ := C26_projection_horizontal (o.upper g1) vec
  obtain ⟨cb, e3, l3, v3⟩ := C26_projection_horizontal (o.lower g2) vec
  obtain ⟨r, e4, l4, v4⟩ := C26_projection_vertical o vec
  obtain ⟨ra, e5, l5, v5⟩ := C26_projection_vertical (o.upper g1) vec
  obtain ⟨rb, e6, l6, v6⟩ := C26_projection_vertical (o.lower g2) vec
  have er : r = ra ++ rb := by
    refine entries_append (f := rowSum m v (w * v.img.cc)) l4 l5 l6 v4 v5 fun y hy => ?_
    rw [v6 y hy, rowSum, rowSum]
    refine congrArg (fun l : List Nat => some (UInt32.ofNat l.sum)) (List.map_congr_left fun k _ => ?_)
    rw [rowByte_below m v]
  have ec : c = List.zipWith (· + ·) ca cb := by
    refine entries_add (f := columnSum m v h1) (g := columnSum m (belowOf v h1) h2) l1 l2 l3 (fun k hk => ?_) v2 v3
    rw [v1 k hk, columnSum_add]
  rw [ec] at e1
  rw [er] at e4
  exact ⟨ca, cb, ra, rb, e5, e6, e4, e2, e3, e1, l2, l3, l5, l6⟩

/-! ### Cases -/

/-- Two rows of three pixels and a padding byte -/
def partsMem : BMem := ⟨fun b => if b = 1 ∨ b = 2 then 8 else 0, fun b i => if b = 1 then [7, 200, 7, 0, 9, 7, 255, 0].getD i 0 else 0⟩
def partsImg (b : Nat) : View := ⟨⟨b, 3, 2, 1, 4⟩, 0, 0⟩

theorem partsOne : One partsMem (partsImg 1) (1 + 2) (1 + 1) :=
  ⟨⟨by decide, by decide, by decide⟩, by decide, by decide, by decide, by decide, by decide, by decide⟩

example : ∃ hist hista histb s sa sb, Histogram (partsImg 1) 3 2 (partsMem, []) = .ok () (partsMem, hist) ∧
    Histogram (partsImg 1) 1 2 (partsMem, []) = .ok () (partsMem, hista) ∧
    Histogram (rightOf (partsImg 1) 1) 2 2 (partsMem, []) = .ok () (partsMem, histb) ∧ Sum (partsImg 1) 3 2 partsMem = .ok s partsMem ∧
    Sum (partsImg 1) 1 2 partsMem = .ok sa partsMem ∧ Sum (rightOf (partsImg 1) 1) 2 2 partsMem = .ok sb partsMem ∧ hist.length = 256 ∧
    hista.length = 256 ∧ histb.length = 256 ∧ (∀ k, k < 256 → (hist.getD k 0).toNat = (hista.getD k 0).toNat + (histb.getD k 0).toNat) ∧ s = sa + sb :=
  C189_columns partsOne rfl (by decide) (by decide) [] [] []

/-- The numbers computed -/
def partsSum (r : Res BMem UInt32) : Option UInt32 :=
  match r with
  | .ok s _ => some s
  | _ => none
def partsList (r : Res VMem Unit) : Option (List UInt32) :=
  match r with
  | .ok _ s => some s.2
  | _ => none

example : partsSum (Sum (partsImg 1) 3 2 partsMem) = some 485 ∧ partsSum (Sum (partsImg 1) 1 2 partsMem) = some 16 ∧
    partsSum (Sum (rightOf (partsImg 1) 1) 2 2 partsMem) = some 469 := by decide +kernel
example : partsList (ProjectionProfile (partsImg 1) 3 2 true (partsMem, [])) = some [16, 207, 262] ∧
    partsList (ProjectionProfile (rightOf (partsImg 1) 1) 2 2 true (partsMem, [])) = some [207, 262] := by decide +kernel
example : partsList (ProjectionProfile (partsImg 1) 3 2 false (partsMem, [])) = some [214, 271] ∧
    partsList (ProjectionProfile (partsImg 1) 3 1 false (partsMem, [])) = some [214] := by decide +kernel

example : Ready1 partsMem (partsImg 1) (partsImg 2) 3 2 :=
  ⟨partsOne.wf, ⟨by decide, by decide, by decide⟩, partsOne.fit, ⟨by decide, by decide, by decide, by decide, by decide, by decide⟩, rfl,
    noClash_of_ne _ _ (by decide)⟩

end PV.Props
