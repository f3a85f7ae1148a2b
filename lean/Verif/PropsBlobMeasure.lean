import Verif.BlobMeasure
import Verif.BlobOuter
/-
  C118 - C123: the measures of blobs, the filters, the best blob and sorting.
-/
namespace PV.Props

open PV.Blob

variable {m : BMem} {v : View} {w h : Nat} {thr : UInt8}

/-! ### The contour holds the extreme points of a blob -/

/-- A blob, its points and its contour: what the search guarantees. -/
structure Shape (v : View) (w h : Nat) (b : BlobInfo) : Prop where
  inside : ∀ q, q ∈ b.point → v.x ≤ q.1 ∧ q.1 < v.x + w ∧ v.y ≤ q.2 ∧ q.2 < v.y + h
  nonempty : b.contour ≠ []
  sub : ∀ q, q ∈ b.contour → q ∈ b.point
  /-- a point after which the row or the column is free of the blob, in one of the four directions -/
  outer : ∀ p, p ∈ b.point →
    ((∀ z, p.1 < z → (z, p.2) ∉ b.point) ∨ (∀ z, z < p.1 → (z, p.2) ∉ b.point) ∨ (∀ z, p.2 < z → (p.1, z) ∉ b.point) ∨
      (∀ z, z < p.2 → (p.1, z) ∉ b.point)) → p ∈ b.contour

theorem shape_of {b : BlobInfo} (k : IsBlob (Fg m v w h thr) b) : Shape v w h b := by
  obtain ⟨s, hs, hc, f, hi, hq, hr⟩ := k.start
  have hfg : ∀ q, q ∈ b.point → Fg m v w h thr q := by
    intro q hq'
    cases (hq q).mp hq' with
    | refl => exact f
    | step _ _ h => exact h
  have hsub : ∀ q, q ∈ b.contour → q ∈ b.point := by
    intro q hq'
    rw [hq]
    have c := (hr q).mp hq'
    clear hq'
    induction c with
    | refl => exact .refl
    | step _ ha h ih => exact .step ih ha h.1
  have hcon : ∀ {q}, Conn (Fg m v w h thr) s q → Conn (fun q => q ∈ b.point) s q := by
    intro q c
    induction c with
    | refl => exact .refl
    | step c' ha h ih => exact .step ih ha ((hq _).mpr (.step c' ha h))
  have hins : ∀ q, q ∈ b.point → v.x ≤ q.1 ∧ q.1 < v.x + w ∧ v.y ≤ q.2 ∧ q.2 < v.y + h := fun q hq' =>
    ⟨(hfg q hq').1, (hfg q hq').2.1, (hfg q hq').2.2.1, (hfg q hq').2.2.2.1⟩
  refine ⟨hins, fun e => ?_, hsub, fun p hp hray => ?_⟩
  · rw [e] at hc
    simp at hc
  · refine outer_rim (S := fun q => q ∈ b.point) (C := fun q => q ∈ b.contour) hsub (fun p q hp ha hq' hin => ?_)
      (N := v.x + w + v.y + h) (fun q hq' => ?_) (List.mem_of_mem_head? hc) (k.first s hs) (fun q hq' => hcon ((hq q).mp hq')) hp hray
    · refine (hr q).mpr (.step ((hr p).mp hp) ha ⟨hfg q hq', fun hin' => hin fun d e hd he => ?_⟩)
      obtain ⟨r, hr1, hr2, hr3⟩ := hin' d e hd he
      refine ⟨r, (hq r).mpr ?_, hr2, hr3⟩
      by_cases hrq : q = r
      · subst hrq
        exact (hq q).mp hq'
      · exact .step ((hq q).mp hq') ⟨hrq, by omega, by omega, by omega, by omega⟩ hr1
    · have := hins q hq'
      omega

/-- What the search gives, with the shapes of the blobs -/
theorem find_shapes (o : One m v w h) (cc : v.img.cc = 1) (small : (w + 2) * (h + 2) < 2 ^ 32) :
    ∃ bs, find v w h Params.none thr m = .ok bs m ∧ ∀ b, b ∈ bs → Shape v w h b := by
  obtain ⟨bs, h1, _, _, h4⟩ := find_run (thr := thr) o cc small
  exact ⟨bs, by rw [h1 _ none_sane, none_apply], fun b hb => shape_of (h4 b hb)⟩

theorem max_mem {l : List Nat} (hl : l ≠ []) : l.foldl Nat.max 0 ∈ l ∧ ∀ a, a ∈ l → a ≤ l.foldl Nat.max 0 := by
  obtain ⟨x, hx⟩ := List.exists_mem_of_ne_nil l hl
  obtain ⟨_, h2, h3⟩ := foldl_max l 0
  refine ⟨?_, h2⟩
  rcases h3 with h3 | h3
  · have := h2 x hx
    rw [h3, show 0 = x by omega]
    exact hx
  · exact h3

theorem min_mem {l : List Nat} (hl : l ≠ []) (hb : ∀ a, a ∈ l → a < 4294967295) :
    l.foldl Nat.min 4294967295 ∈ l ∧ ∀ a, a ∈ l → l.foldl Nat.min 4294967295 ≤ a := by
  obtain ⟨x, hx⟩ := List.exists_mem_of_ne_nil l hl
  obtain ⟨_, h2, h3⟩ := foldl_min l 4294967295
  refine ⟨?_, h2⟩
  rcases h3 with h3 | h3
  · have := h2 x hx
    have := hb x hx
    omega
  · exact h3

/-- The greatest and the smallest coordinates of the contour are those of all points. -/
theorem Shape.bounds {b : BlobInfo} (k : Shape v w h b) (hx : v.x + w < 4294967296) (hy : v.y + h < 4294967296) :
    (let xs := b.contour.map Prod.fst
     let ys := b.contour.map Prod.snd
     (∃ q ∈ b.contour, q.1 = xs.foldl Nat.max 0) ∧ (∃ q ∈ b.contour, q.1 = xs.foldl Nat.min 4294967295) ∧
     (∃ q ∈ b.contour, q.2 = ys.foldl Nat.max 0) ∧ (∃ q ∈ b.contour, q.2 = ys.foldl Nat.min 4294967295) ∧
     ∀ q ∈ b.point, q.1 ≤ xs.foldl Nat.max 0 ∧ xs.foldl Nat.min 4294967295 ≤ q.1 ∧ q.2 ≤ ys.foldl Nat.max 0 ∧
       ys.foldl Nat.min 4294967295 ≤ q.2) := by
  have hne1 : b.contour.map Prod.fst ≠ [] := by simpa using k.nonempty
  have hne2 : b.contour.map Prod.snd ≠ [] := by simpa using k.nonempty
  have hlt1 : ∀ a, a ∈ b.contour.map Prod.fst → a < 4294967295 := by
    intro a ha
    obtain ⟨q, hq, rfl⟩ := List.mem_map.1 ha
    have := k.inside q (k.sub q hq)
    omega
  have hlt2 : ∀ a, a ∈ b.contour.map Prod.snd → a < 4294967295 := by
    intro a ha
    obtain ⟨q, hq, rfl⟩ := List.mem_map.1 ha
    have := k.inside q (k.sub q hq)
    omega
  obtain ⟨a1, a2⟩ := max_mem hne1
  obtain ⟨a3, a4⟩ := max_mem hne2
  obtain ⟨a5, a6⟩ := min_mem hne1 hlt1
  obtain ⟨a7, a8⟩ := min_mem hne2 hlt2
  -- an extreme value over all points
  have ext : ∀ (g : Nat × Nat → Nat) (l : List (Nat × Nat)), l ≠ [] → ∃ p ∈ l, ∀ q ∈ l, g q ≤ g p := by
    intro g l hl
    obtain ⟨e1, e2⟩ := max_mem (l := l.map g) (by simpa using hl)
    obtain ⟨p, hp, e⟩ := List.mem_map.1 e1
    exact ⟨p, hp, fun q hq => by rw [e]; exact e2 _ (List.mem_map_of_mem hq)⟩
  have hpne : b.point ≠ [] := by
    obtain ⟨q, hq⟩ := List.exists_mem_of_ne_nil _ k.nonempty
    exact List.ne_nil_of_mem (k.sub q hq)
  simp only
  refine ⟨?_, ?_, ?_, ?_, ?_⟩
  · obtain ⟨q, hq, e⟩ := List.mem_map.1 a1
    exact ⟨q, hq, e⟩
  · obtain ⟨q, hq, e⟩ := List.mem_map.1 a5
    exact ⟨q, hq, e⟩
  · obtain ⟨q, hq, e⟩ := List.mem_map.1 a3
    exact ⟨q, hq, e⟩
  · obtain ⟨q, hq, e⟩ := List.mem_map.1 a7
    exact ⟨q, hq, e⟩
  · intro q hq
    have hqi := k.inside q hq
    refine ⟨?_, ?_, ?_, ?_⟩
    · obtain ⟨p, hp, e⟩ := ext Prod.fst b.point hpne
      have hc := k.outer p hp (Or.inl fun z hz hm => by have := e _ hm; simp only at this; omega)
      exact Nat.le_trans (e q hq) (a2 _ (List.mem_map_of_mem hc))
    · obtain ⟨p, hp, e⟩ := ext (fun p => 4294967296 - p.1) b.point hpne
      have hpi := k.inside p hp
      have hc := k.outer p hp (Or.inr (Or.inl fun z hz hm => by have := e _ hm; simp only at this; omega))
      have h1 := e q hq
      have h2 := a6 _ (List.mem_map_of_mem hc)
      omega
    · obtain ⟨p, hp, e⟩ := ext Prod.snd b.point hpne
      have hc := k.outer p hp (Or.inr (Or.inr (Or.inl fun z hz hm => by have := e _ hm; simp only at this; omega)))
      exact Nat.le_trans (e q hq) (a4 _ (List.mem_map_of_mem hc))
    · obtain ⟨p, hp, e⟩ := ext (fun p => 4294967296 - p.2) b.point hpne
      have hpi := k.inside p hp
      have hc := k.outer p hp (Or.inr (Or.inr (Or.inr fun z hz hm => by have := e _ hm; simp only at this; omega)))
      have h1 := e q hq
      have h2 := a8 _ (List.mem_map_of_mem hc)
      omega

/-! ### C118: bounding rectangles -/

/-- `a` is the smallest rectangle with all pixels of `ps`; the right and lower sides are exclusive. -/
def Bounds (ps : List (Nat × Nat)) (a : Area) : Prop :=
  (∀ q ∈ ps, a.left ≤ q.1 ∧ q.1 < a.right ∧ a.top ≤ q.2 ∧ q.2 < a.bottom) ∧
  (∃ q ∈ ps, q.1 = a.left) ∧ (∃ q ∈ ps, q.1 + 1 = a.right) ∧ (∃ q ∈ ps, q.2 = a.top) ∧ (∃ q ∈ ps, q.2 + 1 = a.bottom)

theorem view_room (o : One m v w h) : v.x + w < 4294967296 ∧ v.y + h < 4294967296 := by
  obtain ⟨_, _, _, h4, h5, _⟩ := View.facts o.wf o.fit
  have := o.fit.inX
  have := o.fit.inY
  omega

/-- C118: the area of every blob is the smallest rectangle with all of its pixels, and its width and height are those of the rectangle,
    although they are computed from the contour alone. -/
theorem C118_bounds (o : One m v w h) (cc : v.img.cc = 1) (small : (w + 2) * (h + 2) < 2 ^ 32) :
    ∃ bs, find v w h Params.none thr m = .ok bs m ∧ ∀ b, b ∈ bs →
      Bounds b.point (areaOf b) ∧
      extent (b.contour.map Prod.fst) = (areaOf b).right - (areaOf b).left ∧
      extent (b.contour.map Prod.snd) = (areaOf b).bottom - (areaOf b).top := by
  obtain ⟨bs, h1, h2⟩ := find_shapes (thr := thr) o cc small
  refine ⟨bs, h1, fun b hb => ?_⟩
  have k := h2 b hb
  obtain ⟨rx, ry⟩ := view_room o
  obtain ⟨⟨q1, m1, e1⟩, ⟨q2, m2, e2⟩, ⟨q3, m3, e3⟩, ⟨q4, m4, e4⟩, e5⟩ := k.bounds rx ry
  have i1 := k.inside q1 (k.sub q1 m1)
  have i2 := k.inside q2 (k.sub q2 m2)
  have i3 := k.inside q3 (k.sub q3 m3)
  have i4 := k.inside q4 (k.sub q4 m4)
  rw [areaOf, if_neg k.nonempty]
  simp only [extent]
  generalize (b.contour.map Prod.fst).foldl Nat.max 0 = A at *
  generalize (b.contour.map Prod.fst).foldl Nat.min 4294967295 = B at *
  generalize (b.contour.map Prod.snd).foldl Nat.max 0 = C at *
  generalize (b.contour.map Prod.snd).foldl Nat.min 4294967295 = D at *
  have b1 := e5 q1 (k.sub q1 m1)
  have b3 := e5 q3 (k.sub q3 m3)
  rw [u32_of_lt (n := A + 1) (by omega), u32_of_lt (n := C + 1) (by omega)]
  refine ⟨⟨fun q hq => ?_, ⟨q2, k.sub q2 m2, e2⟩, ⟨q1, k.sub q1 m1, by simp only; omega⟩, ⟨q4, k.sub q4 m4, e4⟩,
    ⟨q3, k.sub q3 m3, by simp only; omega⟩⟩, ?_, ?_⟩
  · have := e5 q hq
    simp only
    omega
  · simp only [u32]
    omega
  · simp only [u32]
    omega

/-- C71 in terms of all pixels: the limits of width and height are those of the blob itself. -/
theorem C71_filters_pixels (o : One m v w h) (cc : v.img.cc = 1) (small : (w + 2) * (h + 2) < 2 ^ 32) (ps : Params)
    (hps : Sane ps.height ∧ Sane ps.size ∧ Sane ps.width) :
    ∃ all kept, find v w h Params.none thr m = .ok all m ∧ find v w h ps thr m = .ok kept m ∧
      kept.Sublist all ∧ ∀ b, b ∈ all → (b ∈ kept ↔ Within ps.size b.point.length ∧
        (∃ k, Spans (b.point.map Prod.fst) k ∧ Within ps.width k) ∧ (∃ k, Spans (b.point.map Prod.snd) k ∧ Within ps.height k)) := by
  obtain ⟨all, kept, h1, h2, _, h3, h4⟩ := C71_filters (thr := thr) o cc small ps hps
  obtain ⟨bs, h5, h6⟩ := find_shapes (thr := thr) o cc small
  rw [h1] at h5
  obtain ⟨rfl, _⟩ := Res.ok.inj h5
  refine ⟨all, kept, h1, h2, h3, fun b hb => ?_⟩
  rw [h4 b hb]
  have k := h6 b hb
  obtain ⟨rx, ry⟩ := view_room o
  obtain ⟨⟨q1, m1, e1⟩, ⟨q2, m2, e2⟩, ⟨q3, m3, e3⟩, ⟨q4, m4, e4⟩, e5⟩ := k.bounds rx ry
  have sx : ∀ n, Spans (b.contour.map Prod.fst) n ↔ Spans (b.point.map Prod.fst) n := by
    have c1 : Spans (b.contour.map Prod.fst) (q1.1 - q2.1 + 1) :=
      ⟨q2.1, q1.1, List.mem_map_of_mem m2, List.mem_map_of_mem m1, fun a ha => by
        obtain ⟨q, hq, rfl⟩ := List.mem_map.1 ha
        have := e5 q (k.sub q hq)
        omega, rfl⟩
    have c2 : Spans (b.point.map Prod.fst) (q1.1 - q2.1 + 1) :=
      ⟨q2.1, q1.1, List.mem_map_of_mem (k.sub _ m2), List.mem_map_of_mem (k.sub _ m1), fun a ha => by
        obtain ⟨q, hq, rfl⟩ := List.mem_map.1 ha
        have := e5 q hq
        omega, rfl⟩
    intro n
    exact ⟨fun e => by rw [spans_unique e c1]; exact c2, fun e => by rw [spans_unique e c2]; exact c1⟩
  have sy : ∀ n, Spans (b.contour.map Prod.snd) n ↔ Spans (b.point.map Prod.snd) n := by
    have c1 : Spans (b.contour.map Prod.snd) (q3.2 - q4.2 + 1) :=
      ⟨q4.2, q3.2, List.mem_map_of_mem m4, List.mem_map_of_mem m3, fun a ha => by
        obtain ⟨q, hq, rfl⟩ := List.mem_map.1 ha
        have := e5 q (k.sub q hq)
        omega, rfl⟩
    have c2 : Spans (b.point.map Prod.snd) (q3.2 - q4.2 + 1) :=
      ⟨q4.2, q3.2, List.mem_map_of_mem (k.sub _ m4), List.mem_map_of_mem (k.sub _ m3), fun a ha => by
        obtain ⟨q, hq, rfl⟩ := List.mem_map.1 ha
        have := e5 q hq
        omega, rfl⟩
    intro n
    exact ⟨fun e => by rw [spans_unique e c1]; exact c2, fun e => by rw [spans_unique e c2]; exact c1⟩
  simp only [sx, sy]

/-! ### C119: the length -/

/-- Squared distance -/
def dist2 (p q : Nat × Nat) : Nat :=
  (max p.1 q.1 - min p.1 q.1) * (max p.1 q.1 - min p.1 q.1) + (max p.2 q.2 - min p.2 q.2) * (max p.2 q.2 - min p.2 q.2)

theorem dist2_symm (p q : Nat × Nat) : dist2 p q = dist2 q p := by
  rw [dist2, dist2, Nat.max_comm p.1, Nat.min_comm p.1, Nat.max_comm p.2, Nat.min_comm p.2]

/-- `n` is the greatest squared distance of two pixels. -/
def Diameter (ps : List (Nat × Nat)) (n : Nat) : Prop :=
  (∃ p ∈ ps, ∃ q ∈ ps, dist2 p q = n) ∧ ∀ p ∈ ps, ∀ q ∈ ps, dist2 p q ≤ n

theorem int32_diff {a b : Nat} (ha : a < 4294967296) (hb : b < 4294967296) (h1 : b ≤ a + 2147483647) (h2 : a ≤ b + 2147483647) :
    int32 (u32 (a + (4294967296 - b))) = (a : Int) - b := by
  unfold int32 u32
  by_cases h : (a + (4294967296 - b)) % 4294967296 < 2147483648
  · rw [if_pos h]
    omega
  · rw [if_neg h]
    omega

theorem sq_diff (a b : Nat) : ((a : Int) - b) * ((a : Int) - b) = (((max a b - min a b) * (max a b - min a b) : Nat) : Int) := by
  rcases Nat.le_total a b with h | h
  · obtain ⟨d, rfl⟩ := Nat.exists_eq_add_of_le h
    rw [Nat.max_eq_right h, Nat.min_eq_left h, show a + d - a = d by omega]
    rw [show (a : Int) - ((a + d : Nat) : Int) = -(d : Int) by omega, Int.neg_mul_neg]
    simp
  · obtain ⟨d, rfl⟩ := Nat.exists_eq_add_of_le h
    rw [Nat.max_eq_left h, Nat.min_eq_right h, show b + d - b = d by omega]
    rw [show ((b + d : Nat) : Int) - (b : Int) = (d : Int) by omega]
    simp

theorem fitInt_nat (n : Nat) : fitInt (n : Int) = if n < 2147483648 then some (n : Int) else none := by
  unfold fitInt
  by_cases h : n < 2147483648
  · rw [if_pos h, if_pos (by omega)]
  · rw [if_neg h, if_neg (by omega)]

/-- Two points not too far from one another -/
def Near (p q : Nat × Nat) : Prop :=
  p.1 < 4294967296 ∧ p.2 < 4294967296 ∧ q.1 < 4294967296 ∧ q.2 < 4294967296 ∧ q.1 ≤ p.1 + 2147483647 ∧ p.1 ≤ q.1 + 2147483647 ∧
    q.2 ≤ p.2 + 2147483647 ∧ p.2 ≤ q.2 + 2147483647

theorem distance_eq {p q : Nat × Nat} (n : Near p q) :
    distance p q = if dist2 p q < 2147483648 then some (dist2 p q : Int) else none := by
  obtain ⟨n1, n2, n3, n4, n5, n6, n7, n8⟩ := n
  unfold distance dist2
  simp only
  rw [int32_diff n1 n3 n5 n6, int32_diff n2 n4 n7 n8, sq_diff, sq_diff, fitInt_nat, fitInt_nat]
  generalize (max p.1 q.1 - min p.1 q.1) * (max p.1 q.1 - min p.1 q.1) = A
  generalize (max p.2 q.2 - min p.2 q.2) * (max p.2 q.2 - min p.2 q.2) = B
  by_cases hA : A < 2147483648
  · by_cases hB : B < 2147483648
    · simp only [if_pos hA, if_pos hB]
      have := fitInt_nat (A + B)
      rw [Int.natCast_add] at this
      simpa using this
    · rw [if_neg (show ¬ A + B < 2147483648 by omega)]
      simp [hA, hB]
  · rw [if_neg (show ¬ A + B < 2147483648 by omega)]
    simp [hA]

theorem mem_pairs {α : Type} {l : List α} {p q : α} (h : (p, q) ∈ pairs l) : p ∈ l ∧ q ∈ l := by
  induction l with
  | nil => simp [pairs] at h
  | cons a l ih =>
    simp only [pairs, List.mem_append, List.mem_map, Prod.mk.injEq] at h
    rcases h with ⟨b, hb, rfl, rfl⟩ | h
    · exact ⟨List.mem_cons_self, List.mem_cons_of_mem _ hb⟩
    · exact ⟨List.mem_cons_of_mem _ (ih h).1, List.mem_cons_of_mem _ (ih h).2⟩

theorem pairs_all {α : Type} {l : List α} {p q : α} (hp : p ∈ l) (hq : q ∈ l) (hne : p ≠ q) : (p, q) ∈ pairs l ∨ (q, p) ∈ pairs l := by
  induction l with
  | nil => simp at hp
  | cons a l ih =>
    simp only [pairs, List.mem_append, List.mem_map, Prod.mk.injEq]
    rcases List.mem_cons.1 hp with rfl | hp'
    · rcases List.mem_cons.1 hq with rfl | hq'
      · exact absurd rfl hne
      · exact Or.inl (Or.inl ⟨q, hq', rfl, rfl⟩)
    · rcases List.mem_cons.1 hq with rfl | hq'
      · exact Or.inr (Or.inl ⟨p, hp', rfl, rfl⟩)
      · rcases ih hp' hq' with h | h
        · exact Or.inl (Or.inr h)
        · exact Or.inr (Or.inr h)

/-- The state after a pair was taken -/
def took (pq : (Nat × Nat) × (Nat × Nat)) : Longest := ⟨dist2 pq.1 pq.2, pq.1, (pq.2.1, pq.2.1)⟩

theorem foldlM_longest {l : List ((Nat × Nat) × (Nat × Nat))} (hn : ∀ x, x ∈ l → Near x.1 x.2)
    (hs : ∀ x, x ∈ l → dist2 x.1 x.2 < 2147483648) (s : Longest) :
    ∃ r, l.foldlM longestStep s = some r ∧ s.distance ≤ r.distance ∧ (∀ x, x ∈ l → (dist2 x.1 x.2 : Int) ≤ r.distance) ∧
      (r = s ∨ ∃ x, x ∈ l ∧ r = took x) := by
  induction l generalizing s with
  | nil => exact ⟨s, rfl, Int.le_refl _, fun x hx => absurd hx (by simp), Or.inl rfl⟩
  | cons a l ih =>
    have ea : distance a.1 a.2 = some (dist2 a.1 a.2 : Int) := by
      rw [distance_eq (hn a List.mem_cons_self), if_pos (hs a List.mem_cons_self)]
    have ih' := ih (fun x hx => hn x (List.mem_cons_of_mem _ hx)) (fun x hx => hs x (List.mem_cons_of_mem _ hx))
    by_cases hlt : s.distance < dist2 a.1 a.2
    · obtain ⟨r, h1, h2, h3, h4⟩ := ih' (took a)
      have hst : longestStep s a = some (took a) := by
        simp [longestStep, ea, hlt, took]
      have hd : (took a).distance = dist2 a.1 a.2 := rfl
      refine ⟨r, by rw [List.foldlM_cons, hst]; exact h1, by omega, fun x hx => ?_, ?_⟩
      · rcases List.mem_cons.1 hx with rfl | hx
        · omega
        · exact h3 x hx
      · rcases h4 with h4 | ⟨x, hx, h4⟩
        · exact Or.inr ⟨a, List.mem_cons_self, h4⟩
        · exact Or.inr ⟨x, List.mem_cons_of_mem _ hx, h4⟩
    · obtain ⟨r, h1, h2, h3, h4⟩ := ih' s
      have hst : longestStep s a = some s := by
        simp [longestStep, ea, hlt]
      refine ⟨r, by rw [List.foldlM_cons, hst]; exact h1, h2, fun x hx => ?_, ?_⟩
      · rcases List.mem_cons.1 hx with rfl | hx
        · omega
        · exact h3 x hx
      · rcases h4 with h4 | ⟨x, hx, h4⟩
        · exact Or.inl h4
        · exact Or.inr ⟨x, List.mem_cons_of_mem _ hx, h4⟩

theorem foldlM_overflow {l : List ((Nat × Nat) × (Nat × Nat))} {x : (Nat × Nat) × (Nat × Nat)} (hx : x ∈ l) (hd : distance x.1 x.2 = none)
    (s : Longest) : l.foldlM longestStep s = none := by
  induction l generalizing s with
  | nil => simp at hx
  | cons a l ih =>
    rw [List.foldlM_cons]
    rcases List.mem_cons.1 hx with rfl | hx
    · simp [longestStep, hd]
    · cases longestStep s a with
      | none => rfl
      | some s' => exact ih hx s'

/-- The farther of two points, in a row or a column -/
theorem dist2_farther_x {p q : Nat × Nat} {z : Nat} (h : (q.1 ≤ p.1 ∧ p.1 < z) ∨ (p.1 ≤ q.1 ∧ z < p.1)) :
    dist2 p q < dist2 (z, p.2) q := by
  unfold dist2
  simp only
  refine Nat.add_lt_add_right ?_ _
  have : max p.1 q.1 - min p.1 q.1 < max z q.1 - min z q.1 := by omega
  exact Nat.mul_lt_mul'' this this

theorem Shape.near {b : BlobInfo} (k : Shape v w h b) (o : One m v w h) (small : (w + 2) * (h + 2) < 2 ^ 32) {p q : Nat × Nat}
    (hp : p ∈ b.point) (hq : q ∈ b.point) : Near p q := by
  obtain ⟨rx, ry⟩ := view_room o
  have i1 := k.inside p hp
  have i2 := k.inside q hq
  have hw : w < 2147483648 := by
    refine Nat.lt_of_not_le fun hle => ?_
    have : (w + 2) * 2 ≤ (w + 2) * (h + 2) := Nat.mul_le_mul_left _ (by omega)
    omega
  have hh : h < 2147483648 := by
    refine Nat.lt_of_not_le fun hle => ?_
    have : 2 * (h + 2) ≤ (w + 2) * (h + 2) := Nat.mul_le_mul_right _ (by omega)
    omega
  exact ⟨by omega, by omega, by omega, by omega, by omega, by omega, by omega, by omega⟩

/-- A farthest point is in the contour. -/
theorem Shape.far {b : BlobInfo} (k : Shape v w h b) {p q : Nat × Nat} (hp : p ∈ b.point) (hmax : ∀ r ∈ b.point, dist2 r q ≤ dist2 p q) :
    p ∈ b.contour := by
  rcases Nat.le_total q.1 p.1 with hle | hle
  · exact k.outer p hp (Or.inl fun z hz hm => Nat.not_lt.2 (hmax _ hm) (dist2_farther_x (Or.inl ⟨hle, hz⟩)))
  · exact k.outer p hp (Or.inr (Or.inl fun z hz hm => Nat.not_lt.2 (hmax _ hm) (dist2_farther_x (Or.inr ⟨hle, hz⟩))))

/-- There is a farthest pair, and it is in the contour. -/
theorem Shape.diameter {b : BlobInfo} (k : Shape v w h b) :
    ∃ p ∈ b.contour, ∃ q ∈ b.contour, Diameter b.point (dist2 p q) := by
  have hpne : b.point ≠ [] := by
    obtain ⟨q, hq⟩ := List.exists_mem_of_ne_nil _ k.nonempty
    exact List.ne_nil_of_mem (k.sub q hq)
  obtain ⟨s, hs⟩ := List.exists_mem_of_ne_nil _ hpne
  let L := b.point.flatMap fun p => b.point.map fun q => (p, q)
  have hL : ∀ p q, (p, q) ∈ L ↔ p ∈ b.point ∧ q ∈ b.point := by
    intro p q
    simp [L]
  have hLne : L ≠ [] := List.ne_nil_of_mem ((hL s s).2 ⟨hs, hs⟩)
  obtain ⟨e1, e2⟩ := max_mem (l := L.map fun x => dist2 x.1 x.2) (by simpa using hLne)
  obtain ⟨⟨p, q⟩, hpq, e⟩ := List.mem_map.1 e1
  have hp := ((hL p q).1 hpq).1
  have hq := ((hL p q).1 hpq).2
  have hall : ∀ r ∈ b.point, ∀ t ∈ b.point, dist2 r t ≤ dist2 p q := by
    intro r hr t ht
    have := e2 _ (List.mem_map_of_mem (f := fun x => dist2 x.1 x.2) ((hL r t).2 ⟨hr, ht⟩))
    rw [← e] at this
    exact this
  refine ⟨p, k.far hp fun r hr => hall r hr q hq, q, k.far (q := p) hq fun r hr => ?_, ⟨p, hp, q, hq, rfl⟩, hall⟩
  rw [dist2_symm q p]
  exact hall r hr p hp

theorem diameter_unique {ps : List (Nat × Nat)} {a b : Nat} (ha : Diameter ps a) (hb : Diameter ps b) : a = b := by
  obtain ⟨⟨p, hp, q, hq, e⟩, h1⟩ := ha
  obtain ⟨⟨p', hp', q', hq', e'⟩, h2⟩ := hb
  have := h1 p' hp' q' hq'
  have := h2 p hp q hq
  omega

theorem dist2_self (p : Nat × Nat) : dist2 p p = 0 := by
  simp [dist2]

/-- The search for the longest distance: its square and its points -/
theorem Shape.longest {b : BlobInfo} (k : Shape v w h b) (o : One m v w h) (small : (w + 2) * (h + 2) < 2 ^ 32) {n : Nat}
    (hn : Diameter b.point n) :
    (n < 2147483648 → ∃ r : Longest, longest b.contour = some r ∧ r.distance = n ∧
      (n = 0 ∨ ∃ p q, (p, q) ∈ pairs b.contour ∧ dist2 p q = n ∧ r.start = p ∧ r.finish = (q.1, q.1))) ∧
    (¬ n < 2147483648 → longest b.contour = none) := by
  obtain ⟨p, hp, q, hq, hd⟩ := k.diameter
  have e : dist2 p q = n := diameter_unique hd hn
  constructor
  · intro hlt
    obtain ⟨r, h1, h2, h3, h4⟩ := foldlM_longest (l := pairs b.contour) (fun x hx => k.near o small (k.sub _ (mem_pairs (p := x.1) (q := x.2) hx).1)
      (k.sub _ (mem_pairs (p := x.1) (q := x.2) hx).2)) (fun x hx => Nat.lt_of_le_of_lt (hn.2 _ (k.sub _ (mem_pairs (p := x.1) (q := x.2) hx).1) _
      (k.sub _ (mem_pairs (p := x.1) (q := x.2) hx).2)) hlt) ⟨0, (0, 0), (0, 0)⟩
    have hge : (n : Int) ≤ r.distance := by
      by_cases hne : p = q
      · subst hne
        rw [dist2_self] at e
        simp only at h2
        omega
      · rcases pairs_all hp hq hne with hm | hm
        · have := h3 _ hm
          simp only at this
          omega
        · have := h3 _ hm
          simp only [dist2_symm q p] at this
          omega
    rcases h4 with rfl | ⟨⟨p', q'⟩, hx, rfl⟩
    · simp only at hge
      exact ⟨_, h1, by simp only; omega, Or.inl (by omega)⟩
    · have hle := hn.2 p' (k.sub _ (mem_pairs hx).1) q' (k.sub _ (mem_pairs hx).2)
      simp only [took] at hge
      exact ⟨_, h1, by simp only [took]; omega, Or.inr ⟨p', q', hx, by omega, rfl, rfl⟩⟩
  · intro hlt
    have hne : p ≠ q := by
      rintro rfl
      rw [dist2_self] at e
      omega
    rcases pairs_all hp hq hne with hm | hm
    · exact foldlM_overflow hm (by rw [distance_eq (k.near o small (k.sub _ hp) (k.sub _ hq)), e, if_neg hlt]) _
    · exact foldlM_overflow hm (by rw [distance_eq (k.near o small (k.sub _ hq) (k.sub _ hp)), dist2_symm, e, if_neg hlt]) _

/-- C119, exactly: the length of a blob is the greatest distance of two of its pixels, searched for along the contour only; when its square does not
    fit into 31 bits, the behaviour is undefined. -/
theorem C119_exact (o : One m v w h) (cc : v.img.cc = 1) (small : (w + 2) * (h + 2) < 2 ^ 32) :
    ∃ bs, find v w h Params.none thr m = .ok bs m ∧ ∀ b, b ∈ bs → ∃ n, Diameter b.point n ∧
      (longest b.contour).map (·.distance) = if n < 2 ^ 31 then some (n : Int) else none := by
  obtain ⟨bs, h1, h2⟩ := find_shapes (thr := thr) o cc small
  refine ⟨bs, h1, fun b hb => ?_⟩
  obtain ⟨p, hp, q, hq, hd⟩ := (h2 b hb).diameter
  refine ⟨_, hd, ?_⟩
  obtain ⟨l1, l2⟩ := (h2 b hb).longest o small hd
  by_cases hlt : dist2 p q < 2147483648
  · obtain ⟨r, e1, e2, _⟩ := l1 hlt
    rw [e1, if_pos hlt, Option.map_some, e2]
  · rw [l2 hlt, if_neg hlt]
    rfl

theorem dist2_room {b : BlobInfo} (k : Shape v w h b) {n : Nat} (hn : Diameter b.point n) :
    n ≤ (w - 1) * (w - 1) + (h - 1) * (h - 1) := by
  obtain ⟨⟨p, hp, q, hq, rfl⟩, _⟩ := hn
  have i1 := k.inside p hp
  have i2 := k.inside q hq
  exact Nat.add_le_add (Nat.mul_le_mul (by omega) (by omega)) (Nat.mul_le_mul (by omega) (by omega))

/-- C119, what holds: in a region whose diagonal fits, the length is the greatest distance of two pixels. -/
theorem C119_length_partial (o : One m v w h) (cc : v.img.cc = 1) (small : (w + 2) * (h + 2) < 2 ^ 32)
    (fits : (w - 1) * (w - 1) + (h - 1) * (h - 1) < 2 ^ 31) :
    ∃ bs, find v w h Params.none thr m = .ok bs m ∧ ∀ b, b ∈ bs → ∃ n r, Diameter b.point n ∧ longest b.contour = some r ∧ r.distance = n := by
  obtain ⟨bs, h1, h2⟩ := find_shapes (thr := thr) o cc small
  refine ⟨bs, h1, fun b hb => ?_⟩
  obtain ⟨p, hp, q, hq, hd⟩ := (h2 b hb).diameter
  obtain ⟨r, e1, e2, _⟩ := ((h2 b hb).longest o small hd).1 (by have := dist2_room (h2 b hb) hd; omega)
  exact ⟨_, r, hd, e1, e2⟩

end PV.Props
