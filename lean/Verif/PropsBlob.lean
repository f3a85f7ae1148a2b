import Verif.BlobAll
import Verif.PropsReduce
/-
  C53, C54, C71, C72: blob detection.
-/
namespace PV.Props

open PV.Blob

/-! ### Specification, in the coordinates of the image -/

/-- A pixel of the rectangle with a value not below the threshold. -/
def Fg (m : BMem) (v : View) (w h : Nat) (thr : UInt8) (p : Nat × Nat) : Prop :=
  v.x ≤ p.1 ∧ p.1 < v.x + w ∧ v.y ≤ p.2 ∧ p.2 < v.y + h ∧ thr ≤ v.get m (p.1 - v.x) (p.2 - v.y) 0

/-- Neighbours, diagonals included. -/
def Adj8 (p q : Nat × Nat) : Prop :=
  p ≠ q ∧ p.1 ≤ q.1 + 1 ∧ q.1 ≤ p.1 + 1 ∧ p.2 ≤ q.2 + 1 ∧ q.2 ≤ p.2 + 1

/-- `q` is `p` or can be reached from `p` by steps between neighbours, all of them in `S`. -/
inductive Conn (S : Nat × Nat → Prop) (p : Nat × Nat) : Nat × Nat → Prop
  | refl : Conn S p p
  | step {q r : Nat × Nat} : Conn S p q → Adj8 q r → S r → Conn S p r

/-- All positions around `p` are in `S`. -/
def Inner (S : Nat × Nat → Prop) (p : Nat × Nat) : Prop :=
  ∀ d e, d ≤ 2 → e ≤ 2 → ∃ q, S q ∧ q.1 + 1 = p.1 + d ∧ q.2 + 1 = p.2 + e

/-- A point of `S` with a neighbour outside `S`. -/
def Rim (S : Nat × Nat → Prop) (p : Nat × Nat) : Prop := S p ∧ ¬ Inner S p

/-! ### From map positions to points -/

variable {m : BMem} {v : View} {w h : Nat} {thr : UInt8}

/-- The sizes of a search on this rectangle. -/
abbrev geo (v : View) (w : Nat) : Geo := ⟨v.x, v.y, w, w + 2⟩

theorem geo_dims (o : One m v w h) (small : (w + 2) * (h + 2) < 2 ^ 32) : Dims (geo v w) h := by
  obtain ⟨_, _, _, h4, h5, _⟩ := View.facts o.wf o.fit
  have := o.fit.inX
  have := o.fit.inY
  exact ⟨rfl, small, by simp only; omega, by simp only; omega⟩

theorem at_inj {k a b a' b' : Nat} (ha : a < k) (ha' : a' < k) (e : at' k a b = at' k a' b') : a = a' ∧ b = b' := by
  have := mul_add_inj ha ha' e
  omega

theorem point_ij (D : Dims (geo v w) h) {i j : Nat} (hi : i < w) (hj : j < h) :
    (geo v w).point (at' (w + 2) (i + 1) (j + 1)) = (v.x + i, v.y + j) := by
  have hx := D.x
  have hy := D.y
  have := point_at D (a := i + 1) (b := j + 1) (by simp only; omega)
  simp only at this hx hy
  rw [this]
  simp only [u32, Prod.mk.injEq]
  omega

theorem marked_iff {n : Nat} :
    marked m v w h thr n = 1 ↔
      ∃ i j, i < w ∧ j < h ∧ at' (w + 2) (i + 1) (j + 1) = n ∧ thr ≤ v.get m i j 0 := by
  rw [marked]
  constructor
  · intro e
    split at e
    · rename_i ha
      obtain ⟨p, hp, he⟩ := List.any_eq_true.mp ha
      simp only [Bool.and_eq_true, beq_iff_eq, decide_eq_true_eq] at he
      exact ⟨p.2, p.1, (mem_grid.1 hp).2, (mem_grid.1 hp).1, he⟩
    · simp at e
  · rintro ⟨i, j, hi, hj, he⟩
    rw [if_pos]
    refine List.any_eq_true.mpr ⟨(j, i), mem_grid.2 ⟨hj, hi⟩, ?_⟩
    simpa using he

theorem marked_bin (n : Nat) : marked m v w h thr n = 0 ∨ marked m v w h thr n = 1 := by
  rw [marked]
  split
  · exact Or.inr rfl
  · exact Or.inl rfl

theorem marked_init : Init (geo v w) h (marked m v w h thr) := by
  refine ⟨marked_bin, fun n hn => ?_⟩
  obtain ⟨i, j, hi, hj, rfl, _⟩ := marked_iff.mp hn
  exact ⟨i + 1, j + 1, rfl, by omega, hi, by omega, hj⟩

theorem marked_at {a b : Nat} (ha : a < w + 2) :
    marked m v w h thr (at' (w + 2) a b) = 1 ↔
      ∃ q, Fg m v w h thr q ∧ q.1 + 1 = v.x + a ∧ q.2 + 1 = v.y + b := by
  rw [marked_iff]
  constructor
  · rintro ⟨i, j, hi, hj, he, hv⟩
    obtain ⟨rfl, rfl⟩ := at_inj (by omega) ha he
    exact ⟨(v.x + i, v.y + j), ⟨by simp, by simp; omega, by simp, by simp; omega, by simpa using hv⟩, by simp; omega, by simp; omega⟩
  · rintro ⟨⟨X, Y⟩, ⟨h1, h2, h3, h4, h5⟩, h6, h7⟩
    simp only at h1 h2 h3 h4 h5 h6 h7
    refine ⟨X - v.x, Y - v.y, by omega, by omega, ?_, h5⟩
    rw [show X - v.x + 1 = a by omega, show Y - v.y + 1 = b by omega]

/-- The map position of a pixel. -/
def posOf (v : View) (w : Nat) (p : Nat × Nat) : Nat := at' (w + 2) (p.1 - v.x + 1) (p.2 - v.y + 1)

theorem fg_pos (D : Dims (geo v w) h) {p : Nat × Nat} (f : Fg m v w h thr p) :
    marked m v w h thr (posOf v w p) = 1 ∧ (geo v w).point (posOf v w p) = p := by
  obtain ⟨X, Y⟩ := p
  obtain ⟨h1, h2, h3, h4, h5⟩ := f
  simp only at h1 h2 h3 h4 h5
  refine ⟨marked_iff.mpr ⟨X - v.x, Y - v.y, by omega, by omega, rfl, h5⟩, ?_⟩
  rw [posOf, point_ij D (by simp only; omega) (by simp only; omega)]
  simp only [Prod.mk.injEq]
  omega

theorem pos_fg (D : Dims (geo v w) h) {n : Nat} (e : marked m v w h thr n = 1) :
    Fg m v w h thr ((geo v w).point n) ∧ posOf v w ((geo v w).point n) = n := by
  obtain ⟨i, j, hi, hj, rfl, hv⟩ := marked_iff.mp e
  rw [point_ij D hi hj]
  refine ⟨⟨by simp, by simp; omega, by simp, by simp; omega, by simpa using hv⟩, ?_⟩
  simp [posOf]

theorem mem_nbs {k a b n : Nat} (hk : 2 ≤ k) : n ∈ nbs k (at' k (a + 1) (b + 1)) ↔
    ∃ d e, d ≤ 2 ∧ e ≤ 2 ∧ ¬ (d = 1 ∧ e = 1) ∧ n = at' k (a + d) (b + e) := by
  simp only [nbs, List.mem_cons, List.not_mem_nil, or_false, at', Nat.add_mul, Nat.one_mul]
  constructor
  · intro hn
    rcases hn with h | h | h | h | h | h | h | h
    · exact ⟨0, 0, by omega, by omega, by omega, by omega⟩
    · exact ⟨1, 0, by omega, by omega, by omega, by omega⟩
    · exact ⟨2, 0, by omega, by omega, by omega, by omega⟩
    · exact ⟨0, 1, by omega, by omega, by omega, by omega⟩
    · exact ⟨2, 1, by omega, by omega, by omega, by omega⟩
    · exact ⟨0, 2, by omega, by omega, by omega, by omega⟩
    · exact ⟨1, 2, by omega, by omega, by omega, by omega⟩
    · exact ⟨2, 2, by omega, by omega, by omega, by omega⟩
  · rintro ⟨d, e, hd, he, hne, rfl⟩
    rcases (by omega : d = 0 ∨ d = 1 ∨ d = 2) with rfl | rfl | rfl <;>
    rcases (by omega : e = 0 ∨ e = 1 ∨ e = 2) with rfl | rfl | rfl <;>
    omega

theorem adj_iff (D : Dims (geo v w) h) {p q : Nat} (hp : marked m v w h thr p = 1) (hq : marked m v w h thr q = 1) :
    q ∈ nbs (w + 2) p ↔ Adj8 ((geo v w).point p) ((geo v w).point q) := by
  obtain ⟨i, j, hi, hj, rfl, _⟩ := marked_iff.mp hp
  obtain ⟨k, l, hk, hl, rfl, _⟩ := marked_iff.mp hq
  rw [point_ij D hi hj, point_ij D hk hl, mem_nbs (by omega), Adj8]
  simp only [ne_eq, Prod.mk.injEq]
  constructor
  · rintro ⟨d, e, hd, he, hne, heq⟩
    have := at_inj (by omega) (by omega) heq
    omega
  · intro hh
    refine ⟨k + 1 - i, l + 1 - j, by omega, by omega, by omega, ?_⟩
    rw [show i + (k + 1 - i) = k + 1 by omega, show j + (l + 1 - j) = l + 1 by omega]

theorem inner_iff (D : Dims (geo v w) h) {p : Nat} (hp : marked m v w h thr p = 1) :
    edgeAt (w + 2) (marked m v w h thr) p = true ↔ ¬ Inner (Fg m v w h thr) ((geo v w).point p) := by
  have hp' := hp
  obtain ⟨i, j, hi, hj, rfl, _⟩ := marked_iff.mp hp
  rw [point_ij D hi hj, edgeAt, List.any_eq_true]
  constructor
  · rintro ⟨n, hn, h0⟩ hin
    obtain ⟨d, e, hd, he, _, rfl⟩ := (mem_nbs (by omega)).mp hn
    obtain ⟨q, f, h1, h2⟩ := hin d e hd he
    simp only at h1 h2
    have := (marked_at (m := m) (v := v) (h := h) (thr := thr) (a := i + d) (b := j + e) (by omega)).mpr
      ⟨q, f, by omega, by omega⟩
    rw [this] at h0
    simp at h0
  · intro hin
    refine Classical.byContradiction fun hne => hin fun d e hd he => ?_
    simp only
    have key : marked m v w h thr (at' (w + 2) (i + d) (j + e)) = 1 := by
      by_cases hde : d = 1 ∧ e = 1
      · rw [hde.1, hde.2]
        exact hp'
      · refine (marked_bin _).resolve_left fun h0 => hne ?_
        exact ⟨_, (mem_nbs (by omega)).mpr ⟨d, e, hd, he, hde, rfl⟩, by simpa using h0⟩
    obtain ⟨q, f, h1, h2⟩ := (marked_at (by omega)).mp key
    exact ⟨q, f, by omega, by omega⟩

theorem reach_conn (D : Dims (geo v w) h) {S : Nat → Prop} {T : Nat × Nat → Prop}
    (hS : ∀ n, S n → marked m v w h thr n = 1) (hT : ∀ q, T q → Fg m v w h thr q)
    (hST : ∀ n, marked m v w h thr n = 1 → (S n ↔ T ((geo v w).point n))) {s n : Nat}
    (hs : marked m v w h thr s = 1) (r : Reach (nbs (w + 2)) S s n) :
    Conn T ((geo v w).point s) ((geo v w).point n) ∧ marked m v w h thr n = 1 := by
  induction r with
  | refl => exact ⟨.refl, hs⟩
  | step _ hn hs' ih =>
    have h1 := hS _ hs'
    exact ⟨.step ih.1 ((adj_iff D ih.2 h1).mp hn) ((hST _ h1).mp hs'), h1⟩

theorem conn_reach (D : Dims (geo v w) h) {S : Nat → Prop} {T : Nat × Nat → Prop}
    (hT : ∀ q, T q → Fg m v w h thr q)
    (hST : ∀ n, marked m v w h thr n = 1 → (S n ↔ T ((geo v w).point n))) {s : Nat} {q : Nat × Nat}
    (hs : marked m v w h thr s = 1) (r : Conn T ((geo v w).point s) q) :
    ∃ n, Reach (nbs (w + 2)) S s n ∧ marked m v w h thr n = 1 ∧ (geo v w).point n = q := by
  induction r with
  | refl => exact ⟨s, .refl, hs, rfl⟩
  | step _ ha ht ih =>
    obtain ⟨n, r, h1, rfl⟩ := ih
    obtain ⟨h2, h3⟩ := fg_pos D (hT _ ht)
    refine ⟨_, .step r ?_ ?_, h2, h3⟩
    · rw [adj_iff D h1 h2, h3]
      exact ha
    · rw [hST _ h2, h3]
      exact ht

theorem point_inj (D : Dims (geo v w) h) {a b : Nat} (ha : marked m v w h thr a = 1) (hb : marked m v w h thr b = 1)
    (e : (geo v w).point a = (geo v w).point b) : a = b := by
  rw [← (pos_fg D ha).2, ← (pos_fg D hb).2, e]

/-! ### The search -/

theorem Conn.symm {S : Nat × Nat → Prop} {p q : Nat × Nat} (hp : S p) (r : Conn S p q) : Conn S q p ∧ S q := by
  have trans : ∀ {a b c : Nat × Nat}, Conn S a b → Conn S b c → Conn S a c := by
    intro a b c h1 h2
    induction h2 with
    | refl => exact h1
    | step _ h3 h4 ih => exact .step ih h3 h4
  induction r with
  | refl => exact ⟨.refl, hp⟩
  | step _ ha hs ih =>
    refine ⟨trans (.step .refl ?_ ih.2) ih.1, hs⟩
    obtain ⟨h1, h2, h3, h4, h5⟩ := ha
    exact ⟨h1.symm, h3, h2, h5, h4⟩

theorem Conn.trans {S : Nat × Nat → Prop} {a b c : Nat × Nat} (h1 : Conn S a b) (h2 : Conn S b c) : Conn S a c := by
  induction h2 with
  | refl => exact h1
  | step _ h3 h4 ih => exact .step ih h3 h4

/-- What `find` gives for one blob. -/
structure IsBlob (F : Nat × Nat → Prop) (b : BlobInfo) : Prop where
  nodup : b.point.Nodup
  start : ∃ s, b.point.head? = some s ∧ b.contour.head? = some s ∧ F s ∧ ¬ Inner F s ∧
    (∀ q, q ∈ b.point ↔ Conn F s q) ∧ (∀ q, q ∈ b.contour ↔ Conn (Rim F) s q)
  edges : ∀ q, q ∈ b.edge ↔ q ∈ b.point ∧ ¬ Inner F q
  edge_sub : b.edge.Sublist b.point
  contour_nodup : b.contour.Nodup
  first : ∀ s, b.point.head? = some s → ∀ q, q ∈ b.point → s.2 ≤ q.2

/-- The limits of a filter are in order. -/
def Sane (p : Param) : Prop := ∀ a b, p.minimum = some a → p.maximum = some b → a ≤ b

/-- A value within the limits of a filter. -/
def Within (p : Param) (n : Nat) : Prop :=
  (∀ a, p.minimum = some a → a ≤ n) ∧ ∀ b, p.maximum = some b → n ≤ b

theorem verify_ok {p : Param} (hp : Sane p) (m : BMem) : p.verify m = .ok () m := by
  obtain ⟨a, b⟩ := p
  rcases a with _ | a
  · exact congrFun throwIf_false m
  rcases b with _ | b
  · exact congrFun throwIf_false m
  have hab := hp a b rfl rfl
  exact (congrArg (fun z => throwIf z m) (show decide (a > b) = false by simpa using hab)).trans (congrFun throwIf_false m)

theorem verify_bad {p : Param} (hp : ¬ Sane p) (m : BMem) : p.verify m = .throw m := by
  obtain ⟨a, b⟩ := p
  rcases a with _ | a
  · exact absurd (fun _ _ h => by simp at h) hp
  rcases b with _ | b
  · exact absurd (fun _ _ _ h => by simp at h) hp
  have hab : b < a := Nat.lt_of_not_le fun hle => hp fun _ _ h1 h2 => by simp_all
  exact (congrArg (fun z => throwIf z m) (show decide (a > b) = true by simpa using hab)).trans (throwIf_true m)

theorem drops_iff {p : Param} {n : Nat} : p.drops n = false ↔ Within p n := by
  obtain ⟨a, b⟩ := p
  unfold Param.drops Within
  rcases a with _ | a <;> rcases b with _ | b <;> simp [and_comm]

theorem none_sane : Sane Params.none.height ∧ Sane Params.none.size ∧ Sane Params.none.width :=
  ⟨fun _ _ h => by simp [Params.none] at h, fun _ _ h => by simp [Params.none] at h,
    fun _ _ h => by simp [Params.none] at h⟩

theorem none_apply (bs : List BlobInfo) : Params.none.apply bs = bs := by
  have : ∀ n, Param.drops ⟨.none, .none⟩ n = false := fun _ => rfl
  simp [Params.apply, Params.none, this]

theorem find_run (o : One m v w h) (cc : v.img.cc = 1) (small : (w + 2) * (h + 2) < 2 ^ 32) :
    ∃ bs, (∀ ps : Params, Sane ps.height ∧ Sane ps.size ∧ Sane ps.width → find v w h ps thr m = .ok (ps.apply bs) m) ∧
      (bs.flatMap (·.point)).Nodup ∧ (∀ p, p ∈ bs.flatMap (·.point) ↔ Fg m v w h thr p) ∧
      ∀ b, b ∈ bs → IsBlob (Fg m v w h thr) b := by
  have D := geo_dims o small
  have I : Init (geo v w) h (marked m v w h thr) := marked_init
  obtain ⟨L, c', e, out⟩ := findAll_run D I
  have hone : ∀ b, b ∈ L → ∀ n, n ∈ b.1 → marked m v w h thr n = 1 := fun b hb n hn => (out.comp b hb).one hn
  have hflat : ((L.map (info (geo v w) (marked m v w h thr))).flatMap (·.point))
      = (L.flatMap Prod.fst).map (geo v w).point := by
    rw [List.flatMap_map, List.map_flatMap]
    rfl
  have hinj : ∀ (l : List Nat), (∀ n, n ∈ l → marked m v w h thr n = 1) → l.Nodup → (l.map (geo v w).point).Nodup := by
    intro l hl hn
    exact nodup_map_inj hn fun a ha b hb => point_inj D (hl a ha) (hl b hb)
  have hend : (w + 2) * (h + 1) < 2 ^ 32 := by
    have : (w + 2) * (h + 1) ≤ (w + 2) * (h + 2) := Nat.mul_le_mul_left _ (by omega)
    omega
  have hw2 : w + 2 < 2 ^ 32 := by
    have : (w + 2) * 1 ≤ (w + 2) * (h + 2) := Nat.mul_le_mul_left _ (by omega)
    omega
  have hh2 : h + 2 < 2 ^ 32 := by
    have : 1 * (h + 2) ≤ (w + 2) * (h + 2) := Nat.mul_le_mul_right _ (by omega)
    omega
  have hfg : ∀ n, marked m v w h thr n = 1 → Fg m v w h thr ((geo v w).point n) := fun n hn => (pos_fg D hn).1
  refine ⟨L.map (info (geo v w) (marked m v w h thr)), ?_, ?_, ?_, ?_⟩
  · intro ps hps
    rw [find, bind_ok (validate_on_ok (vs := [v]) (by simp; exact ⟨o.wf, o.fit⟩)), bind_ok (gray_ok (by simp [cc])),
      bind_ok (verify_ok hps.1 m), bind_ok (verify_ok hps.2.1 m), bind_ok (verify_ok hps.2.2 m)]
    have hrun : (do
        mark m v w h (u32 (w + 2)) thr
        findAll ⟨v.x, v.y, w, u32 (w + 2)⟩ (u32 (u32 (w + 2) * u32 (h + 1))) : M PMap (List BlobInfo))
          ⟨u32 (w + 2) * u32 (h + 2), fun _ => 0⟩ =
          .ok (L.map (info (geo v w) (marked m v w h thr))) ⟨(geo v w).mw * (h + 2), c'⟩ := by
      rw [u32_of_lt (n := w + 2) hw2, u32_of_lt (n := h + 2) hh2, u32_of_lt (n := h + 1) (by omega), u32_of_lt hend,
        bind_ok (mark_run o.wf o.fit cc)]
      exact e
    rw [search, hrun]
  · rw [hflat]
    refine hinj _ (fun n hn => ?_) out.nodup
    obtain ⟨b, hb, hn⟩ := List.mem_flatMap.mp hn
    exact hone b hb n hn
  · intro p
    rw [hflat, List.mem_map]
    constructor
    · rintro ⟨n, hn, rfl⟩
      obtain ⟨b, hb, hn⟩ := List.mem_flatMap.mp hn
      exact hfg n (hone b hb n hn)
    · intro f
      obtain ⟨h1, h2⟩ := fg_pos D f
      refine ⟨_, out.passed _ ?_ h1, h2⟩
      have := (interior_lt D (I.inner _ h1)).2
      have e2 : (geo v w).mw * (h + 2) = (geo v w).mw * (h + 1) + (geo v w).mw := Nat.mul_succ ..
      omega
  · intro b hb
    obtain ⟨pr, hpr, rfl⟩ := List.mem_map.mp hb
    have k := out.comp pr hpr
    obtain ⟨s, h1, h2, h3, h4, h5, h6⟩ := k.start
    have ho := hone pr hpr
    have hc1 : ∀ n, n ∈ pr.2 → marked m v w h thr n = 1 := fun n hn =>
      ho n ((h5 n).mpr (Reach.mono (fun _ h => h.1) ((h6 n).mp hn)))
    refine ⟨hinj _ ho k.nodup, ⟨(geo v w).point s, ?_, ?_, hfg s h3, (inner_iff D h3).mp h4, fun q => ?_, fun q => ?_⟩,
      fun q => ?_, List.Sublist.map _ List.filter_sublist, hinj _ hc1 k.cnodup, fun s' hs' q hq => ?_⟩
    · simp only [info, List.head?_map, h1, Option.map_some]
    · simp only [info, List.head?_map, h2, Option.map_some]
    · simp only [info, List.mem_map]
      constructor
      · rintro ⟨n, hn, rfl⟩
        exact (reach_conn D (fun _ h => h) (fun _ h => h) (fun n hn => ⟨fun _ => hfg n hn, fun _ => hn⟩) h3
          ((h5 n).mp hn)).1
      · intro r
        obtain ⟨n, hr, _, e⟩ := conn_reach D (S := fun n => marked m v w h thr n = 1) (fun _ h => h)
          (fun n hn => ⟨fun _ => hfg n hn, fun _ => hn⟩) h3 r
        exact ⟨n, (h5 n).mpr hr, e⟩
    · have hST : ∀ n, marked m v w h thr n = 1 →
          ((marked m v w h thr n = 1 ∧ edgeAt (w + 2) (marked m v w h thr) n = true) ↔
            Rim (Fg m v w h thr) ((geo v w).point n)) := by
        intro n hn
        rw [inner_iff D hn, Rim]
        exact ⟨fun h => ⟨hfg n hn, h.2⟩, fun h => ⟨hn, h.2⟩⟩
      simp only [info, List.mem_map]
      constructor
      · rintro ⟨n, hn, rfl⟩
        exact (reach_conn D (fun _ h => h.1) (fun _ h => h.1) hST h3 ((h6 n).mp hn)).1
      · intro r
        obtain ⟨n, hr, _, e⟩ := conn_reach D (fun _ h => h.1) hST h3 r
        exact ⟨n, (h6 n).mpr hr, e⟩
    · simp only [info, List.mem_map, List.mem_filter]
      constructor
      · rintro ⟨n, ⟨hn, he⟩, rfl⟩
        exact ⟨⟨n, hn, rfl⟩, (inner_iff D (ho n hn)).mp he⟩
      · rintro ⟨⟨n, hn, rfl⟩, he⟩
        exact ⟨n, ⟨hn, (inner_iff D (ho n hn)).mpr he⟩, rfl⟩
    · simp only [info, List.head?_map, h1, Option.map_some, Option.some.injEq] at hs'
      subst hs'
      obtain ⟨n, hn, rfl⟩ := List.mem_map.mp hq
      have hle := k.first s h1 n hn
      obtain ⟨i, j, hi, hj, rfl, _⟩ := marked_iff.mp h3
      obtain ⟨i', j', hi', hj', rfl, _⟩ := marked_iff.mp (ho n hn)
      rw [point_ij D hi hj, point_ij D hi' hj']
      simp only [at'] at hle ⊢
      refine Nat.le_of_not_lt fun hlt => ?_
      have : (j' + 1 + 1) * (w + 2) ≤ (j + 1) * (w + 2) := Nat.mul_le_mul_right _ (by omega)
      rw [Nat.succ_mul (j' + 1)] at this
      omega

/-! ### C53 : blobs are the connected components -/

/-- With `(w + 2) * (h + 2) < 2^32` the search ends; every pixel at or above the threshold is in
    exactly one blob, and is listed there once; a blob is the set of all pixels connected to any
    one of its pixels. -/
theorem C53_components (o : One m v w h) (cc : v.img.cc = 1) (small : (w + 2) * (h + 2) < 2 ^ 32) :
    ∃ bs, find v w h Params.none thr m = .ok bs m ∧
      (bs.flatMap (·.point)).Nodup ∧ (∀ p, p ∈ bs.flatMap (·.point) ↔ Fg m v w h thr p) ∧
      ∀ b, b ∈ bs → b.point ≠ [] ∧ ∀ p, p ∈ b.point → ∀ q, q ∈ b.point ↔ Conn (Fg m v w h thr) p q := by
  obtain ⟨bs, h1, h2, h3, h4⟩ := find_run (thr := thr) o cc small
  refine ⟨bs, ?_, h2, h3, fun b hb => ?_⟩
  · rw [h1 _ none_sane, none_apply]
  · obtain ⟨s, hs, _, f, _, hq, _⟩ := (h4 b hb).start
    refine ⟨fun e => by rw [e] at hs; simp at hs, fun p hp q => ?_⟩
    have c1 := (hq p).mp hp
    rw [hq]
    exact ⟨fun c2 => (Conn.symm f c1).1.trans c2, fun c2 => c1.trans c2⟩

/-- Two pixels are in the same blob exactly when they are connected. -/
theorem C53_same_blob (o : One m v w h) (cc : v.img.cc = 1) (small : (w + 2) * (h + 2) < 2 ^ 32) :
    ∃ bs, find v w h Params.none thr m = .ok bs m ∧
      ∀ p q, Fg m v w h thr p →
        ((∃ b, b ∈ bs ∧ p ∈ b.point ∧ q ∈ b.point) ↔ Conn (Fg m v w h thr) p q) := by
  obtain ⟨bs, h1, _, h3, h4⟩ := C53_components (thr := thr) o cc small
  refine ⟨bs, h1, fun p q f => ⟨?_, fun c => ?_⟩⟩
  · rintro ⟨b, hb, hp, hq⟩
    exact ((h4 b hb).2 p hp q).mp hq
  · obtain ⟨b, hb, hp⟩ := List.mem_flatMap.mp ((h3 p).mpr f)
    exact ⟨b, hb, hp, ((h4 b hb).2 p hp q).mpr c⟩

/-- Rectangles which do not fit and colour images are refused. -/
theorem C53_rejects (ps : Params) (hb : Bad [v] w h (v.img.cc = 1)) : find v w h ps thr m = .throw m := by
  rw [find]
  refine rois_bad_then hb fun hc => ?_
  rw [bind_throw (gray_throw ⟨v.img, by simp, hc⟩)]

/-! ### C54 : edges and contours -/

/-- The edge points of a blob are its points with a neighbour which is not in any blob; the first
    point is one of them; the contour is the set of points connected to the first point through
    edge points. -/
theorem C54_edges (o : One m v w h) (cc : v.img.cc = 1) (small : (w + 2) * (h + 2) < 2 ^ 32) :
    ∃ bs, find v w h Params.none thr m = .ok bs m ∧ ∀ b, b ∈ bs →
      b.edge.Sublist b.point ∧ b.edge.Nodup ∧ b.contour.Nodup ∧
      (∀ q, q ∈ b.edge ↔ q ∈ b.point ∧ Rim (Fg m v w h thr) q) ∧
      (∀ q, q ∈ b.contour → q ∈ b.edge) ∧
      ∃ s, b.point.head? = some s ∧ b.contour.head? = some s ∧ s ∈ b.edge ∧
        ∀ q, q ∈ b.contour ↔ Conn (Rim (Fg m v w h thr)) s q := by
  obtain ⟨bs, h1, h2, h3, h4⟩ := find_run (thr := thr) o cc small
  refine ⟨bs, by rw [h1 _ none_sane, none_apply], fun b hb => ?_⟩
  have k := h4 b hb
  obtain ⟨s, hs, hc, f, hi, hq, hr⟩ := k.start
  have hfg : ∀ q, q ∈ b.point → Fg m v w h thr q := fun q hq' =>
    (h3 q).mp (List.mem_flatMap.mpr ⟨b, hb, hq'⟩)
  have hse : s ∈ b.edge := (k.edges s).mpr ⟨(hq s).mpr .refl, hi⟩
  have hmono : ∀ {q}, Conn (Rim (Fg m v w h thr)) s q → Conn (Fg m v w h thr) s q := by
    intro q c
    induction c with
    | refl => exact .refl
    | step _ a t ih => exact .step ih a t.1
  refine ⟨k.edge_sub, k.nodup.sublist k.edge_sub, k.contour_nodup, fun q => ?_, fun q hq' => ?_,
    s, hs, hc, hse, hr⟩
  · rw [k.edges]
    exact ⟨fun h => ⟨h.1, hfg q h.1, h.2⟩, fun h => ⟨h.1, h.2.2⟩⟩
  · have c := (hr q).mp hq'
    rw [k.edges]
    refine ⟨(hq q).mpr (hmono c), ?_⟩
    cases c with
    | refl => exact hi
    | step _ _ t => exact t.2

/-- The edge points of a blob are its points with a neighbour outside of the blob. -/
theorem C54_edges_of_blob (o : One m v w h) (cc : v.img.cc = 1) (small : (w + 2) * (h + 2) < 2 ^ 32) :
    ∃ bs, find v w h Params.none thr m = .ok bs m ∧ ∀ b, b ∈ bs →
      ∀ q, q ∈ b.edge ↔ Rim (fun p => p ∈ b.point) q := by
  obtain ⟨bs, e1, h1⟩ := C54_edges (thr := thr) o cc small
  obtain ⟨bs', e2, _, h3, h4⟩ := C53_components (thr := thr) o cc small
  rw [e1] at e2
  obtain ⟨rfl, _⟩ := Res.ok.inj e2
  refine ⟨bs, e1, fun b hb q => ?_⟩
  rw [(h1 b hb).2.2.2.1 q, Rim, Rim]
  refine and_congr_right fun hq => ?_
  have hfg : ∀ p, p ∈ b.point → Fg m v w h thr p := fun p hp => (h3 p).mp (List.mem_flatMap.mpr ⟨b, hb, hp⟩)
  refine ⟨fun hr hi => hr.2 fun d e hd he => ?_, fun hn => ⟨hfg q hq, fun hi => hn fun d e hd he => ?_⟩⟩
  · obtain ⟨p, hp, h⟩ := hi d e hd he
    exact ⟨p, hfg p hp, h⟩
  · obtain ⟨p, hp, h5, h6⟩ := hi d e hd he
    refine ⟨p, ((h4 b hb).2 q hq p).mpr ?_, h5, h6⟩
    by_cases hpq : q = p
    · subst hpq
      exact .refl
    · exact .step .refl ⟨hpq, by omega, by omega, by omega, by omega⟩ hp

/-! ### C71 : the filters -/

/-- `k` is the number of positions from the smallest to the largest of the values. -/
def Spans (l : List Nat) (k : Nat) : Prop :=
  ∃ lo hi, lo ∈ l ∧ hi ∈ l ∧ (∀ a, a ∈ l → lo ≤ a ∧ a ≤ hi) ∧ k = hi - lo + 1

theorem foldl_max (l : List Nat) : ∀ a, a ≤ l.foldl Nat.max a ∧ (∀ b, b ∈ l → b ≤ l.foldl Nat.max a) ∧
    (l.foldl Nat.max a = a ∨ l.foldl Nat.max a ∈ l) := by
  induction l with
  | nil => exact fun a => ⟨Nat.le_refl _, by simp, Or.inl rfl⟩
  | cons b l ih =>
    intro a
    obtain ⟨h1, h2, h3⟩ := ih (Nat.max a b)
    have ha : a ≤ Nat.max a b := Nat.le_max_left ..
    have hb : b ≤ Nat.max a b := Nat.le_max_right ..
    refine ⟨Nat.le_trans ha h1, fun c hc => ?_, ?_⟩
    · rcases List.mem_cons.mp hc with rfl | hc
      · exact Nat.le_trans hb h1
      · exact h2 c hc
    · simp only [List.foldl_cons, List.mem_cons]
      rcases h3 with h3 | h3
      · rw [h3]
        rcases Nat.le_total a b with hab | hab
        · exact Or.inr (Or.inl (Nat.max_eq_right hab))
        · exact Or.inl (Nat.max_eq_left hab)
      · exact Or.inr (Or.inr h3)

theorem foldl_min (l : List Nat) : ∀ a, l.foldl Nat.min a ≤ a ∧ (∀ b, b ∈ l → l.foldl Nat.min a ≤ b) ∧
    (l.foldl Nat.min a = a ∨ l.foldl Nat.min a ∈ l) := by
  induction l with
  | nil => exact fun a => ⟨Nat.le_refl _, by simp, Or.inl rfl⟩
  | cons b l ih =>
    intro a
    obtain ⟨h1, h2, h3⟩ := ih (Nat.min a b)
    have ha : Nat.min a b ≤ a := Nat.min_le_left ..
    have hb : Nat.min a b ≤ b := Nat.min_le_right ..
    refine ⟨Nat.le_trans h1 ha, fun c hc => ?_, ?_⟩
    · rcases List.mem_cons.mp hc with rfl | hc
      · exact Nat.le_trans h1 hb
      · exact h2 c hc
    · simp only [List.foldl_cons, List.mem_cons]
      rcases h3 with h3 | h3
      · rw [h3]
        rcases Nat.le_total a b with hab | hab
        · exact Or.inl (Nat.min_eq_left hab)
        · exact Or.inr (Or.inl (Nat.min_eq_right hab))
      · exact Or.inr (Or.inr h3)

theorem spans_extent {l : List Nat} (hl : l ≠ []) (hb : ∀ a, a ∈ l → a < 4294967295) : Spans l (extent l) := by
  obtain ⟨x, hx⟩ := List.exists_mem_of_ne_nil l hl
  obtain ⟨_, h2, h3⟩ := foldl_max l 0
  obtain ⟨_, h5, h6⟩ := foldl_min l 4294967295
  have hx1 := h2 x hx
  have hx2 := h5 x hx
  have hx3 := hb x hx
  have hi : l.foldl Nat.max 0 ∈ l := by
    rcases h3 with h3 | h3
    · rw [h3, show 0 = x by omega]
      exact hx
    · exact h3
  have lo : l.foldl Nat.min 4294967295 ∈ l := by
    rcases h6 with h6 | h6
    · omega
    · exact h6
  refine ⟨_, _, lo, hi, fun a ha => ⟨h5 a ha, h2 a ha⟩, ?_⟩
  have := hb _ hi
  have := hb _ lo
  simp only [extent, u32]
  omega

theorem spans_unique {l : List Nat} {a b : Nat} (ha : Spans l a) (hb : Spans l b) : a = b := by
  obtain ⟨lo, hi, h1, h2, h3, rfl⟩ := ha
  obtain ⟨lo', hi', h1', h2', h3', rfl⟩ := hb
  have := h3 _ h1'
  have := h3 _ h2'
  have := h3' _ h1
  have := h3' _ h2
  omega

theorem blobs_nodup {bs : List BlobInfo} (hn : (bs.flatMap (·.point)).Nodup) (hne : ∀ b, b ∈ bs → b.point ≠ []) :
    bs.Nodup := by
  induction bs with
  | nil => exact List.nodup_nil
  | cons b bs ih =>
    rw [List.flatMap_cons, List.nodup_append] at hn
    refine List.nodup_cons.mpr ⟨fun hb => ?_, ih hn.2.1 fun c hc => hne c (List.mem_cons_of_mem _ hc)⟩
    obtain ⟨p, hp⟩ := List.exists_mem_of_ne_nil _ (hne b (List.mem_cons_self ..))
    exact hn.2.2 p hp p (List.mem_flatMap.mpr ⟨b, hb, hp⟩) rfl

/-- With limits which are in order, the result is the list of the blobs found without limits, in
    the same order, without those which do not keep the limits of size, width and height. -/
theorem C71_filters (o : One m v w h) (cc : v.img.cc = 1) (small : (w + 2) * (h + 2) < 2 ^ 32) (ps : Params)
    (hps : Sane ps.height ∧ Sane ps.size ∧ Sane ps.width) :
    ∃ all kept, find v w h Params.none thr m = .ok all m ∧ find v w h ps thr m = .ok kept m ∧
      all.Nodup ∧ kept.Sublist all ∧
      ∀ b, b ∈ all → (b ∈ kept ↔ Within ps.size b.point.length ∧
        (∃ k, Spans (b.contour.map Prod.fst) k ∧ Within ps.width k) ∧
        (∃ k, Spans (b.contour.map Prod.snd) k ∧ Within ps.height k)) := by
  obtain ⟨bs, h1, h2, h3, h4⟩ := find_run (thr := thr) o cc small
  obtain ⟨_, _, _, w1, w2, _⟩ := View.facts o.wf o.fit
  have w3 := o.fit.inX
  have w4 := o.fit.inY
  refine ⟨bs, ps.apply bs, by rw [h1 _ none_sane, none_apply], h1 ps hps, ?_, ?_, fun b hb => ?_⟩
  · refine blobs_nodup h2 fun b hb e => ?_
    obtain ⟨s, hs, _⟩ := (h4 b hb).start
    rw [e] at hs
    simp at hs
  · exact (List.filter_sublist.trans List.filter_sublist).trans List.filter_sublist
  · obtain ⟨s, _, hc, f, _, hq, hr⟩ := (h4 b hb).start
    have hfg : ∀ q, q ∈ b.contour → Fg m v w h thr q := by
      intro q hq'
      cases (hr q).mp hq' with
      | refl => exact f
      | step _ _ t => exact t.1
    have hs : s ∈ b.contour := List.mem_of_mem_head? hc
    have ex := spans_extent (l := b.contour.map Prod.fst) (List.ne_nil_of_mem (List.mem_map_of_mem hs)) (by
      intro a ha
      obtain ⟨q, hq, rfl⟩ := List.mem_map.mp ha
      have := (hfg q hq).2.1
      omega)
    have ey := spans_extent (l := b.contour.map Prod.snd) (List.ne_nil_of_mem (List.mem_map_of_mem hs)) (by
      intro a ha
      obtain ⟨q, hq, rfl⟩ := List.mem_map.mp ha
      have := (hfg q hq).2.2.2.1
      omega)
    simp only [Params.apply, List.mem_filter, Bool.not_eq_true', drops_iff]
    constructor
    · rintro ⟨⟨⟨_, k1⟩, k2⟩, k3⟩
      exact ⟨k2, ⟨_, ex, k3⟩, ⟨_, ey, k1⟩⟩
    · rintro ⟨k2, ⟨a, ka, k3⟩, ⟨c, kc, k1⟩⟩
      rw [spans_unique ka ex] at k3
      rw [spans_unique kc ey] at k1
      exact ⟨⟨⟨hb, k1⟩, k2⟩, k3⟩

theorem C71_rejects (o : One m v w h) (cc : v.img.cc = 1) (ps : Params)
    (hps : ¬ (Sane ps.height ∧ Sane ps.size ∧ Sane ps.width)) : find v w h ps thr m = .throw m := by
  rw [find, bind_ok (validate_on_ok (vs := [v]) (by simp; exact ⟨o.wf, o.fit⟩)), bind_ok (gray_ok (by simp [cc]))]
  by_cases h1 : Sane ps.height
  · rw [bind_ok (verify_ok h1 m)]
    by_cases h2 : Sane ps.size
    · rw [bind_ok (verify_ok h2 m)]
      by_cases h3 : Sane ps.width
      · exact absurd ⟨h1, h2, h3⟩ hps
      · rw [bind_throw (verify_bad h3 m)]
    · rw [bind_throw (verify_bad h2 m)]
  · rw [bind_throw (verify_bad h1 m)]

/-! ### Examples -/

/-- Two blobs: a ring with a hole and one pixel; below, a diagonal neighbour of the ring.
```
9 9 9 0 0
9 0 9 0 7
9 9 9 0 0
0 0 0 9 0
``` -/
def blobMem : BMem where
  size b := if b = 1 then 24 else 0
  byte _ i := [9, 9, 9, 0, 0, 9, 9, 0, 9, 0, 7, 9, 9, 9, 9, 0, 0, 9, 0, 0, 0, 9, 0, 9].getD i 0

/-- Rows of 5 pixels padded to 6. -/
def blobImg : Image := ⟨1, 5, 4, 1, 6⟩

theorem one_blob : One blobMem ⟨blobImg, 0, 0⟩ 5 4 :=
  ⟨⟨by decide, by decide, by decide⟩, ⟨by decide, Or.inl rfl, by decide, by decide, by decide, by decide⟩⟩

/-- The theorems apply: two blobs. -/
example : ∃ bs, find ⟨blobImg, 0, 0⟩ 5 4 Params.none 5 blobMem = .ok bs blobMem ∧ ∀ p q, Fg blobMem ⟨blobImg, 0, 0⟩ 5 4 5 p →
    ((∃ b, b ∈ bs ∧ p ∈ b.point ∧ q ∈ b.point) ↔ Conn (Fg blobMem ⟨blobImg, 0, 0⟩ 5 4 5) p q) :=
  C53_same_blob one_blob rfl (by decide)

/-- The points and the contour of a result. -/
def points : Res BMem (List BlobInfo) → Option (List (List (Nat × Nat)))
  | .ok bs _ => some (bs.map (·.point))
  | _ => none

example : points (find ⟨blobImg, 0, 0⟩ 5 4 Params.none 5 blobMem) =
    some [[(0, 0), (1, 0), (0, 1), (2, 0), (2, 1), (0, 2), (1, 2), (2, 2), (3, 3)], [(4, 1)]] := by
  decide +kernel

/-- A limit on the size. -/
example : points (find ⟨blobImg, 0, 0⟩ 5 4 ⟨⟨none, none⟩, ⟨none, some 3⟩, ⟨some 1, none⟩⟩ 5 blobMem) =
    some [[(4, 1)]] := by
  decide +kernel

example : find ⟨blobImg, 0, 0⟩ 5 4 ⟨⟨none, none⟩, ⟨some 4, some 3⟩, ⟨some 1, none⟩⟩ 5 blobMem = .throw blobMem :=
  C71_rejects one_blob rfl _ fun h => by simpa using h.2.1 4 3 rfl rfl

/-! ### C72 : large rectangles -/

theorem search_off {g : Geo} {sz endMap : Nat} (he : endMap < g.mw) (fuel : Nat) :
    ∀ {p : Nat} {found : List BlobInfo}, g.mw ≤ p →
    loop (fun p => p != endMap) (fun p => p + 1) (fun p found => do
      let c ← getCell p
      if c = 1 then do
        let b ← findBlob g p
        pure (found ++ [b])
      else pure found) fuel p found ⟨sz, fun _ => 0⟩ = .ub ∨ p + fuel < sz := by
  induction fuel with
  | zero =>
    intro p found _
    exact Or.inl rfl
  | succ fuel ih =>
    intro p found hp
    have hc : (p != endMap) = true := by
      simp only [bne_iff_ne, ne_eq]
      omega
    rw [loop, if_pos hc]
    by_cases hlt : p < sz
    · rw [bind_assoc', bind_ok (getCell_run hlt)]
      rcases ih (p := p + 1) (found := found) (by omega) with h | h
      · left
        rw [if_neg (by decide)]
        exact h
      · exact Or.inr (by omega)
    · left
      rw [bind_ub (bind_ub _)]
      exact if_neg hlt

/-- The end of the loop over the map is computed with 32 bits.  When it wraps below the start of
    the loop, the loop runs over the end of the map: the call is undefined, whatever the image
    (here with no pixel at the threshold). -/
theorem C72_large_undefined (o : One m v w h) (cc : v.img.cc = 1) (hw : w + 2 < 2 ^ 32) (hh : h + 2 < 2 ^ 32)
    (wrap : (w + 2) * (h + 1) % 2 ^ 32 < w + 2)
    (dark : ∀ x y, x < w → y < h → v.get m x y 0 < thr) :
    find v w h Params.none thr m = .ub := by
  obtain ⟨n1, n2, n3⟩ := none_sane
  rw [find, bind_ok (validate_on_ok (vs := [v]) (by simp; exact ⟨o.wf, o.fit⟩)), bind_ok (gray_ok (by simp [cc])),
    bind_ok (verify_ok n1 m), bind_ok (verify_ok n2 m), bind_ok (verify_ok n3 m)]
  have hzero : marked m v w h thr = fun _ => 0 := by
    funext n
    refine (marked_bin n).resolve_right fun e => ?_
    obtain ⟨i, j, hi, hj, _, hv⟩ := marked_iff.mp e
    exact absurd hv (UInt8.not_le.mpr (dark i j hi hj))
  have hrun : (do
      mark m v w h (u32 (w + 2)) thr
      findAll ⟨v.x, v.y, w, u32 (w + 2)⟩ (u32 (u32 (w + 2) * u32 (h + 1))) : M PMap (List BlobInfo))
        ⟨u32 (w + 2) * u32 (h + 2), fun _ => 0⟩ = .ub := by
    rw [u32_of_lt (n := w + 2) hw, u32_of_lt (n := h + 2) hh, u32_of_lt (n := h + 1) (by omega),
      bind_ok (mark_run o.wf o.fit cc), hzero, findAll]
    refine (search_off (g := ⟨v.x, v.y, w, w + 2⟩) wrap fuelMax (Nat.le_refl _)).resolve_right ?_
    have h1 : (w + 2) * (h + 2) ≤ 2 ^ 32 * 2 ^ 32 := Nat.mul_le_mul (by omega) (by omega)
    unfold fuelMax
    simp only
    omega
  rw [search, hrun]

/-- A dark image of 65535x65535 pixels. -/
def hugeMem : BMem where
  size b := if b = 1 then 65535 * 65535 else 0
  byte _ _ := 0

theorem one_huge : One hugeMem ⟨⟨1, 65535, 65535, 1, 65535⟩, 0, 0⟩ 65535 65535 :=
  ⟨⟨by decide, by decide, by decide⟩, ⟨by decide, Or.inl rfl, by decide, by decide, by decide, by decide⟩⟩

/-- The claim that every rectangle inside a gray-scale image can be searched is false. -/
theorem C72_false :
    ¬ ∀ (m : BMem) (v : View) (w h : Nat) (thr : UInt8), One m v w h → v.img.cc = 1 →
      ∃ bs m', find v w h Params.none thr m = .ok bs m' := by
  intro hall
  obtain ⟨bs, m', e⟩ := hall _ _ _ _ 1 one_huge rfl
  rw [C72_large_undefined one_huge rfl (by decide) (by decide) (by decide) (fun _ _ _ _ => (by decide : (0 : UInt8) < 1))] at e
  exact absurd e (by simp)

/-- What holds: a rectangle with `(w + 2) * (h + 2) < 2^32` can be searched. -/
theorem C72_search_partial (o : One m v w h) (cc : v.img.cc = 1) (small : (w + 2) * (h + 2) < 2 ^ 32) :
    ∃ bs, find v w h Params.none thr m = .ok bs m := by
  obtain ⟨bs, e, _⟩ := C53_components (thr := thr) o cc small
  exact ⟨bs, e⟩

end PV.Props
