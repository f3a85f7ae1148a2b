import Verif.PropsBlob
/-
  The outer border of a connected set of pixels: every pixel of the set from which one can leave the set along a row or a column belongs to
  the part of the rim that is connected to a topmost pixel.

  The proof counts, modulo two, the borders between pixels of the set and other pixels which one crosses on the way from the left; only borders
  with a pixel of that part of the rim are counted.  The count does not depend on the way.
-/
namespace PV.Props

namespace Outer

/-- Whether the border between two neighbours is counted. Not in the code: for statements and proofs. -/
def cut (b c b' c' : Bool) : Bool := (b != b') && (c || c')

/-- Two by two pixels: around a corner an even number of borders is counted. -/
theorem around : ∀ p q r t cp cq cr ct : Bool, (cp → p) → (cq → q) → (cr → r) → (ct → t) →
    (¬ (p ∧ q ∧ r ∧ t) → (p → q → cp = cq) ∧ (p → r → cp = cr) ∧ (p → t → cp = ct) ∧ (q → r → cq = cr) ∧ (q → t → cq = ct) ∧ (r → t → cr = ct)) →
    ((cut p cp r cr ^^ cut q cq t ct) = (cut p cp q cq ^^ cut r cr t ct)) ∧
    (p → t → cut p cp q cq = cut q cq t ct) ∧ (q → r → cut p cp q cq = cut p cp r cr) := by
  intro p q r t cp cq cr ct
  cases p <;> cases q <;> cases r <;> cases t <;> cases cp <;> cases cq <;> cases cr <;> cases ct <;> simp [cut]

/-- Pixels with coordinates shifted by one, so that row 0 and column 0 are empty. Not in the code: for statements and proofs. -/
structure Picture where
  b : Nat → Nat → Bool
  c : Nat → Nat → Bool
  /-- from here on everything is empty -/
  N : Nat
  zx : ∀ y, b 0 y = false
  zy : ∀ x, b x 0 = false
  sub : ∀ x y, c x y → b x y
  inX : ∀ x y, b x y → x < N
  inY : ∀ x y, b x y → y < N
  /-- Two pixels of a block which is not wholly in the set are both counted, or none of them. -/
  block : ∀ x y, ¬ (b x y ∧ b (x + 1) y ∧ b x (y + 1) ∧ b (x + 1) (y + 1)) →
    (b x y → b (x + 1) y → c x y = c (x + 1) y) ∧ (b x y → b x (y + 1) → c x y = c x (y + 1)) ∧
    (b x y → b (x + 1) (y + 1) → c x y = c (x + 1) (y + 1)) ∧ (b (x + 1) y → b x (y + 1) → c (x + 1) y = c x (y + 1)) ∧
    (b (x + 1) y → b (x + 1) (y + 1) → c (x + 1) y = c (x + 1) (y + 1)) ∧ (b x (y + 1) → b (x + 1) (y + 1) → c x (y + 1) = c (x + 1) (y + 1))

variable (P : Picture)

/-- The border on the right. Not in the code: for statements and proofs. -/
def Picture.hor (x y : Nat) : Bool := cut (P.b x y) (P.c x y) (P.b (x + 1) y) (P.c (x + 1) y)

/-- The border below. Not in the code: for statements and proofs. -/
def Picture.ver (x y : Nat) : Bool := cut (P.b x y) (P.c x y) (P.b x (y + 1)) (P.c x (y + 1))

/-- The count on the way from the left. Not in the code: for statements and proofs. -/
def Picture.f (P : Picture) : Nat → Nat → Bool
  | 0, _ => false
  | x + 1, y => Picture.f P x y ^^ P.hor x y

theorem Picture.around (x y : Nat) :
    ((P.ver x y ^^ P.ver (x + 1) y) = (P.hor x y ^^ P.hor x (y + 1))) ∧
    (P.b x y → P.b (x + 1) (y + 1) → P.hor x y = P.ver (x + 1) y) ∧ (P.b (x + 1) y → P.b x (y + 1) → P.hor x y = P.ver x y) :=
  Outer.around _ _ _ _ _ _ _ _ (P.sub _ _) (P.sub _ _) (P.sub _ _) (P.sub _ _) (P.block x y)

theorem Picture.ver_f (P : Picture) : ∀ x y, (P.f x y ^^ P.f x (y + 1)) = P.ver x y
  | 0, y => by simp [f, ver, cut, P.zx]
  | x + 1, y => by
    have h1 := Picture.ver_f P x y
    have h2 := (P.around x y).1
    simp only [f]
    revert h1 h2
    cases P.f x y <;> cases P.f x (y + 1) <;> cases P.ver x y <;> cases P.ver (x + 1) y <;> cases P.hor x y <;>
      cases P.hor x (y + 1) <;> decide

theorem cut_empty {c c' : Bool} : cut false c false c' = false := by simp [cut]
theorem cut_full {c c' : Bool} : cut true c true c' = false := by simp [cut]

theorem Picture.f_below {x y : Nat} (h : P.ver x y = false) : P.f x (y + 1) = P.f x y := by
  have := P.ver_f x y
  rw [h] at this
  revert this
  cases P.f x y <;> cases P.f x (y + 1) <;> decide

theorem Picture.f_right {x y : Nat} (h : P.hor x y = false) : P.f (x + 1) y = P.f x y := by simp [f, h]

theorem Picture.f_emptyRow (P : Picture) {y : Nat} : ∀ {x : Nat}, (∀ z, z ≤ x → P.b z y = false) → P.f x y = false
  | 0, _ => rfl
  | x + 1, h => by
    rw [P.f_right (by rw [hor, h x (by omega), h (x + 1) (by omega)]; exact cut_empty)]
    exact Picture.f_emptyRow P fun z hz => h z (by omega)

theorem Picture.f_emptyColumn (P : Picture) {x : Nat} : ∀ {y : Nat}, (∀ z, z ≤ y → P.b x z = false) → P.f x y = false
  | 0, _ => P.f_emptyRow fun z _ => P.zy z
  | y + 1, h => by
    rw [P.f_below (by rw [ver, h y (by omega), h (y + 1) (by omega)]; exact cut_empty)]
    exact Picture.f_emptyColumn P fun z hz => h z (by omega)

/-- Neighbours, diagonals included, in shifted coordinates. -/
theorem Picture.f_step {x y x' y' : Nat} (h : P.b x y) (h' : P.b x' y') (h1 : x ≤ x' + 1) (h2 : x' ≤ x + 1) (h3 : y ≤ y' + 1)
    (h4 : y' ≤ y + 1) : P.f x y = P.f x' y' := by
  have hor0 : ∀ {x y}, P.b x y → P.b (x + 1) y → P.f (x + 1) y = P.f x y := fun {x y} a c =>
    P.f_right (by rw [hor, a, c]; exact cut_full)
  have ver0 : ∀ {x y}, P.b x y → P.b x (y + 1) → P.f x (y + 1) = P.f x y := fun {x y} a c =>
    P.f_below (by rw [ver, a, c]; exact cut_full)
  have diag : ∀ {x y}, P.b x y → P.b (x + 1) (y + 1) → P.f x y = P.f (x + 1) (y + 1) := by
    intro x y a c
    have e := (P.around x y).2.1 a c
    have v := P.ver_f (x + 1) y
    rw [f] at v
    revert v e
    cases P.f x y <;> cases P.f (x + 1) (y + 1) <;> cases P.hor x y <;> cases P.ver (x + 1) y <;> decide
  have anti : ∀ {x y}, P.b (x + 1) y → P.b x (y + 1) → P.f (x + 1) y = P.f x (y + 1) := by
    intro x y a c
    have e := (P.around x y).2.2 a c
    have v := P.ver_f x y
    rw [f]
    revert v e
    cases P.f x y <;> cases P.f x (y + 1) <;> cases P.hor x y <;> cases P.ver x y <;> decide
  have hx : x' = x ∨ x' = x + 1 ∨ x = x' + 1 := by omega
  have hy : y' = y ∨ y' = y + 1 ∨ y = y' + 1 := by omega
  rcases hx with rfl | rfl | rfl <;> rcases hy with rfl | rfl | rfl
  · rfl
  · exact (ver0 h h').symm
  · exact ver0 h' h
  · exact (hor0 h h').symm
  · exact diag h h'
  · exact (anti h' h).symm
  · exact hor0 h' h
  · exact anti h h'
  · exact (diag h' h).symm

/-- From a pixel of the set inside of the count, where the row or column on one side is empty -/
theorem Picture.leave {x y : Nat} (hb : P.b x y) (hf : P.f x y = true)
    (h : (∀ z, x < z → P.b z y = false) ∨ (∀ z, z < x → P.b z y = false) ∨ (∀ z, y < z → P.b x z = false) ∨ (∀ z, z < y → P.b x z = false)) :
    P.c x y = true := by
  have no : ∀ {x y}, P.b x y = false → P.c x y = false := by
    intro x y e
    rw [Bool.eq_false_iff]
    intro ec
    rw [P.sub x y ec] at e
    simp at e
  rcases h with h | h | h | h
  · have h1 : ∀ n, P.f (x + 1 + n) y = P.f (x + 1) y := by
      intro n
      induction n with
      | zero => rfl
      | succ n ih =>
        rw [← ih]
        exact P.f_right (x := x + 1 + n) (by rw [hor, h (x + 1 + n) (by omega), h (x + 1 + n + 1) (by omega)]; exact cut_empty)
    have h2 : P.f (x + 1 + P.N) y = false := P.f_emptyColumn fun z _ => by
      rw [Bool.eq_false_iff]
      intro e
      have := P.inX _ _ e
      omega
    rw [h1, f, hf, hor, h (x + 1) (by omega), no (h (x + 1) (by omega)), hb] at h2
    revert h2
    cases P.c x y <;> decide
  · match x with
    | 0 => rw [P.zx] at hb; simp at hb
    | x + 1 =>
      have h2 : P.f x y = false := P.f_emptyRow fun z hz => h z (by omega)
      rw [f, h2, hor, h x (by omega), no (h x (by omega)), hb] at hf
      revert hf
      cases P.c (x + 1) y <;> decide
  · have h1 : ∀ n, P.f x (y + 1 + n) = P.f x (y + 1) := by
      intro n
      induction n with
      | zero => rfl
      | succ n ih =>
        rw [← ih]
        exact P.f_below (y := y + 1 + n) (by rw [ver, h (y + 1 + n) (by omega), h (y + 1 + n + 1) (by omega)]; exact cut_empty)
    have h2 : P.f x (y + 1 + P.N) = false := P.f_emptyRow fun z _ => by
      rw [Bool.eq_false_iff]
      intro e
      have := P.inY _ _ e
      omega
    have h3 := P.ver_f x y
    rw [h1] at h2
    rw [h2, hf, ver, h (y + 1) (by omega), no (h (y + 1) (by omega)), hb] at h3
    revert h3
    cases P.c x y <;> decide
  · match y with
    | 0 => rw [P.zy] at hb; simp at hb
    | y + 1 =>
      have h2 : P.f x y = false := P.f_emptyColumn fun z hz => h z (by omega)
      have h3 := P.ver_f x y
      rw [h2, hf, ver, h y (by omega), no (h y (by omega)), hb] at h3
      revert h3
      cases P.c x (y + 1) <;> decide

theorem Picture.top {x y : Nat} (hc : P.c x (y + 1)) (h : ∀ z, P.b z y = false) : P.f x (y + 1) = true := by
  have h2 : P.f x y = false := P.f_emptyRow fun z _ => h z
  have h3 := P.ver_f x y
  rw [h2, ver, h, P.sub _ _ hc, hc] at h3
  revert h3
  cases P.f x (y + 1) <;> cases P.c x y <;> decide

end Outer

open Classical in
/-- A connected, bounded set `S`; a part `C` of its rim that holds all neighbours in the rim, and a topmost pixel.  A pixel from which one leaves
    the set to the right, to the left, downwards or upwards is in `C`. -/
theorem outer_rim {S C : Nat × Nat → Prop} (hCS : ∀ p, C p → S p) (hclosed : ∀ p q, C p → Adj8 p q → S q → ¬ Inner S q → C q)
    {N : Nat} (hN : ∀ p, S p → p.1 < N ∧ p.2 < N) {s : Nat × Nat} (hs : C s) (htop : ∀ q, S q → s.2 ≤ q.2)
    (hconn : ∀ q, S q → Conn S s q) {p : Nat × Nat} (hp : S p)
    (h : (∀ z, p.1 < z → ¬ S (z, p.2)) ∨ (∀ z, z < p.1 → ¬ S (z, p.2)) ∨ (∀ z, p.2 < z → ¬ S (p.1, z)) ∨ (∀ z, z < p.2 → ¬ S (p.1, z))) :
    C p := by
  let b : Nat → Nat → Bool := fun x y => decide (∃ p, S p ∧ p.1 + 1 = x ∧ p.2 + 1 = y)
  let c : Nat → Nat → Bool := fun x y => decide (∃ p, C p ∧ p.1 + 1 = x ∧ p.2 + 1 = y)
  have hb : ∀ x y, b x y = true ↔ ∃ p, S p ∧ p.1 + 1 = x ∧ p.2 + 1 = y := fun x y => by simp only [b, decide_eq_true_eq]
  have hc : ∀ x y, c x y = true ↔ ∃ p, C p ∧ p.1 + 1 = x ∧ p.2 + 1 = y := fun x y => by simp only [c, decide_eq_true_eq]
  -- pixels of a block that is not full are in the rim
  have rim : ∀ {x y x' y' u v : Nat}, b u v = false → b x y = true → b x' y' = true → x ≤ u + 1 → u ≤ x + 1 → y ≤ v + 1 → v ≤ y + 1 →
      x' ≤ u + 1 → u ≤ x' + 1 → y' ≤ v + 1 → v ≤ y' + 1 → x ≤ x' + 1 → x' ≤ x + 1 → y ≤ y' + 1 → y' ≤ y + 1 → c x y = c x' y' := by
    intro x y x' y' u v huv hxy hxy' a1 a2 a3 a4 a5 a6 a7 a8 a9 a10 a11 a12
    have key : ∀ {x y x' y' : Nat}, b x y = true → b x' y' = true → x' ≤ u + 1 → u ≤ x' + 1 → y' ≤ v + 1 → v ≤ y' + 1 → x ≤ x' + 1 →
        x' ≤ x + 1 → y ≤ y' + 1 → y' ≤ y + 1 → c x y = true → c x' y' = true := by
      intro x y x' y' hxy hxy' a5 a6 a7 a8 a9 a10 a11 a12 hcc
      obtain ⟨p, hp, e1, e2⟩ := (hc x y).1 hcc
      obtain ⟨q, hq, e3, e4⟩ := (hb x' y').1 hxy'
      by_cases hpq : p = q
      · subst hpq
        exact (hc x' y').2 ⟨p, hp, e3, e4⟩
      · refine (hc x' y').2 ⟨q, hclosed p q hp ⟨hpq, by omega, by omega, by omega, by omega⟩ hq ?_, e3, e4⟩
        intro hin
        obtain ⟨r, hr, e5, e6⟩ := hin (u + 1 - x') (v + 1 - y') (by omega) (by omega)
        rw [Bool.eq_false_iff] at huv
        exact huv ((hb u v).2 ⟨r, hr, by omega, by omega⟩)
    cases hcc : c x y with
    | true => exact (key hxy hxy' a5 a6 a7 a8 a9 a10 a11 a12 hcc).symm
    | false =>
      cases hcc' : c x' y' with
      | false => rfl
      | true =>
        rw [key hxy' hxy a1 a2 a3 a4 (by omega) (by omega) (by omega) (by omega) hcc'] at hcc
        exact hcc.symm
  let P : Outer.Picture :=
    { b := b
      c := c
      N := N + 1
      zx := fun y => by
        rw [Bool.eq_false_iff]
        intro e
        obtain ⟨p, _, e, _⟩ := (hb _ _).1 e
        omega
      zy := fun y => by
        rw [Bool.eq_false_iff]
        intro e
        obtain ⟨p, _, _, e⟩ := (hb _ _).1 e
        omega
      sub := fun x y e => by
        obtain ⟨p, h1, h2⟩ := (hc x y).1 e
        exact (hb x y).2 ⟨p, hCS p h1, h2⟩
      inX := fun x y e => by
        obtain ⟨p, h1, h2, _⟩ := (hb x y).1 e
        have := (hN p h1).1
        omega
      inY := fun x y e => by
        obtain ⟨p, h1, _, h2⟩ := (hb x y).1 e
        have := (hN p h1).2
        omega
      block := by
        intro x y hn
        have : ∃ u v, b u v = false ∧ x ≤ u ∧ u ≤ x + 1 ∧ y ≤ v ∧ v ≤ y + 1 := by
          cases e1 : b x y with
          | false => exact ⟨x, y, e1, by omega, by omega, by omega, by omega⟩
          | true =>
          cases e2 : b (x + 1) y with
          | false => exact ⟨x + 1, y, e2, by omega, by omega, by omega, by omega⟩
          | true =>
          cases e3 : b x (y + 1) with
          | false => exact ⟨x, y + 1, e3, by omega, by omega, by omega, by omega⟩
          | true =>
          cases e4 : b (x + 1) (y + 1) with
          | false => exact ⟨x + 1, y + 1, e4, by omega, by omega, by omega, by omega⟩
          | true => exact absurd ⟨e1, e2, e3, e4⟩ hn
        obtain ⟨u, v, huv, _, _, _, _⟩ := this
        refine ⟨fun h1 h2 => rim huv h1 h2 ?_ ?_ ?_ ?_ ?_ ?_ ?_ ?_ ?_ ?_ ?_ ?_, fun h1 h2 => rim huv h1 h2 ?_ ?_ ?_ ?_ ?_ ?_ ?_ ?_ ?_ ?_ ?_ ?_,
          fun h1 h2 => rim huv h1 h2 ?_ ?_ ?_ ?_ ?_ ?_ ?_ ?_ ?_ ?_ ?_ ?_, fun h1 h2 => rim huv h1 h2 ?_ ?_ ?_ ?_ ?_ ?_ ?_ ?_ ?_ ?_ ?_ ?_,
          fun h1 h2 => rim huv h1 h2 ?_ ?_ ?_ ?_ ?_ ?_ ?_ ?_ ?_ ?_ ?_ ?_, fun h1 h2 => rim huv h1 h2 ?_ ?_ ?_ ?_ ?_ ?_ ?_ ?_ ?_ ?_ ?_ ?_⟩
        all_goals omega }
  have at' : ∀ {q}, S q → P.b (q.1 + 1) (q.2 + 1) = true := fun {q} hq => (hb _ _).2 ⟨q, hq, rfl, rfl⟩
  have empty : ∀ {x y : Nat}, ¬ S (x, y) → P.b (x + 1) (y + 1) = false := by
    intro x y hn
    rw [Bool.eq_false_iff]
    intro e
    obtain ⟨q, hq, e1, e2⟩ := (hb _ _).1 e
    obtain ⟨qx, qy⟩ := q
    simp only at e1 e2
    rw [show qx = x by omega, show qy = y by omega] at hq
    exact hn hq
  have hfs : P.f (s.1 + 1) (s.2 + 1) = true := by
    refine P.top ((hc _ _).2 ⟨s, hs, rfl, rfl⟩) fun z => ?_
    rw [Bool.eq_false_iff]
    intro e
    obtain ⟨q, hq, _, e⟩ := (hb _ _).1 e
    have := htop q hq
    omega
  have hf : ∀ {q}, Conn S s q → S q ∧ P.f (q.1 + 1) (q.2 + 1) = true := by
    intro q r
    induction r with
    | refl => exact ⟨hCS s hs, hfs⟩
    | step _ ha hq ih =>
      refine ⟨hq, ?_⟩
      rw [← ih.2]
      exact P.f_step (at' hq) (at' ih.1) (by have := ha.2.2.1; omega) (by have := ha.2.1; omega) (by have := ha.2.2.2.2; omega)
        (by have := ha.2.2.2.1; omega)
  have hpc : P.c (p.1 + 1) (p.2 + 1) = true := by
    refine P.leave (at' hp) (hf (hconn p hp)).2 ?_
    have pos : ∀ {z}, 0 < z → ∃ y, z = y + 1 := fun {z} hz => ⟨z - 1, by omega⟩
    rcases h with h | h | h | h
    · refine Or.inl fun z hz => ?_
      obtain ⟨z, rfl⟩ := pos (show 0 < z by omega)
      exact empty (h z (by omega))
    · refine Or.inr (Or.inl fun z hz => ?_)
      rcases Nat.eq_zero_or_pos z with rfl | hz0
      · exact P.zx _
      obtain ⟨z, rfl⟩ := pos hz0
      exact empty (h z (by omega))
    · refine Or.inr (Or.inr (Or.inl fun z hz => ?_))
      obtain ⟨z, rfl⟩ := pos (show 0 < z by omega)
      exact empty (h z (by omega))
    · refine Or.inr (Or.inr (Or.inr fun z hz => ?_))
      rcases Nat.eq_zero_or_pos z with rfl | hz0
      · exact P.zy _
      obtain ⟨z, rfl⟩ := pos hz0
      exact empty (h z (by omega))
  obtain ⟨q, hq, e1, e2⟩ := (hc _ _).1 hpc
  have : q = p := Prod.ext (by omega) (by omega)
  rwa [this] at hq

end PV.Props
