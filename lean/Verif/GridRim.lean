import Verif.PropsBlob
/-
  The edge of a set of pixels without holes is connected.

  The argument: a set `A` of edge points which is closed under neighbours gives, for every pair of neighbours, a bit which says whether exactly one
  of them is in `A` (0 when one of the two is outside the set).  The bits of any three positions which are neighbours of each other add
  up to 0, so they are the differences of one function `G` on the grid.  `G` is constant on the background together with the edge, and
  `G` plus membership of `A` is constant on the set.  So membership of `A` is constant on the edge.
-/
namespace PV.Props

open PV

/-! ### Bits on pairs of neighbours -/

/-- The same position or neighbours. -/
def Touch (p q : Nat × Nat) : Prop := p.1 ≤ q.1 + 1 ∧ q.1 ≤ p.1 + 1 ∧ p.2 ≤ q.2 + 1 ∧ q.2 ≤ p.2 + 1

theorem Touch.symm {p q : Nat × Nat} (h : Touch p q) : Touch q p := ⟨h.2.1, h.1, h.2.2.2, h.2.2.1⟩

/-- Positions whose coordinates are written out. -/
local macro "near" : tactic => `(tactic| (unfold Touch; (try dsimp only); omega))

/-- The bits of three positions near each other add up to 0. -/
def ClosedBits (g : Nat × Nat → Nat × Nat → Bool) : Prop :=
  ∀ p q r, Touch p q → Touch q r → Touch p r → (g p q ^^ g q r) = g p r

/-- The bits along the first row. -/
def alongRow (g : Nat × Nat → Nat × Nat → Bool) : Nat → Bool
  | 0 => false
  | x + 1 => alongRow g x ^^ g (x, 0) (x + 1, 0)

/-- The bits along the first row and then down a column. -/
def along (g : Nat × Nat → Nat × Nat → Bool) (x : Nat) : Nat → Bool
  | 0 => alongRow g x
  | y + 1 => along g x y ^^ g (x, y) (x, y + 1)

theorem along_right {g : Nat × Nat → Nat × Nat → Bool} (c : ClosedBits g) (x y : Nat) :
    along g (x + 1) y = (along g x y ^^ g (x, y) (x + 1, y)) := by
  induction y with
  | zero => rfl
  | succ y ih =>
    have t1 := c (x, y) (x + 1, y) (x + 1, y + 1) (by near) (by near) (by near)
    have t2 := c (x, y) (x, y + 1) (x + 1, y + 1) (by near) (by near) (by near)
    rw [along, along, ih, Bool.xor_assoc, Bool.xor_assoc, t1, t2]

theorem along_exact {g : Nat × Nat → Nat × Nat → Bool} (c : ClosedBits g) {p q : Nat × Nat} (h : Touch p q) :
    g p q = (along g p.1 p.2 ^^ along g q.1 q.2) := by
  have self : ∀ p, g p p = false := fun p => by
    have := c p p p (by near) (by near) (by near)
    revert this
    cases g p p <;> simp
  have symm : ∀ p q, Touch p q → g p q = g q p := fun p q h => by
    have := c p q p h h.symm (by near)
    rw [self p] at this
    revert this
    cases g p q <;> cases g q p <;> simp
  have right : ∀ x y, g (x, y) (x + 1, y) = (along g x y ^^ along g (x + 1) y) := fun x y => by
    rw [along_right c, ← Bool.xor_assoc, Bool.xor_self, Bool.false_xor]
  have down : ∀ x y, g (x, y) (x, y + 1) = (along g x y ^^ along g x (y + 1)) := fun x y => by
    rw [along, ← Bool.xor_assoc, Bool.xor_self, Bool.false_xor]
  have diag : ∀ x y, g (x, y) (x + 1, y + 1) = (along g x y ^^ along g (x + 1) (y + 1)) := fun x y => by
    rw [← c (x, y) (x + 1, y) (x + 1, y + 1) (by near) (by near) (by near),
      right, down, Bool.xor_assoc, ← Bool.xor_assoc (along g (x + 1) y), Bool.xor_self, Bool.false_xor]
  have anti : ∀ x y, g (x + 1, y) (x, y + 1) = (along g (x + 1) y ^^ along g x (y + 1)) := fun x y => by
    rw [← c (x + 1, y) (x, y) (x, y + 1) (by near) (by near) (by near),
      symm _ _ (by near), right, down, Bool.xor_comm (along g x y), Bool.xor_assoc, ← Bool.xor_assoc (along g x y),
      Bool.xor_self, Bool.false_xor]
  obtain ⟨a, b⟩ := p
  obtain ⟨a', b'⟩ := q
  obtain ⟨h1, h2, h3, h4⟩ := h
  simp only at h1 h2 h3 h4 ⊢
  have ha : a' = a ∨ a' = a + 1 ∨ a = a' + 1 := by omega
  have hb : b' = b ∨ b' = b + 1 ∨ b = b' + 1 := by omega
  have sw : ∀ p q, Touch q p → g q p = (along g q.1 q.2 ^^ along g p.1 p.2) → g p q = (along g p.1 p.2 ^^ along g q.1 q.2) :=
    fun p q n e => by rw [symm p q n.symm, e, Bool.xor_comm]
  rcases ha with rfl | rfl | rfl <;> rcases hb with rfl | rfl | rfl
  · rw [self, Bool.xor_self]
  · exact down _ _
  · exact sw _ _ (by near) (down _ _)
  · exact right _ _
  · exact diag _ _
  · exact sw _ _ (by near) (anti _ _)
  · exact sw _ _ (by near) (right _ _)
  · exact anti _ _
  · exact sw _ _ (by near) (diag _ _)

/-! ### Positions around a set -/

/-- The positions outside the set.  Position `(i, j)` stands for the pixel `(i - 1, j - 1)`: there is a column to the left of all pixels and a row
    above them. -/
def Outside (S : Nat × Nat → Prop) (z : Nat × Nat) : Prop := ∀ p, S p → z ≠ (p.1 + 1, p.2 + 1)

/-- The background is in one piece: from every position outside one can get to the corner above and left of all pixels. -/
def NoHole (S : Nat × Nat → Prop) : Prop := ∀ z, Outside S z → Conn (Outside S) (0, 0) z

theorem touch_of_adj {p q : Nat × Nat} (h : Adj8 p q) : Touch p q := ⟨h.2.1, h.2.2.1, h.2.2.2.1, h.2.2.2.2⟩

open Classical in
/-- The edge of a connected set without holes is connected. -/
theorem rim_connected {S : Nat × Nat → Prop} {s : Nat × Nat} (conn : ∀ q, S q → Conn S s q) (free : NoHole S) (hs : Rim S s)
    {q : Nat × Nat} (hq : Rim S q) : Conn (Rim S) s q := by
  -- the set, its edge and the reached edge points as positions
  let up : Nat × Nat → Nat × Nat := fun p => (p.1 + 1, p.2 + 1)
  let A : Nat × Nat → Prop := fun z => ∃ p, z = up p ∧ Conn (Rim S) s p ∧ Rim S p
  let g : Nat × Nat → Nat × Nat → Bool := fun z z' => if Outside S z ∨ Outside S z' then false else (decide (A z) ^^ decide (A z'))
  have up_inj : ∀ p p', up p = up p' → p = p' := fun p p' e => by
    obtain ⟨a, b⟩ := p
    obtain ⟨a', b'⟩ := p'
    simp only [up, Prod.mk.injEq] at e ⊢
    omega
  have out_of : ∀ z, ¬ Outside S z → ∃ p, S p ∧ z = up p := fun z hz => by
    simp only [Outside, Classical.not_forall, Decidable.not_not] at hz
    obtain ⟨p, hp, e⟩ := hz
    exact ⟨p, hp, e⟩
  have not_out : ∀ p, S p → ¬ Outside S (up p) := fun p hp ho => ho p hp rfl
  -- a point of the set near a position outside is on the edge
  have edge : ∀ p z, S p → Outside S z → Touch (up p) z → Rim S p := fun p z hp hz hn => by
    refine ⟨hp, fun hi => ?_⟩
    obtain ⟨n1, n2, n3, n4⟩ := hn
    simp only [up] at n1 n2 n3 n4
    obtain ⟨r, hr, e1, e2⟩ := hi (z.1 - p.1) (z.2 - p.2) (by omega) (by omega)
    exact hz r hr (by rw [e1, e2]; ext <;> simp <;> omega)
  -- membership is the same for edge points near each other
  have stay : ∀ p p', Rim S p → Rim S p' → Touch (up p) (up p') → A (up p) → A (up p') := fun p p' hp hp' hn ha => by
    obtain ⟨r, e, c, -⟩ := ha
    obtain rfl := up_inj _ _ e
    by_cases e' : p = p'
    · exact ⟨p', rfl, e' ▸ c, hp'⟩
    · obtain ⟨n1, n2, n3, n4⟩ := hn
      simp only [up] at n1 n2 n3 n4
      exact ⟨p', rfl, .step c ⟨e', by omega, by omega, by omega, by omega⟩ hp', hp'⟩
  have same : ∀ p p', Rim S p → Rim S p' → Touch (up p) (up p') → decide (A (up p)) = decide (A (up p')) := fun p p' hp hp' hn =>
    decide_eq_decide.mpr ⟨stay p p' hp hp' hn, stay p' p hp' hp hn.symm⟩
  -- positions outside or on the edge: the bits are 0
  have zero : ∀ z z', (∀ p, S p → z = up p → Rim S p) → (∀ p, S p → z' = up p → Rim S p) → Touch z z' → g z z' = false :=
    fun z z' h1 h2 hn => by
      by_cases ho : Outside S z ∨ Outside S z'
      · exact if_pos ho
      · obtain ⟨h3, h4⟩ := not_or.mp ho
        obtain ⟨p, hp, rfl⟩ := out_of z h3
        obtain ⟨p', hp', rfl⟩ := out_of z' h4
        have := same p p' (h1 p hp rfl) (h2 p' hp' rfl) hn
        simp only [g, if_neg ho, this, Bool.xor_self]
  have rimz : ∀ z z', Outside S z' → Touch z z' → ∀ p, S p → z = up p → Rim S p := fun z z' ho hn p hp e =>
    edge p z' hp ho (e ▸ hn)
  have out0 : ∀ z, Outside S z → ∀ p, S p → z = up p → Rim S p := fun z ho p hp e => absurd e (ho p hp)
  have closed : ClosedBits g := fun a b c n1 n2 n3 => by
    by_cases ha : Outside S a
    · rw [zero a b (out0 a ha) (rimz b a ha n1.symm) n1, zero b c (rimz b a ha n1.symm) (rimz c a ha n3.symm) n2,
        zero a c (out0 a ha) (rimz c a ha n3.symm) n3]
      rfl
    by_cases hb : Outside S b
    · rw [zero a b (rimz a b hb n1) (out0 b hb) n1, zero b c (out0 b hb) (rimz c b hb n2.symm) n2,
        zero a c (rimz a b hb n1) (rimz c b hb n2.symm) n3]
      rfl
    by_cases hc : Outside S c
    · rw [zero a b (rimz a c hc n3) (rimz b c hc n2) n1, zero b c (rimz b c hc n2) (out0 c hc) n2,
        zero a c (rimz a c hc n3) (out0 c hc) n3]
      rfl
    simp only [g, ha, hb, hc, or_self, if_false]
    cases decide (A a) <;> cases decide (A b) <;> cases decide (A c) <;> rfl
  let G : Nat × Nat → Bool := fun z => along g z.1 z.2
  have dG : ∀ z z', Touch z z' → g z z' = (G z ^^ G z') := fun z z' hn => along_exact closed hn
  have eq_of : ∀ z z', Touch z z' → g z z' = false → G z = G z' := fun z z' hn h => by
    rw [dG z z' hn] at h
    revert h
    cases G z <;> cases G z' <;> simp
  -- constant outside
  have outside : ∀ z, Conn (Outside S) (0, 0) z → Outside S (0, 0) → G (0, 0) = G z ∧ Outside S z := fun z c h0 => by
    induction c with
    | refl => exact ⟨rfl, h0⟩
    | step _ a hr ih =>
      exact ⟨ih.1.trans (eq_of _ _ (touch_of_adj a) (zero _ _ (out0 _ ih.2) (out0 _ hr) (touch_of_adj a))), hr⟩
  have corner : Outside S (0, 0) := fun p _ e => by simp at e
  have onRim : ∀ p, Rim S p → G (up p) = G (0, 0) := fun p hp => by
    obtain ⟨hp1, hp2⟩ := hp
    simp only [Inner, Classical.not_forall] at hp2
    obtain ⟨d, e, hd, he, hn⟩ := hp2
    have ho : Outside S (p.1 + d, p.2 + e) := fun r hr e' => hn ⟨r, hr, by
      simp only [Prod.mk.injEq] at e'
      omega⟩
    have near : Touch (up p) (p.1 + d, p.2 + e) := ⟨by simp only [up]; omega, by simp only [up]; omega, by simp only [up]; omega, by simp only [up]; omega⟩
    rw [(outside _ (free _ ho) corner).1]
    exact eq_of _ _ near (zero _ _ (rimz _ _ ho near) (out0 _ ho) near)
  -- constant inside, with membership
  have inside : ∀ p, Conn S s p → S p ∧ (G (up s) ^^ decide (A (up s))) = (G (up p) ^^ decide (A (up p))) := fun p c => by
    induction c with
    | refl => exact ⟨hs.1, rfl⟩
    | @step x r _ a hr ih =>
      refine ⟨hr, ih.2.trans ?_⟩
      have near : Touch (up x) (up r) := by
        obtain ⟨n1, n2, n3, n4⟩ := touch_of_adj a
        exact ⟨by simp only [up]; omega, by simp only [up]; omega, by simp only [up]; omega, by simp only [up]; omega⟩
      have h1 := dG (up x) (up r) near
      have h2 : g (up x) (up r) = (decide (A (up x)) ^^ decide (A (up r))) :=
        if_neg (not_or.mpr ⟨not_out x ih.1, not_out r hr⟩)
      rw [h2] at h1
      revert h1
      cases decide (A (up x)) <;> cases decide (A (up r)) <;> cases G (up x) <;> cases G (up r) <;> simp
  have hA : A (up s) := ⟨s, rfl, .refl, hs⟩
  have h := (inside q (conn q hq.1)).2
  rw [onRim s hs, onRim q hq, decide_eq_true hA] at h
  have hA' : A (up q) := by
    by_cases hA' : A (up q)
    · exact hA'
    · rw [decide_eq_false hA'] at h
      revert h
      cases G (0, 0) <;> simp
  obtain ⟨r, e, c, -⟩ := hA'
  obtain rfl := up_inj _ _ e
  exact c

/-! ### The outer background -/

/-- The positions outside the set which can be reached from the corner above and left of all pixels. -/
def Around (S : Nat × Nat → Prop) (z : Nat × Nat) : Prop := Outside S z ∧ Conn (Outside S) (0, 0) z

/-- A point of the set with a neighbour in the outer background. -/
def OuterRim (S : Nat × Nat → Prop) (p : Nat × Nat) : Prop := S p ∧ ∃ z, Around S z ∧ Touch (p.1 + 1, p.2 + 1) z

theorem around_step {S : Nat × Nat → Prop} {z z' : Nat × Nat} (h : Around S z) (ho : Outside S z') (t : Touch z z') : Around S z' := by
  by_cases e : z = z'
  · exact e ▸ h
  · exact ⟨ho, .step h.2 ⟨e, t.1, t.2.1, t.2.2.1, t.2.2.2⟩ ho⟩

theorem around_left (S : Nat × Nat → Prop) (b : Nat) : Around S (0, b) := by
  have out : ∀ b, Outside S (0, b) := fun b p _ e => by simp at e
  induction b with
  | zero => exact ⟨out 0, .refl⟩
  | succ b ih => exact around_step ih (out _) (by near)

/-- A row outside the set belongs to the outer background. -/
theorem around_row {S : Nat × Nat → Prop} {j : Nat} (out : ∀ i, Outside S (i, j)) (i : Nat) : Around S (i, j) := by
  induction i with
  | zero => exact around_left S j
  | succ i ih => exact around_step ih (out _) (by near)

theorem around_top (S : Nat × Nat → Prop) (a : Nat) : Around S (a, 0) := around_row (fun i p _ e => by simp at e) a

theorem OuterRim.rim {S : Nat × Nat → Prop} {p : Nat × Nat} (h : OuterRim S p) : Rim S p := by
  obtain ⟨hp, z, hz, n1, n2, n3, n4⟩ := h
  simp only at n1 n2 n3 n4
  refine ⟨hp, fun hi => ?_⟩
  obtain ⟨r, hr, e1, e2⟩ := hi (z.1 - p.1) (z.2 - p.2) (by omega) (by omega)
  exact hz.1 r hr (by rw [e1, e2]; ext <;> simp <;> omega)

/-- The points next to the outer background are connected. -/
theorem outer_connected {S : Nat × Nat → Prop} {s : Nat × Nat} (conn : ∀ q, S q → Conn S s q) (hs : OuterRim S s)
    {q : Nat × Nat} (hq : OuterRim S q) : Conn (OuterRim S) s q := by
  -- the set with its holes
  let S' : Nat × Nat → Prop := fun p => ¬ Around S (p.1 + 1, p.2 + 1)
  have sub : ∀ p, S p → S' p := fun p hp h => h.1 p hp rfl
  have out : ∀ z, Outside S' z ↔ Around S z := fun z => by
    constructor
    · intro h
      obtain ⟨i, j⟩ := z
      cases i with
      | zero => exact around_left S j
      | succ i =>
        cases j with
        | zero => exact around_top S _
        | succ j => exact Classical.byContradiction fun hn => h (i, j) hn rfl
    · rintro h p hp rfl
      exact hp h
  have mono : ∀ p q, Conn S p q → Conn S' p q := fun p q c => by
    induction c with
    | refl => exact .refl
    | step _ a hr ih => exact .step ih a (sub _ hr)
  have conn' : ∀ b a, S' (a, b) → Conn S' s (a, b) := fun b => by
    induction b with
    | zero =>
      intro a h
      by_cases hS : S (a, 0)
      · exact mono _ _ (conn _ hS)
      · refine absurd (around_step (around_top S (a + 1)) ?_ (by near)) h
        intro p hp e
        simp only [Prod.mk.injEq] at e
        have : p = (a, 0) := Prod.ext (by simp only; omega) (by simp only; omega)
        exact hS (this ▸ hp)
    | succ b ih =>
      intro a h
      by_cases hS : S (a, b + 1)
      · exact mono _ _ (conn _ hS)
      · have up : S' (a, b) := fun hA => h (around_step hA (fun p hp e => by
          simp only [Prod.mk.injEq] at e
          have : p = (a, b + 1) := Prod.ext (by simp only; omega) (by simp only; omega)
          exact hS (this ▸ hp)) (by near))
        exact .step (ih a up) ⟨by simp, by dsimp only; omega, by dsimp only; omega, by dsimp only; omega, by dsimp only; omega⟩ h
  have free : NoHole S' := fun z hz => by
    have hz' := (out z).mp hz
    have : ∀ z, Conn (Outside S) (0, 0) z → Conn (Outside S') (0, 0) z := fun z c => by
      induction c with
      | refl => exact .refl
      | step c a hr ih => exact .step ih a ((out _).mpr ⟨hr, .step c a hr⟩)
    exact this z hz'.2
  have rim_iff : ∀ p, Rim S' p ↔ OuterRim S p := fun p => by
    constructor
    · rintro ⟨hp, hn⟩
      simp only [Inner, Classical.not_forall] at hn
      obtain ⟨d, e, hd, he, hn⟩ := hn
      have hA : Around S (p.1 + d, p.2 + e) := (out _).mp fun r hr e' => hn ⟨r, hr, by
        simp only [Prod.mk.injEq] at e'
        omega⟩
      refine ⟨Classical.byContradiction fun hS => hp (around_step hA (fun r hr e' => ?_) (by near)), _, hA, by near⟩
      simp only [Prod.mk.injEq] at e'
      have : r = p := Prod.ext (by omega) (by omega)
      exact hS (this ▸ hr)
    · rintro ⟨hp, z, hz, t⟩
      have : OuterRim S' p := ⟨sub p hp, z, ⟨(out z).mpr hz, free z ((out z).mpr hz)⟩, t⟩
      exact this.rim
  have := rim_connected (fun q h => conn' q.2 q.1 h) free ((rim_iff s).mpr hs) ((rim_iff q).mpr hq)
  clear hq
  induction this with
  | refl => exact .refl
  | step _ a hr ih => exact .step ih a ((rim_iff _).mp hr)

end PV.Props
