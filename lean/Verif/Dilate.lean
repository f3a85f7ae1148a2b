import Verif.PixelFn
/-
  BinaryDilate and BinaryErode, src/image_function.cpp 78-186 and 271-293.

  The two passes differ in the distance between neighbouring pixels only (1 or `rowSize`), so
  the code for a row and for a column is one function here.
-/
namespace PV

/-- The search for changes of the value in one line, src/image_function.cpp 106-127 and 153-173.
    `ptr` is the pointer of the loop, `p0` its start minus one pixel; the pairs are the entries
    of `startPos` and `endPos`, two halves of one array of `cap` pointers. -/
def scanLine (b p0 step n d cap : Nat) : Nat → Nat → UInt8 → List (Nat × Nat) → M BMem (List (Nat × Nat))
  | 0, _, _, _ => ubE
  | fuel + 1, ptr, previousValue, pairs =>
    if ptr = p0 + u32 (n * step) then pure pairs
    else do
      let a ← readC b ptr
      if a ≠ previousValue then
        let k := (ptr - p0) / step
        let start := if k < d then p0 else ptr - u32 (d * step)
        if n + pairs.length ≥ cap then ubE
        else if n - k < d then pure (pairs ++ [(start, p0 + u32 (n * step))])
        else scanLine b p0 step n d cap fuel (ptr + step) (255 ^^^ previousValue) (pairs ++ [(start, ptr + u32 (d * step))])
      else scanLine b p0 step n d cap fuel (ptr + step) previousValue pairs

/-- The painting of the pairs, src/image_function.cpp 128-134 and 175-181. -/
def paintPairs (b step : Nat) (value : UInt8) (pairs : List (Nat × Nat)) : M BMem Unit :=
  fold (fun p _ => loop (fun s => s != p.2) (fun s => s + step) (fun s _ => writeC b s value) fuelMax p.1 ()) pairs ()

/-- One line, src/image_function.cpp 102-135 and 147-182. -/
def dilateLine (b p0 step n d : Nat) (value : UInt8) : M BMem Unit := do
  let previousValue ← readC b p0
  let pairs ← scanLine b p0 step n d (u32 (2 * n)) fuelMax (p0 + step) previousValue []
  paintPairs b step value pairs

/-- `if ( dilation > size / 2 ) dilation = size / 2;`, src/image_function.cpp 86-89 -/
def clipHalf (d n : Nat) : Nat := if d > n / 2 then n / 2 else d

/-- The first pass, over the rows, src/image_function.cpp 93-138 -/
def dilateRows (image : View) (w h d : Nat) (value : UInt8) : M BMem Unit :=
  let row := image.img.rowSize
  let start := u32 (image.y * row) + image.x
  if d > 0 then
    loop (fun s => s != start + u32 (h * row)) (fun s => s + row)
      (fun s _ => dilateLine image.img.data s 1 w d value) fuelMax start ()
  else pure ()

/-- The second pass, over the columns, src/image_function.cpp 140-185 -/
def dilateColumns (image : View) (w h d : Nat) (value : UInt8) : M BMem Unit :=
  let row := image.img.rowSize
  let start := u32 (image.y * row) + image.x
  if d > 0 then
    loop (fun s => s != start + w) (fun s => s + 1)
      (fun s _ => dilateLine image.img.data s row h d value) fuelMax start ()
  else pure ()

/-- `Dilate`, src/image_function.cpp 78-186 -/
def Dilate (image : View) (w h dilationX dilationY : Nat) (value : UInt8) : M BMem Unit := do
  validateRois [image] w h
  verifyGray [image.img]
  if dilationX = 0 ∧ dilationY = 0 then pure ()
  else do
    dilateRows image w h (clipHalf dilationX w) value
    dilateColumns image w h (clipHalf dilationY h) value

/-- src/image_function.cpp 278-281 -/
def BinaryDilate (image : View) (w h dilationX dilationY : Nat) : M BMem Unit := Dilate image w h dilationX dilationY 255

/-- src/image_function.cpp 290-293 -/
def BinaryErode (image : View) (w h erosionX erosionY : Nat) : M BMem Unit := Dilate image w h erosionX erosionY 0

/-! ### One line -/

variable {m : BMem} {b p0 step n d : Nat}

/-- The line is in the block. Not in the code: for statements and proofs. -/
structure Line (m : BMem) (b p0 step n : Nat) : Prop where
  valid : ∀ k, k < n → m.Valid b (p0 + k * step)
  step_pos : 0 < step
  small : n * step < 4294967296

/-- A change of the value between `X - 1` and `X` paints position `i`. Not in the code: for statements and proofs. -/
def Painted (L : Nat → UInt8) (n d i : Nat) : Prop :=
  ∃ X, 1 ≤ X ∧ X < n ∧ L X ≠ L (X - 1) ∧ X ≤ i + d ∧ i < X + d

/-- Index pairs cover position `i`. Not in the code: for statements and proofs. -/
def Covers (I : List (Nat × Nat)) (i : Nat) : Prop := ∃ p, p ∈ I ∧ p.1 ≤ i ∧ i < p.2

theorem flip_bin {a c : UInt8} (ha : a = 0 ∨ a = 255) (hc : c = 0 ∨ c = 255) (h : c ≠ a) : 255 ^^^ a = c := by
  rcases ha with rfl | rfl <;> rcases hc with rfl | rfl <;> first | (exact absurd rfl h) | rfl

theorem scan_run (ln : Line m b p0 step n) (hd : 0 < d) (hdn : d ≤ n / 2) (h2 : 2 * n < 4294967296)
    (bin : ∀ k, k < n → m.byte b (p0 + k * step) = 0 ∨ m.byte b (p0 + k * step) = 255) (fuel : Nat) :
    ∀ {k : Nat} {I : List (Nat × Nat)}, 1 ≤ k → k ≤ n → n < k + fuel → I.length < k →
    (∀ p, p ∈ I → p.1 ≤ p.2 ∧ p.2 ≤ n) →
    (∀ i, i < n → (Covers I i ↔ ∃ X, 1 ≤ X ∧ X < k ∧ m.byte b (p0 + X * step) ≠ m.byte b (p0 + (X - 1) * step) ∧
      X ≤ i + d ∧ i < X + d)) →
    ∃ I', scanLine b p0 step n d (2 * n) fuel (p0 + k * step) (m.byte b (p0 + (k - 1) * step))
        (I.map fun p => (p0 + p.1 * step, p0 + p.2 * step)) m =
          .ok (I'.map fun p => (p0 + p.1 * step, p0 + p.2 * step)) m ∧
      (∀ p, p ∈ I' → p.1 ≤ p.2 ∧ p.2 ≤ n) ∧
      ∀ i, i < n → (Covers I' i ↔ Painted (fun k => m.byte b (p0 + k * step)) n d i) := by
  have hst := ln.step_pos
  have hsm := ln.small
  have hds : d * step < 4294967296 := by
    have : d * step ≤ n * step := Nat.mul_le_mul_right _ (by omega)
    omega
  induction fuel with
  | zero =>
    intro k I _ _ h3
    omega
  | succ fuel ih =>
    intro k I h1 hk h3 hlen hI hcov
    rw [scanLine, u32_of_lt hsm, u32_of_lt hds]
    by_cases hkn : k = n
    · subst hkn
      rw [if_pos rfl]
      refine ⟨I, rfl, hI, fun i hi => ?_⟩
      rw [hcov i hi, Painted]
    · have hlt : k < n := by omega
      have hne : ¬ p0 + k * step = p0 + n * step := by
        have : k * step < n * step := Nat.mul_lt_mul_of_pos_right hlt hst
        omega
      rw [if_neg hne, bind_ok (readC_ok (ln.valid k hlt))]
      have hnext : p0 + k * step + step = p0 + (k + 1) * step := by
        rw [Nat.succ_mul]
        omega
      by_cases hch : m.byte b (p0 + k * step) ≠ m.byte b (p0 + (k - 1) * step)
      · rw [if_pos hch]
        have hkk : (p0 + k * step - p0) / step = k := by
          rw [Nat.add_sub_cancel_left, Nat.mul_div_cancel _ hst]
        have hstart : (if k < d then p0 else p0 + k * step - d * step)
            = p0 + (k - d) * step := by
          by_cases hkd : k < d
          · rw [if_pos hkd, show k - d = 0 by omega, Nat.zero_mul, Nat.add_zero]
          · rw [if_neg hkd, Nat.sub_mul]
            have : d * step ≤ k * step := Nat.mul_le_mul_right _ (by omega)
            omega
        simp only [hkk, hstart]
        rw [List.length_map, if_neg (by omega)]
        by_cases hend : n - k < d
        · rw [if_pos hend]
          refine ⟨I ++ [(k - d, n)], by simp only [List.map_append, List.map_singleton]; rfl, ?_, fun i hi => ?_⟩
          · intro p hp
            rcases List.mem_append.mp hp with hp | hp
            · exact hI p hp
            · rw [List.mem_singleton.mp hp]
              simp only
              omega
          · have : Covers (I ++ [(k - d, n)]) i ↔ Covers I i ∨ (k - d ≤ i ∧ i < n) := by
              simp only [Covers, List.mem_append, List.mem_singleton]
              constructor
              · rintro ⟨p, hp | rfl, h⟩
                · exact Or.inl ⟨p, hp, h⟩
                · exact Or.inr h
              · rintro (⟨p, hp, h⟩ | h)
                · exact ⟨p, Or.inl hp, h⟩
                · exact ⟨_, Or.inr rfl, h⟩
            rw [this, hcov i hi, Painted]
            constructor
            · rintro (⟨X, a1, a2, a3, a4, a5⟩ | ⟨a1, a2⟩)
              · exact ⟨X, a1, by omega, a3, a4, a5⟩
              · exact ⟨k, h1, hlt, hch, by omega, by omega⟩
            · rintro ⟨X, a1, a2, a3, a4, a5⟩
              by_cases hXk : X < k
              · exact Or.inl ⟨X, a1, hXk, a3, a4, a5⟩
              · exact Or.inr ⟨by omega, hi⟩
        · rw [if_neg hend, hnext, flip_bin (bin (k - 1) (by omega)) (bin k hlt) hch]
          have hpe : p0 + k * step + d * step = p0 + (k + d) * step := by
            rw [Nat.add_mul]
            omega
          have := ih (k := k + 1) (I := I ++ [(k - d, k + d)]) (by omega) (by omega) (by omega)
            (by rw [List.length_append, List.length_singleton]; omega)
            (by
              intro p hp
              rcases List.mem_append.mp hp with hp | hp
              · exact hI p hp
              · rw [List.mem_singleton.mp hp]
                simp only
                omega)
            (by
              intro i hi
              have : Covers (I ++ [(k - d, k + d)]) i ↔ Covers I i ∨ (k - d ≤ i ∧ i < k + d) := by
                simp only [Covers, List.mem_append, List.mem_singleton]
                constructor
                · rintro ⟨p, hp | rfl, h⟩
                  · exact Or.inl ⟨p, hp, h⟩
                  · exact Or.inr h
                · rintro (⟨p, hp, h⟩ | h)
                  · exact ⟨p, Or.inl hp, h⟩
                  · exact ⟨_, Or.inr rfl, h⟩
              rw [this, hcov i hi]
              constructor
              · rintro (⟨X, a1, a2, a3, a4, a5⟩ | ⟨a1, a2⟩)
                · exact ⟨X, a1, by omega, a3, a4, a5⟩
                · exact ⟨k, h1, by omega, hch, by omega, a2⟩
              · rintro ⟨X, a1, a2, a3, a4, a5⟩
                by_cases hXk : X < k
                · exact Or.inl ⟨X, a1, hXk, a3, a4, a5⟩
                · have : X = k := by omega
                  subst this
                  exact Or.inr ⟨by omega, a5⟩)
          rw [List.map_append, List.map_singleton, Nat.add_sub_cancel] at this
          rw [hpe]
          exact this
      · rw [if_neg hch, hnext]
        have heq : m.byte b (p0 + (k - 1) * step) = m.byte b (p0 + (k + 1 - 1) * step) := by
          rw [Nat.add_sub_cancel]
          exact (Classical.not_not.mp hch).symm
        rw [heq]
        refine ih (k := k + 1) (I := I) (by omega) (by omega) (by omega) (by omega) hI fun i hi => ?_
        rw [hcov i hi]
        constructor
        · rintro ⟨X, a1, a2, a3⟩
          exact ⟨X, a1, by omega, a3⟩
        · rintro ⟨X, a1, a2, a3, a4⟩
          refine ⟨X, a1, ?_, a3, a4⟩
          rcases Nat.lt_or_ge X k with h | h
          · exact h
          · exfalso
            have : X = k := by omega
            subst this
            exact hch a3

/-- The effect of painting. Not in the code: for statements and proofs. -/
structure PaintedBy (m m' : BMem) (b p0 step n : Nat) (value : UInt8) (P : Nat → Prop) : Prop where
  size_eq : m'.size = m.size
  on : ∀ i, i < n → P i → m'.byte b (p0 + i * step) = value
  off : ∀ i, i < n → ¬ P i → m'.byte b (p0 + i * step) = m.byte b (p0 + i * step)
  outside : ∀ b' j, (b' = b → ∀ i, i < n → j ≠ p0 + i * step) → m'.byte b' j = m.byte b' j

theorem paintPair_run (ln : Line m b p0 step n) {a e : Nat} (hae : a ≤ e) (hen : e ≤ n) (value : UInt8) :
    ∃ m', loop (fun s => s != p0 + e * step) (fun s => s + step) (fun s _ => writeC b s value) fuelMax (p0 + a * step) () m
        = .ok () m' ∧ PaintedBy m m' b p0 step n value fun i => a ≤ i ∧ i < e := by
  have hst := ln.step_pos
  have hl : loop (fun s => s != p0 + e * step) (fun s => s + step) (fun s (_ : Unit) => (writeC b s value : M BMem Unit)) fuelMax
      (p0 + a * step) () = fold (fun k _ => writeC b (p0 + a * step + k * step) value) (List.range (e - a)) () := by
    have := loop_eq_fold (μ := BMem) (A := Unit) (cond := fun s => s != p0 + e * step) (next := fun s => s + step)
      (body := fun s _ => writeC b s value) (fun k => p0 + a * step + k * step) (e - a) fuelMax ()
      (by
        refine count_lt_fuel hst ?_
        have : (e - a) * step ≤ n * step := Nat.mul_le_mul_right _ (by omega)
        have := ln.small
        omega)
      (fun k hk => by
        simp only [bne_iff_ne, ne_eq]
        have : (a + k) * step < e * step := Nat.mul_lt_mul_of_pos_right (by omega) hst
        rw [Nat.add_mul] at this
        omega)
      (by
        rw [Nat.sub_mul]
        have : a * step ≤ e * step := Nat.mul_le_mul_right _ hae
        simp only [bne_eq_false_iff_eq]
        omega)
      (fun k _ => by simp only [Nat.succ_mul]; omega)
    rwa [Nat.zero_mul, Nat.add_zero] at this
  rw [hl]
  have hcell : ∀ k, p0 + a * step + k * step = p0 + (a + k) * step := by
    intro k
    rw [Nat.add_mul]
    omega
  have hinj : ∀ i j, p0 + i * step = p0 + j * step → i = j := by
    intro i j h
    exact Nat.eq_of_mul_eq_mul_right hst (by omega)
  obtain ⟨m', h1, h2, h3, h4⟩ := fold_writes (L := List.range (e - a))
    (body := fun k _ => writeC b (p0 + a * step + k * step) value)
    (dst := fun k => (b, p0 + a * step + k * step)) (val := fun _ => value) (m := m) List.nodup_range
    (by
      intro p _ q _ h
      have := (Prod.mk.inj h).2
      rw [hcell, hcell] at this
      have := hinj _ _ this
      omega)
    (by
      intro p hp m' hag
      have hp' := List.mem_range.1 hp
      refine writeC_ok _ ?_
      have hv := ln.valid (a + p) (by omega)
      rw [hcell]
      exact ⟨hv.1, by rw [hag.1]; exact hv.2⟩)
  refine ⟨m', h1, h2, ?_, ?_, ?_⟩
  · rintro i hi ⟨a1, a2⟩
    have := h3 (i - a) (List.mem_range.2 (by omega))
    simp only [hcell, Nat.add_sub_cancel' a1] at this
    exact this
  · intro i hi hn
    refine h4 _ _ fun p hp he => hn ?_
    have hp' := List.mem_range.1 hp
    have := (Prod.mk.inj he).2
    rw [hcell] at this
    have := hinj _ _ this
    omega
  · intro b' j hout
    refine h4 _ _ fun p hp he => ?_
    have hp' := List.mem_range.1 hp
    obtain ⟨hb, hj⟩ := Prod.mk.inj he
    rw [hcell] at hj
    exact hout hb.symm (a + p) (by omega) hj.symm

theorem Line.of_size {m' : BMem} (ln : Line m b p0 step n) (hs : m'.size = m.size) : Line m' b p0 step n :=
  ⟨fun k hk => ⟨(ln.valid k hk).1, by rw [hs]; exact (ln.valid k hk).2⟩, ln.step_pos, ln.small⟩

theorem paintPairs_run (value : UInt8) (I : List (Nat × Nat)) :
    ∀ {m : BMem}, Line m b p0 step n → (∀ p, p ∈ I → p.1 ≤ p.2 ∧ p.2 ≤ n) →
    ∃ m', paintPairs b step value (I.map fun p => (p0 + p.1 * step, p0 + p.2 * step)) m = .ok () m' ∧
      PaintedBy m m' b p0 step n value (Covers I) := by
  induction I with
  | nil =>
    intro m _ _
    exact ⟨m, rfl, rfl, fun i _ h => by obtain ⟨p, hp, _⟩ := h; simp at hp, fun _ _ _ => rfl, fun _ _ _ => rfl⟩
  | cons p I ih =>
    intro m ln hI
    obtain ⟨h1, h2⟩ := hI p (List.mem_cons_self ..)
    obtain ⟨m1, e1, t1⟩ := paintPair_run ln h1 h2 value
    obtain ⟨m2, e2, t2⟩ := ih (ln.of_size t1.size_eq) fun q hq => hI q (List.mem_cons_of_mem _ hq)
    refine ⟨m2, ?_, ?_, ?_, ?_, ?_⟩
    · rw [paintPairs, List.map_cons, fold_cons]
      exact (bind_ok e1).trans e2
    · rw [t2.size_eq, t1.size_eq]
    · intro i hi hc
      by_cases hI' : Covers I i
      · exact t2.on i hi hI'
      · rw [t2.off i hi hI']
        obtain ⟨q, hq, hqi⟩ := hc
        rcases List.mem_cons.mp hq with rfl | hq
        · exact t1.on i hi hqi
        · exact absurd ⟨q, hq, hqi⟩ hI'
    · intro i hi hc
      rw [t2.off i hi fun ⟨q, hq, hqi⟩ => hc ⟨q, List.mem_cons_of_mem _ hq, hqi⟩,
        t1.off i hi fun hqi => hc ⟨p, List.mem_cons_self .., hqi⟩]
    · intro b' j hout
      rw [t2.outside b' j hout, t1.outside b' j hout]

/-- One line: the changes of the value are painted. -/
theorem dilateLine_run (ln : Line m b p0 step n) (hd : 0 < d) (hdn : d ≤ n / 2) (h2 : 2 * n < 4294967296)
    (bin : ∀ k, k < n → m.byte b (p0 + k * step) = 0 ∨ m.byte b (p0 + k * step) = 255) (value : UInt8) :
    ∃ m', dilateLine b p0 step n d value m = .ok () m' ∧
      PaintedBy m m' b p0 step n value (Painted (fun k => m.byte b (p0 + k * step)) n d) := by
  have hv := ln.valid 0 (by omega)
  rw [Nat.zero_mul, Nat.add_zero] at hv
  rw [dilateLine, bind_ok (readC_ok hv), u32_of_lt h2]
  obtain ⟨I, e1, hI, hcov⟩ := scan_run ln hd hdn h2 bin fuelMax (k := 1) (I := []) (by omega) (by omega)
    (by unfold fuelMax; omega) (by simp) (by simp) (fun i _ => by
      constructor
      · rintro ⟨p, hp, _⟩
        simp at hp
      · rintro ⟨X, h1, h2, _⟩
        omega)
  rw [Nat.one_mul, Nat.sub_self, Nat.zero_mul, Nat.add_zero, List.map_nil] at e1
  rw [bind_ok e1]
  obtain ⟨m', e2, t⟩ := paintPairs_run value I ln hI
  exact ⟨m', e2, t.size_eq, fun i hi h => t.on i hi ((hcov i hi).mpr h),
    fun i hi h => t.off i hi fun h' => h ((hcov i hi).mp h'), t.outside⟩

/-! ### Painting changes is dilation -/

/-- There is a change of the value between two positions with different values. -/
theorem change_between {L : Nat → UInt8} {i : Nat} (k : Nat) (h : L (i + k) ≠ L i) :
    ∃ X, i < X ∧ X ≤ i + k ∧ L X ≠ L (X - 1) := by
  induction k with
  | zero => exact absurd rfl h
  | succ k ih =>
    by_cases hk : L (i + k) = L i
    · exact ⟨i + (k + 1), by omega, by omega, by
        rw [show i + (k + 1) - 1 = i + k by omega, hk]
        exact h⟩
    · obtain ⟨X, h1, h2, h3⟩ := ih hk
      exact ⟨X, h1, by omega, h3⟩

/-- Positions at a distance of at most `d`. Not in the code: for statements and proofs. -/
def Near (d i j : Nat) : Prop := i ≤ j + d ∧ j ≤ i + d

theorem painted_dilates {L : Nat → UInt8} {value : UInt8} {n d i : Nat} (hd : 0 < d) (hv : value = 0 ∨ value = 255)
    (bin : ∀ k, k < n → L k = 0 ∨ L k = 255) (hi : i < n) :
    (Painted L n d i ∨ L i = value) ↔ ∃ j, j < n ∧ Near d i j ∧ L j = value := by
  constructor
  · rintro (⟨X, h1, h2, h3, h4, h5⟩ | h)
    · have e : L X = value ∨ L (X - 1) = value := by
        rcases bin X h2 with a | a <;> rcases bin (X - 1) (by omega) with c | c <;> rcases hv with rfl | rfl <;>
          rw [a, c] at h3 <;> first | exact absurd rfl h3 | exact Or.inl a | exact Or.inr c
      rcases e with e | e
      · exact ⟨X, h2, ⟨by omega, by omega⟩, e⟩
      · exact ⟨X - 1, by omega, ⟨by omega, by omega⟩, e⟩
    · exact ⟨i, hi, ⟨by omega, by omega⟩, h⟩
  · rintro ⟨j, hj, ⟨h1, h2⟩, h3⟩
    by_cases hLi : L i = value
    · exact Or.inr hLi
    · left
      rcases Nat.le_total i j with h | h
      · obtain ⟨X, a1, a2, a3⟩ := change_between (L := L) (i := i) (j - i) (by
          rw [show i + (j - i) = j by omega, h3]
          exact fun e => hLi e.symm)
        exact ⟨X, by omega, by omega, a3, by omega, by omega⟩
      · obtain ⟨X, a1, a2, a3⟩ := change_between (L := L) (i := j) (i - j) (by
          rw [show j + (i - j) = i by omega, h3]
          exact hLi)
        exact ⟨X, by omega, by omega, a3, by omega, by omega⟩

/-- One line of a 0/255 image. -/
structure LineDone (m m' : BMem) (b p0 step n d : Nat) (value : UInt8) : Prop where
  size_eq : m'.size = m.size
  bin : ∀ i, i < n → m'.byte b (p0 + i * step) = 0 ∨ m'.byte b (p0 + i * step) = 255
  val : ∀ i, i < n → (m'.byte b (p0 + i * step) = value ↔
    ∃ j, j < n ∧ Near d i j ∧ m.byte b (p0 + j * step) = value)
  outside : ∀ b' j, (b' = b → ∀ i, i < n → j ≠ p0 + i * step) → m'.byte b' j = m.byte b' j

theorem dilateLine_done (ln : Line m b p0 step n) (hd : 0 < d) (hdn : d ≤ n / 2) (h2 : 2 * n < 4294967296)
    (bin : ∀ k, k < n → m.byte b (p0 + k * step) = 0 ∨ m.byte b (p0 + k * step) = 255) {value : UInt8}
    (hv : value = 0 ∨ value = 255) :
    ∃ m', dilateLine b p0 step n d value m = .ok () m' ∧ LineDone m m' b p0 step n d value := by
  obtain ⟨m', e, t⟩ := dilateLine_run ln hd hdn h2 bin value
  refine ⟨m', e, t.size_eq, fun i hi => ?_, fun i hi => ?_, t.outside⟩
  · rcases Classical.em (Painted (fun k => m.byte b (p0 + k * step)) n d i) with h | h
    · rw [t.on i hi h]
      exact hv
    · rw [t.off i hi h]
      exact bin i hi
  · rw [← painted_dilates hd hv bin hi]
    rcases Classical.em (Painted (fun k => m.byte b (p0 + k * step)) n d i) with h | h
    · rw [t.on i hi h]
      exact ⟨fun _ => Or.inl h, fun _ => rfl⟩
    · rw [t.off i hi h]
      exact ⟨Or.inr, fun h' => h'.resolve_left h⟩

/-! ### The two passes -/

/-- What a pass over all lines of a 0/255 rectangle does: lines `c < nl` start at `q0 + c * s2`,
    their pixels are `s1` apart. -/
structure PassDone (m m' : BMem) (b q0 s1 s2 n nl k d : Nat) (value : UInt8) : Prop where
  size_eq : m'.size = m.size
  bin : ∀ c i, c < nl → i < n → m'.byte b (q0 + c * s2 + i * s1) = 0 ∨ m'.byte b (q0 + c * s2 + i * s1) = 255
  val : ∀ c i, c < k → i < n → (m'.byte b (q0 + c * s2 + i * s1) = value ↔
    ∃ j, j < n ∧ Near d i j ∧ m.byte b (q0 + c * s2 + j * s1) = value)
  later : ∀ c i, k ≤ c → c < nl → i < n → m'.byte b (q0 + c * s2 + i * s1) = m.byte b (q0 + c * s2 + i * s1)
  outside : ∀ b' j, (b' = b → ∀ c i, c < nl → i < n → j ≠ q0 + c * s2 + i * s1) → m'.byte b' j = m.byte b' j

theorem pass_run {b q0 s1 s2 n nl d : Nat} {value : UInt8} (hd : 0 < d) (hdn : d ≤ n / 2)
    (h2 : 2 * n < 4294967296) (hv : value = 0 ∨ value = 255) (ln : ∀ c, c < nl → Line m b (q0 + c * s2) s1 n)
    (inj : ∀ c c' i i', c < nl → c' < nl → i < n → i' < n →
      q0 + c * s2 + i * s1 = q0 + c' * s2 + i' * s1 → c = c')
    (bin : ∀ c i, c < nl → i < n → m.byte b (q0 + c * s2 + i * s1) = 0 ∨ m.byte b (q0 + c * s2 + i * s1) = 255) :
    ∀ k, k ≤ nl → ∃ m', fold (fun c _ => dilateLine b (q0 + c * s2) s1 n d value) (List.range k) () m = .ok () m' ∧
      PassDone m m' b q0 s1 s2 n nl k d value := by
  intro k
  induction k with
  | zero =>
    intro _
    exact ⟨m, rfl, rfl, bin, fun c i h => absurd h (Nat.not_lt_zero _), fun _ _ _ _ _ => rfl, fun _ _ _ => rfl⟩
  | succ k ih =>
    intro hk
    obtain ⟨m1, e1, t1⟩ := ih (by omega)
    obtain ⟨m2, e2, t2⟩ := dilateLine_done ((ln k (by omega)).of_size t1.size_eq) hd hdn h2
      (fun i hi => t1.bin k i (by omega) hi) hv
    have other : ∀ c i, c < nl → i < n → c ≠ k →
        m2.byte b (q0 + c * s2 + i * s1) = m1.byte b (q0 + c * s2 + i * s1) := fun c i hc hi hck =>
      t2.outside b _ fun _ j hj he => hck (inj c k i j hc (by omega) hi hj he)
    refine ⟨m2, ?_, ?_, ?_, ?_, ?_, ?_⟩
    · rw [List.range_succ, fold_append, bind_ok e1, fold_cons]
      exact (bind_ok e2).trans rfl
    · rw [t2.size_eq, t1.size_eq]
    · intro c i hc hi
      by_cases hck : c = k
      · subst hck
        exact t2.bin i hi
      · rw [other c i hc hi hck]
        exact t1.bin c i hc hi
    · intro c i hc hi
      by_cases hck : c = k
      · subst hck
        rw [t2.val i hi]
        constructor
        · rintro ⟨j, hj, hn, hval⟩
          exact ⟨j, hj, hn, by rw [← t1.later c j (Nat.le_refl _) (by omega) hj]; exact hval⟩
        · rintro ⟨j, hj, hn, hval⟩
          exact ⟨j, hj, hn, by rw [t1.later c j (Nat.le_refl _) (by omega) hj]; exact hval⟩
      · rw [other c i (by omega) hi hck]
        exact t1.val c i (by omega) hi
    · intro c i hkc hc hi
      rw [other c i hc hi (by omega)]
      exact t1.later c i (by omega) hc hi
    · intro b' j hout
      rw [t2.outside b' j fun hb i hi => hout hb k i (by omega) hi, t1.outside b' j hout]

end PV
