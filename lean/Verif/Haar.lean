import Mathlib.Data.List.Nodup
import Mathlib.Data.List.ProdSigma
import Mathlib.Tactic.Ring
import Verif.RowLoops
import Verif.Mem
/-
  Model of src/math/haar_transform.cpp.

  The element type is any type `R` with ring operations; the operations are exact.  A
  vector is a block of `Mem R`.  `temp` is the vector the functions allocate: block `t`,
  which belongs to the caller again when the function returns.
-/
namespace PV

/-- `size_t` arithmetic. Not in the code: machinery of the model. -/
def u64 (n : Nat) : Nat := n % 18446744073709551616

theorem u64_of_lt {n : Nat} (h : n < 18446744073709551616) : u64 n = n := Nat.mod_eq_of_lt h

variable {R : Type}

/-- The scope of a local vector of `n` zeros kept in block `t`. src/math/haar_transform.cpp 43, 95. -/
def withTemp [Zero R] (t n : Nat) (body : M (Mem R) Unit) : M (Mem R) Unit := fun m =>
  match body ⟨fun b => if b = t then n else m.size b, fun b i => if b = t then 0 else m.byte b i⟩ with
  | .ok a m' => .ok a ⟨fun b => if b = t then m.size b else m'.size b, fun b i => if b = t then m.byte b i else m'.byte b i⟩
  | .throw m' => .throw ⟨fun b => if b = t then m.size b else m'.size b, fun b i => if b = t then m.byte b i else m'.byte b i⟩
  | .ub => .ub

/-- The two statements of an inner loop: both read the elements `s1` and `s2` of vector `S`; the
    first writes element `d1` of vector `T`, the second element `d2`. src/math/haar_transform.cpp 57-58, 74-75, 109-110, 126-127. -/
def haarStep (S T s1 s2 d1 d2 : Nat) (f g : R → R → R) : M (Mem R) Unit := do
  let b ← readC S s2
  let a ← readC S s1
  writeC T d1 (f a b)
  let b ← readC S s2
  let a ← readC S s1
  writeC T d2 (g a b)

/-- The parameter check (src/math/haar_transform.cpp 30 and 83) -/
def haarCheck (inp out w h : Nat) : M (Mem R) Unit := fun m =>
  throwIf (m.size inp == 0 || m.size inp != m.size out || m.size inp != u64 (w * h) || w % 2 != 0 || h % 2 != 0) m

variable [Add R] [Sub R] [Mul R] [Zero R]

/-- `(y + x) * coefficient`. src/math/haar_transform.cpp 57, 74. -/
def haarSum (c a b : R) : R := (b + a) * c

/-- `(y - x) * coefficient`. src/math/haar_transform.cpp 58, 75. -/
def haarDiff (c a b : R) : R := (b - a) * c

/-- src/math/haar_transform.cpp 52-60: the rows of `S` (`n` elements) transformed into `T`. -/
def directX (c : R) (S T n w : Nat) : M (Mem R) Unit :=
  loop (fun s : Nat × Nat => s.1 != n) (fun s => (s.1 + w, s.2 + w)) (fun s _ =>
    loop (fun q : Nat × Nat => q.1 != s.1 + w) (fun q => (q.1 + 2, q.2 + 1)) (fun q _ =>
      haarStep S T q.1 (q.1 + 1) q.2 (q.2 + w / 2) (haarSum c) (haarDiff c)) fuelMax (s.1, s.2) ()) fuelMax (0, 0) ()

/-- src/math/haar_transform.cpp 69-77: the columns of `S` transformed into `T`. -/
def directY (c : R) (S T w h : Nat) : M (Mem R) Unit :=
  loop (fun s : Nat × Nat => s.1 != w) (fun s => (s.1 + 1, s.2 + 1)) (fun s _ =>
    loop (fun q : Nat × Nat => q.1 != s.1 + u64 (h * w)) (fun q => (q.1 + u64 (2 * w), q.2 + w)) (fun q _ =>
      haarStep S T q.1 (q.1 + w) q.2 (q.2 + u64 (h / 2 * w)) (haarSum c) (haarDiff c)) fuelMax (s.1, s.2) ()) fuelMax (0, 0) ()

/-- src/math/haar_transform.cpp 27-78 -/
def HaarDirectTransform (c : R) (t inp out w h : Nat) : M (Mem R) Unit := fun m => (do
  haarCheck inp out w h
  withTemp t (m.size inp) (do
    directX c inp t (m.size inp) w
    directY c t out w h)) m

/-- `(x - y) * coefficient`. src/math/haar_transform.cpp 109, 126. -/
def haarLeft (c a b : R) : R := (a - b) * c

/-- `(x + y) * coefficient`. src/math/haar_transform.cpp 110, 127. -/
def haarRight (c a b : R) : R := (a + b) * c

/-- src/math/haar_transform.cpp 104-112 -/
def inverseX (c : R) (S T n w : Nat) : M (Mem R) Unit :=
  loop (fun s : Nat × Nat => s.1 != n) (fun s => (s.1 + w, s.2 + w)) (fun s _ =>
    loop (fun q : Nat × Nat => q.2 != s.2 + w) (fun q => (q.1 + 1, q.2 + 2)) (fun q _ =>
      haarStep S T q.1 (q.1 + w / 2) q.2 (q.2 + 1) (haarLeft c) (haarRight c)) fuelMax (s.1, s.2) ()) fuelMax (0, 0) ()

/-- src/math/haar_transform.cpp 121-129 -/
def inverseY (c : R) (S T w h : Nat) : M (Mem R) Unit :=
  loop (fun s : Nat × Nat => s.1 != w) (fun s => (s.1 + 1, s.2 + 1)) (fun s _ =>
    loop (fun q : Nat × Nat => q.2 != s.2 + u64 (h * w)) (fun q => (q.1 + w, q.2 + u64 (2 * w))) (fun q _ =>
      haarStep S T q.1 (q.1 + u64 (h / 2 * w)) q.2 (q.2 + w) (haarLeft c) (haarRight c)) fuelMax (s.1, s.2) ()) fuelMax (0, 0) ()

/-- src/math/haar_transform.cpp 80-130 -/
def HaarInverseTransform (c : R) (t inp out w h : Nat) : M (Mem R) Unit := fun m => (do
  haarCheck inp out w h
  withTemp t (m.size inp) (do
    inverseX c inp t (m.size inp) w
    inverseY c t out w h)) m

/-! ### Lemmas -/

omit [Add R] [Sub R] [Mul R] [Zero R]

theorem haarStep_ok {S T s1 s2 d1 d2 : Nat} {f g : R → R → R} {m : Mem R} (hST : S ≠ T) (h1 : m.Valid S s1)
    (h2 : m.Valid S s2) (h3 : m.Valid T d1) (h4 : m.Valid T d2) :
    haarStep S T s1 s2 d1 d2 f g m
      = .ok () ((m.set T d1 (f (m.byte S s1) (m.byte S s2))).set T d2 (g (m.byte S s1) (m.byte S s2))) := by
  have e : ∀ i v, (m.set T d1 v).byte S i = m.byte S i := fun i v => Mem.set_other _ _ fun h => hST h.1
  refine (bind_ok (readC_ok h2)).trans ((bind_ok (readC_ok h1)).trans ((bind_ok (writeC_ok _ h3)).trans ?_))
  refine (bind_ok (readC_ok (m := m.set T d1 _) h2)).trans ((bind_ok (readC_ok (m := m.set T d1 _) h1)).trans ?_)
  rw [e, e]
  exact writeC_ok _ (m := m.set T d1 _) h4

/-- A pass writing two cells of `T` per position from two cells of `S`. -/
theorem pairs_ok {ι : Type} {L : List ι} {S T : Nat} {s1 s2 d1 d2 : ι → Nat} {f g : R → R → R} {m : Mem R}
    (hnd : L.Nodup) (hST : S ≠ T) (hv : ∀ p ∈ L, m.Valid S (s1 p) ∧ m.Valid S (s2 p) ∧ m.Valid T (d1 p) ∧ m.Valid T (d2 p))
    (i1 : ∀ p ∈ L, ∀ q ∈ L, d1 p = d1 q → p = q) (i2 : ∀ p ∈ L, ∀ q ∈ L, d2 p = d2 q → p = q)
    (i3 : ∀ p ∈ L, ∀ q ∈ L, d1 p ≠ d2 q) :
    ∃ m', fold (fun p _ => haarStep S T (s1 p) (s2 p) (d1 p) (d2 p) f g) L () m = .ok () m' ∧ m'.size = m.size ∧
      (∀ b, b ≠ T → m'.byte b = m.byte b) ∧
      ∀ p ∈ L, m'.byte T (d1 p) = f (m.byte S (s1 p)) (m.byte S (s2 p)) ∧
        m'.byte T (d2 p) = g (m.byte S (s1 p)) (m.byte S (s2 p)) := by
  let body : ι × Bool → Unit → M (Mem R) Unit := fun q _ => match q.2 with
    | false => do
      let b ← readC S (s2 q.1)
      let a ← readC S (s1 q.1)
      writeC T (d1 q.1) (f a b)
    | true => do
      let b ← readC S (s2 q.1)
      let a ← readC S (s1 q.1)
      writeC T (d2 q.1) (g a b)
  have e : fold (fun p _ => haarStep S T (s1 p) (s2 p) (d1 p) (d2 p) f g) L () = fold body (L ×ˢ [false, true]) () := by
    have : (L ×ˢ [false, true]) = L.flatMap fun p => [(p, false), (p, true)] := rfl
    rw [this, fold_flatMap]
    refine fold_congr _ fun p _ => ?_
    funext _
    simp only [fold_cons, fold_nil, bind_pure', body, bind_assoc']
    rfl
  rw [e]
  have mem2 : ∀ q : ι × Bool, q ∈ L ×ˢ [false, true] ↔ q.1 ∈ L := by
    rintro ⟨p, b⟩
    cases b <;> simp
  obtain ⟨m', h1, h2, h3, h4⟩ := fold_writes (L := L ×ˢ [false, true]) (body := body)
    (dst := fun q => (T, if q.2 then d2 q.1 else d1 q.1))
    (val := fun q => if q.2 then g (m.byte S (s1 q.1)) (m.byte S (s2 q.1)) else f (m.byte S (s1 q.1)) (m.byte S (s2 q.1)))
    (m := m) (List.Nodup.product hnd (by decide)) (by
      rintro ⟨p, a⟩ hp ⟨q, b⟩ hq he
      have hp := (mem2 _).1 hp
      have hq := (mem2 _).1 hq
      have he := (Prod.ext_iff.1 he).2
      cases a <;> cases b <;> simp only [Bool.false_eq_true, if_false, if_true] at he
      · rw [i1 p hp q hq he]
      · exact absurd he (i3 p hp q hq)
      · exact absurd he.symm (i3 q hq p hp)
      · rw [i2 p hp q hq he])
    (by
      rintro ⟨p, a⟩ hp m1 ⟨hs, hb⟩
      have hp := (mem2 _).1 hp
      obtain ⟨v1, v2, v3, v4⟩ := hv p hp
      have eS : ∀ i, m1.byte S i = m.byte S i := fun i => hb S i fun q _ _ h => hST (Prod.ext_iff.1 h).1.symm
      have vv : ∀ b i, m.Valid b i → m1.Valid b i := fun b i h => by
        rw [Mem.Valid, hs]
        exact h
      cases a
      · refine (bind_ok (readC_ok (vv _ _ v2))).trans ((bind_ok (readC_ok (vv _ _ v1))).trans ?_)
        rw [eS, eS]
        exact writeC_ok _ (vv _ _ v3)
      · refine (bind_ok (readC_ok (vv _ _ v2))).trans ((bind_ok (readC_ok (vv _ _ v1))).trans ?_)
        rw [eS, eS]
        exact writeC_ok _ (vv _ _ v4))
  refine ⟨m', h1, h2, fun b hb => funext fun i => h4 b i fun q _ h => hb (Prod.ext_iff.1 h).1.symm, fun p hp => ⟨?_, ?_⟩⟩
  · exact h3 (p, false) ((mem2 _).2 hp)
  · exact h3 (p, true) ((mem2 _).2 hp)

/-- Two nested loops over rows and columns. -/
theorem nested {cond : Nat × Nat → Bool} {next : Nat × Nat → Nat × Nat} {condI : Nat × Nat → Nat × Nat → Bool}
    {nextI : Nat × Nat → Nat × Nat → Nat × Nat} {body : Nat × Nat → M (Mem R) Unit} {a b : Nat}
    (so : Nat → Nat × Nat) (si : Nat × Nat → Nat × Nat) (ha : a < fuelMax) (hb : b < fuelMax)
    (h0 : ∀ k, si (k, 0) = so k)
    (h1 : ∀ k, k < a → cond (so k) = true) (h2 : cond (so a) = false) (h3 : ∀ k, k < a → next (so k) = so (k + 1))
    (h4 : ∀ k, k < a → ∀ i, i < b → condI (so k) (si (k, i)) = true) (h5 : ∀ k, k < a → condI (so k) (si (k, b)) = false)
    (h6 : ∀ k, k < a → ∀ i, i < b → nextI (so k) (si (k, i)) = si (k, i + 1)) :
    loop cond next (fun s _ => loop (condI s) (nextI s) (fun q _ => body q) fuelMax s ()) fuelMax (so 0) ()
      = fold (fun p _ => body (si p)) (grid a b) () := by
  rw [loop_eq_fold so a fuelMax () ha h1 h2 h3, fold_grid]
  refine fold_congr () fun k hk => ?_
  have hk := List.mem_range.1 hk
  funext u
  rw [← h0 k, loop_eq_fold (fun i => si (k, i)) b fuelMax () hb (by rw [h0]; exact h4 k hk) (by rw [h0]; exact h5 k hk)
    (by rw [h0]; exact h6 k hk)]

/-- The sizes of a transform: an even number of columns and rows, `n` elements in total.
    Not in the code: for statements and proofs. -/
structure HaarSize (w h n : Nat) : Prop where
  wpos : 0 < w
  hpos : 0 < h
  we : w % 2 = 0
  he : h % 2 = 0
  count : n = w * h
  small : n < 18446744073709551616

theorem HaarSize.halves {w h n : Nat} (s : HaarSize w h n) : ∃ a b, 0 < a ∧ 0 < b ∧ w = 2 * a ∧ h = 2 * b := by
  have := s.we
  have := s.he
  have := s.wpos
  have := s.hpos
  exact ⟨w / 2, h / 2, by omega, by omega, by omega, by omega⟩

theorem HaarSize.valid {w h n : Nat} (s : HaarSize w h n) {m : Mem R} {b x y i : Nat} (hb : b ≠ 0) (hm : m.size b = n) (hx : x < w)
    (hy : y < h) (he : i = y * w + x) : m.Valid b i := by
  refine ⟨hb, ?_⟩
  rw [hm, s.count, he, Nat.mul_comm w h]
  exact mul_add_lt hy hx

theorem directX_ok [Add R] [Sub R] [Mul R] {c : R} {S T w h n : Nat} {m : Mem R} (s : HaarSize w h n) (hS : S ≠ 0) (hT : T ≠ 0)
    (hST : S ≠ T) (mS : m.size S = n) (mT : m.size T = n) :
    ∃ m', directX c S T n w m = .ok () m' ∧ m'.size = m.size ∧ (∀ b, b ≠ T → m'.byte b = m.byte b) ∧
      ∀ x y, x < w / 2 → y < h →
        m'.byte T (y * w + x) = (m.byte S (y * w + 2 * x + 1) + m.byte S (y * w + 2 * x)) * c ∧
        m'.byte T (y * w + x + w / 2) = (m.byte S (y * w + 2 * x + 1) - m.byte S (y * w + 2 * x)) * c := by
  have hw := s.we
  have hw0 := s.wpos
  have hh0 := s.hpos
  have hc := s.count
  have hs := s.small
  have hn1 : w * 1 ≤ w * h := Nat.mul_le_mul_left _ hh0
  have hn2 : 1 * h ≤ w * h := Nat.mul_le_mul_right _ hw0
  have e := nested (R := R) (cond := fun s : Nat × Nat => s.1 != n) (next := fun s => (s.1 + w, s.2 + w))
    (condI := fun s q => q.1 != s.1 + w) (nextI := fun _ q => (q.1 + 2, q.2 + 1))
    (body := fun q => haarStep S T q.1 (q.1 + 1) q.2 (q.2 + w / 2) (haarSum c) (haarDiff c)) (a := h) (b := w / 2)
    (fun k => (k * w, k * w)) (fun p => (p.1 * w + 2 * p.2, p.1 * w + p.2)) (by rw [fuelMax]; omega) (by rw [fuelMax]; omega)
    (fun k => by simp)
    (fun k hk => by
      have := Nat.mul_lt_mul_of_pos_right hk hw0
      simp only [bne_iff_ne, ne_eq, hc, Nat.mul_comm w h]
      omega)
    (by simp only [hc, Nat.mul_comm w h, bne_self_eq_false]) (fun k _ => by simp only [Nat.succ_mul])
    (fun k _ i hi => by simp only [bne_iff_ne, ne_eq]; omega)
    (fun k _ => by simp only [bne_eq_false_iff_eq]; omega)
    (fun k _ i _ => by simp only [Prod.mk.injEq]; omega)
  obtain ⟨m', h1, h2, h3, h4⟩ := pairs_ok (m := m) (f := haarSum c) (g := haarDiff c) (L := grid h (w / 2))
    (s1 := fun p => p.1 * w + 2 * p.2) (s2 := fun p => p.1 * w + 2 * p.2 + 1) (d1 := fun p => p.1 * w + p.2)
    (d2 := fun p => p.1 * w + p.2 + w / 2) (nodup_grid _ _) hST
    (fun p hp => by
      obtain ⟨hy, hx⟩ := mem_grid.1 hp
      exact ⟨s.valid (x := 2 * p.2) hS mS (by omega) hy (by omega), s.valid (x := 2 * p.2 + 1) hS mS (by omega) hy (by omega),
        s.valid (x := p.2) hT mT (by omega) hy (by omega), s.valid (x := p.2 + w / 2) hT mT (by omega) hy (by omega)⟩)
    (fun p hp q hq he => by
      obtain ⟨hy, hx⟩ := mem_grid.1 hp
      obtain ⟨hy', hx'⟩ := mem_grid.1 hq
      obtain ⟨e1, e2⟩ := mul_add_inj (r := w) (by omega) (by omega) he
      exact Prod.ext e1 e2)
    (fun p hp q hq he => by
      obtain ⟨hy, hx⟩ := mem_grid.1 hp
      obtain ⟨hy', hx'⟩ := mem_grid.1 hq
      rw [Nat.add_assoc, Nat.add_assoc] at he
      obtain ⟨e1, e2⟩ := mul_add_inj (r := w) (by omega) (by omega) he
      exact Prod.ext e1 (by omega))
    (fun p hp q hq he => by
      obtain ⟨hy, hx⟩ := mem_grid.1 hp
      obtain ⟨hy', hx'⟩ := mem_grid.1 hq
      rw [Nat.add_assoc] at he
      obtain ⟨e1, e2⟩ := mul_add_inj (r := w) (by omega) (by omega) he
      omega)
  refine ⟨m', ?_, h2, h3, fun x y hx hy => h4 (y, x) (mem_grid.2 ⟨hy, hx⟩)⟩
  simp only [Nat.zero_mul] at e
  exact (congrFun e m).trans h1
theorem inverseX_ok [Add R] [Sub R] [Mul R] {c : R} {S T w h n : Nat} {m : Mem R} (s : HaarSize w h n) (hS : S ≠ 0) (hT : T ≠ 0)
    (hST : S ≠ T) (mS : m.size S = n) (mT : m.size T = n) :
    ∃ m', inverseX c S T n w m = .ok () m' ∧ m'.size = m.size ∧ (∀ b, b ≠ T → m'.byte b = m.byte b) ∧
      ∀ x y, x < w / 2 → y < h →
        m'.byte T (y * w + 2 * x) = (m.byte S (y * w + x) - m.byte S (y * w + x + w / 2)) * c ∧
        m'.byte T (y * w + 2 * x + 1) = (m.byte S (y * w + x) + m.byte S (y * w + x + w / 2)) * c := by
  have hw := s.we
  have hw0 := s.wpos
  have hh0 := s.hpos
  have hc := s.count
  have hs := s.small
  have hn1 : w * 1 ≤ w * h := Nat.mul_le_mul_left _ hh0
  have hn2 : 1 * h ≤ w * h := Nat.mul_le_mul_right _ hw0
  have e := nested (R := R) (cond := fun s : Nat × Nat => s.1 != n) (next := fun s => (s.1 + w, s.2 + w))
    (condI := fun s q => q.2 != s.2 + w) (nextI := fun _ q => (q.1 + 1, q.2 + 2))
    (body := fun q => haarStep S T q.1 (q.1 + w / 2) q.2 (q.2 + 1) (haarLeft c) (haarRight c)) (a := h) (b := w / 2)
    (fun k => (k * w, k * w)) (fun p => (p.1 * w + p.2, p.1 * w + 2 * p.2)) (by rw [fuelMax]; omega) (by rw [fuelMax]; omega)
    (fun k => by simp)
    (fun k hk => by
      have := Nat.mul_lt_mul_of_pos_right hk hw0
      simp only [bne_iff_ne, ne_eq, hc, Nat.mul_comm w h]
      omega)
    (by simp only [hc, Nat.mul_comm w h, bne_self_eq_false]) (fun k _ => by simp only [Nat.succ_mul])
    (fun k _ i hi => by simp only [bne_iff_ne, ne_eq]; omega)
    (fun k _ => by simp only [bne_eq_false_iff_eq]; omega)
    (fun k _ i _ => by simp only [Prod.mk.injEq]; omega)
  obtain ⟨m', h1, h2, h3, h4⟩ := pairs_ok (m := m) (f := haarLeft c) (g := haarRight c) (L := grid h (w / 2))
    (s1 := fun p => p.1 * w + p.2) (s2 := fun p => p.1 * w + p.2 + w / 2) (d1 := fun p => p.1 * w + 2 * p.2)
    (d2 := fun p => p.1 * w + 2 * p.2 + 1) (nodup_grid _ _) hST
    (fun p hp => by
      obtain ⟨hy, hx⟩ := mem_grid.1 hp
      exact ⟨s.valid (x := p.2) hS mS (by omega) hy (by omega), s.valid (x := p.2 + w / 2) hS mS (by omega) hy (by omega),
        s.valid (x := 2 * p.2) hT mT (by omega) hy (by omega), s.valid (x := 2 * p.2 + 1) hT mT (by omega) hy (by omega)⟩)
    (fun p hp q hq he => by
      obtain ⟨hy, hx⟩ := mem_grid.1 hp
      obtain ⟨hy', hx'⟩ := mem_grid.1 hq
      obtain ⟨e1, e2⟩ := mul_add_inj (r := w) (by omega) (by omega) he
      exact Prod.ext e1 (by omega))
    (fun p hp q hq he => by
      obtain ⟨hy, hx⟩ := mem_grid.1 hp
      obtain ⟨hy', hx'⟩ := mem_grid.1 hq
      rw [Nat.add_assoc, Nat.add_assoc] at he
      obtain ⟨e1, e2⟩ := mul_add_inj (r := w) (by omega) (by omega) he
      exact Prod.ext e1 (by omega))
    (fun p hp q hq he => by
      obtain ⟨hy, hx⟩ := mem_grid.1 hp
      obtain ⟨hy', hx'⟩ := mem_grid.1 hq
      rw [Nat.add_assoc] at he
      obtain ⟨e1, e2⟩ := mul_add_inj (r := w) (by omega) (by omega) he
      omega)
  refine ⟨m', ?_, h2, h3, fun x y hx hy => h4 (y, x) (mem_grid.2 ⟨hy, hx⟩)⟩
  simp only [Nat.zero_mul] at e
  exact (congrFun e m).trans h1

theorem directY_ok [Add R] [Sub R] [Mul R] {c : R} {S T w h n : Nat} {m : Mem R} (s : HaarSize w h n) (hS : S ≠ 0) (hT : T ≠ 0)
    (hST : S ≠ T) (mS : m.size S = n) (mT : m.size T = n) :
    ∃ m', directY c S T w h m = .ok () m' ∧ m'.size = m.size ∧ (∀ b, b ≠ T → m'.byte b = m.byte b) ∧
      ∀ x y, x < w → y < h / 2 →
        m'.byte T (y * w + x) = (m.byte S ((2 * y + 1) * w + x) + m.byte S (2 * y * w + x)) * c ∧
        m'.byte T ((y + h / 2) * w + x) = (m.byte S ((2 * y + 1) * w + x) - m.byte S (2 * y * w + x)) * c := by
  have he := s.he
  have hw0 := s.wpos
  have hh0 := s.hpos
  have hc := s.count
  have hs := s.small
  have hn1 : w * 1 ≤ w * h := Nat.mul_le_mul_left _ hh0
  have hn2 : 1 * h ≤ w * h := Nat.mul_le_mul_right _ hw0
  have hh2 : 2 ≤ h := by omega
  have hn3 : 2 * w ≤ w * h := by
    rw [Nat.mul_comm]
    exact Nat.mul_le_mul_left _ hh2
  have hn4 : h / 2 * w ≤ w * h := by
    rw [Nat.mul_comm w h]
    exact Nat.mul_le_mul_right _ (by omega)
  have k1 : u64 (h * w) = h / 2 * (2 * w) := by
    rw [u64_of_lt (by rw [Nat.mul_comm]; omega), ← Nat.mul_assoc, show h / 2 * 2 = h by omega]
  have k2 : u64 (2 * w) = 2 * w := u64_of_lt (by omega)
  have k3 : u64 (h / 2 * w) = h / 2 * w := u64_of_lt (by omega)
  have e := nested (R := R) (cond := fun s : Nat × Nat => s.1 != w) (next := fun s => (s.1 + 1, s.2 + 1))
    (condI := fun s q => q.1 != s.1 + h / 2 * (2 * w)) (nextI := fun _ q => (q.1 + 2 * w, q.2 + w))
    (body := fun q => haarStep S T q.1 (q.1 + w) q.2 (q.2 + h / 2 * w) (haarSum c) (haarDiff c)) (a := w) (b := h / 2)
    (fun k => (k, k)) (fun p => (p.1 + p.2 * (2 * w), p.1 + p.2 * w)) (by rw [fuelMax]; omega) (by rw [fuelMax]; omega)
    (fun k => by simp)
    (fun k hk => by simp only [bne_iff_ne, ne_eq]; omega)
    (by simp) (fun k _ => rfl)
    (fun k _ i hi => ptr_ne hi (by omega))
    (fun k _ => by simp)
    (fun k _ i _ => by simp only [Prod.mk.injEq, Nat.succ_mul]; omega)
  obtain ⟨m', h1, h2, h3, h4⟩ := pairs_ok (m := m) (f := haarSum c) (g := haarDiff c) (L := grid w (h / 2))
    (s1 := fun p => p.1 + p.2 * (2 * w)) (s2 := fun p => p.1 + p.2 * (2 * w) + w) (d1 := fun p => p.1 + p.2 * w)
    (d2 := fun p => p.1 + p.2 * w + h / 2 * w) (nodup_grid _ _) hST
    (fun p hp => by
      obtain ⟨hx, hy⟩ := mem_grid.1 hp
      exact ⟨s.valid (x := p.1) (y := 2 * p.2) hS mS hx (by omega) (by rw [← Nat.mul_assoc, Nat.mul_comm p.2 2, Nat.add_comm]),
        s.valid (x := p.1) (y := 2 * p.2 + 1) hS mS hx (by omega) (by ring),
        s.valid (x := p.1) (y := p.2) hT mT hx (by omega) (by omega),
        s.valid (x := p.1) (y := p.2 + h / 2) hT mT hx (by omega) (by rw [Nat.add_mul]; omega)⟩)
    (fun p hp q hq he => by
      obtain ⟨hx, hy⟩ := mem_grid.1 hp
      obtain ⟨hx', hy'⟩ := mem_grid.1 hq
      rw [Nat.add_comm, Nat.add_comm q.1] at he
      obtain ⟨e1, e2⟩ := mul_add_inj (r := w) (by omega) (by omega) he
      exact Prod.ext e2 e1)
    (fun p hp q hq he => by
      obtain ⟨hx, hy⟩ := mem_grid.1 hp
      obtain ⟨hx', hy'⟩ := mem_grid.1 hq
      have he := Nat.add_right_cancel he
      rw [Nat.add_comm, Nat.add_comm q.1] at he
      obtain ⟨e1, e2⟩ := mul_add_inj (r := w) (by omega) (by omega) he
      exact Prod.ext e2 e1)
    (fun p hp q hq he => by
      obtain ⟨hx, hy⟩ := mem_grid.1 hp
      obtain ⟨hx', hy'⟩ := mem_grid.1 hq
      have he : p.2 * w + p.1 = (q.2 + h / 2) * w + q.1 := by
        rw [Nat.add_mul]
        omega
      obtain ⟨e1, e2⟩ := mul_add_inj (r := w) (by omega) (by omega) he
      omega)
  refine ⟨m', ?_, h2, h3, fun x y hx hy => ?_⟩
  · rw [directY, k1, k2, k3]
    exact (congrFun e m).trans h1
  · have h5 := h4 (x, y) (mem_grid.2 ⟨hx, hy⟩)
    have q1 : x + y * (2 * w) = 2 * y * w + x := by rw [← Nat.mul_assoc, Nat.mul_comm y 2, Nat.add_comm]
    have q2 : x + y * (2 * w) + w = (2 * y + 1) * w + x := by ring
    have q3 : x + y * w = y * w + x := Nat.add_comm _ _
    have q4 : x + y * w + h / 2 * w = (y + h / 2) * w + x := by rw [Nat.add_mul]; omega
    rw [← q2, ← q1, ← q3, ← q4]
    exact h5

theorem inverseY_ok [Add R] [Sub R] [Mul R] {c : R} {S T w h n : Nat} {m : Mem R} (s : HaarSize w h n) (hS : S ≠ 0) (hT : T ≠ 0)
    (hST : S ≠ T) (mS : m.size S = n) (mT : m.size T = n) :
    ∃ m', inverseY c S T w h m = .ok () m' ∧ m'.size = m.size ∧ (∀ b, b ≠ T → m'.byte b = m.byte b) ∧
      ∀ x y, x < w → y < h / 2 →
        m'.byte T (2 * y * w + x) = (m.byte S (y * w + x) - m.byte S ((y + h / 2) * w + x)) * c ∧
        m'.byte T ((2 * y + 1) * w + x) = (m.byte S (y * w + x) + m.byte S ((y + h / 2) * w + x)) * c := by
  have he := s.he
  have hw0 := s.wpos
  have hh0 := s.hpos
  have hc := s.count
  have hs := s.small
  have hn1 : w * 1 ≤ w * h := Nat.mul_le_mul_left _ hh0
  have hn2 : 1 * h ≤ w * h := Nat.mul_le_mul_right _ hw0
  have hh2 : 2 ≤ h := by omega
  have hn3 : 2 * w ≤ w * h := by
    rw [Nat.mul_comm]
    exact Nat.mul_le_mul_left _ hh2
  have hn4 : h / 2 * w ≤ w * h := by
    rw [Nat.mul_comm w h]
    exact Nat.mul_le_mul_right _ (by omega)
  have k1 : u64 (h * w) = h / 2 * (2 * w) := by
    rw [u64_of_lt (by rw [Nat.mul_comm]; omega), ← Nat.mul_assoc, show h / 2 * 2 = h by omega]
  have k2 : u64 (2 * w) = 2 * w := u64_of_lt (by omega)
  have k3 : u64 (h / 2 * w) = h / 2 * w := u64_of_lt (by omega)
  have e := nested (R := R) (cond := fun s : Nat × Nat => s.1 != w) (next := fun s => (s.1 + 1, s.2 + 1))
    (condI := fun s q => q.2 != s.2 + h / 2 * (2 * w)) (nextI := fun _ q => (q.1 + w, q.2 + 2 * w))
    (body := fun q => haarStep S T q.1 (q.1 + h / 2 * w) q.2 (q.2 + w) (haarLeft c) (haarRight c)) (a := w) (b := h / 2)
    (fun k => (k, k)) (fun p => (p.1 + p.2 * w, p.1 + p.2 * (2 * w))) (by rw [fuelMax]; omega) (by rw [fuelMax]; omega)
    (fun k => by simp)
    (fun k hk => by simp only [bne_iff_ne, ne_eq]; omega)
    (by simp) (fun k _ => rfl)
    (fun k _ i hi => ptr_ne hi (by omega))
    (fun k _ => by simp)
    (fun k _ i _ => by simp only [Prod.mk.injEq, Nat.succ_mul]; omega)
  obtain ⟨m', h1, h2, h3, h4⟩ := pairs_ok (m := m) (f := haarLeft c) (g := haarRight c) (L := grid w (h / 2))
    (s1 := fun p => p.1 + p.2 * w) (s2 := fun p => p.1 + p.2 * w + h / 2 * w) (d1 := fun p => p.1 + p.2 * (2 * w))
    (d2 := fun p => p.1 + p.2 * (2 * w) + w) (nodup_grid _ _) hST
    (fun p hp => by
      obtain ⟨hx, hy⟩ := mem_grid.1 hp
      exact ⟨s.valid (x := p.1) (y := p.2) hS mS hx (by omega) (by omega),
        s.valid (x := p.1) (y := p.2 + h / 2) hS mS hx (by omega) (by rw [Nat.add_mul]; omega),
        s.valid (x := p.1) (y := 2 * p.2) hT mT hx (by omega) (by rw [← Nat.mul_assoc, Nat.mul_comm p.2 2, Nat.add_comm]),
        s.valid (x := p.1) (y := 2 * p.2 + 1) hT mT hx (by omega) (by ring)⟩)
    (fun p hp q hq he => by
      obtain ⟨hx, hy⟩ := mem_grid.1 hp
      obtain ⟨hx', hy'⟩ := mem_grid.1 hq
      rw [Nat.add_comm, Nat.add_comm q.1] at he
      obtain ⟨e1, e2⟩ := mul_add_inj (r := 2 * w) (by omega) (by omega) he
      exact Prod.ext e2 e1)
    (fun p hp q hq he => by
      obtain ⟨hx, hy⟩ := mem_grid.1 hp
      obtain ⟨hx', hy'⟩ := mem_grid.1 hq
      have he := Nat.add_right_cancel he
      rw [Nat.add_comm, Nat.add_comm q.1] at he
      obtain ⟨e1, e2⟩ := mul_add_inj (r := 2 * w) (by omega) (by omega) he
      exact Prod.ext e2 e1)
    (fun p hp q hq he => by
      obtain ⟨hx, hy⟩ := mem_grid.1 hp
      obtain ⟨hx', hy'⟩ := mem_grid.1 hq
      rw [Nat.add_comm, Nat.add_right_comm, Nat.add_comm] at he
      obtain ⟨e1, e2⟩ := mul_add_inj (r := 2 * w) (a := p.2) (b := p.1) (a' := q.2) (b' := q.1 + w) (by omega) (by omega) (by omega)
      omega)
  refine ⟨m', ?_, h2, h3, fun x y hx hy => ?_⟩
  · rw [inverseY, k1, k2, k3]
    exact (congrFun e m).trans h1
  · have h5 := h4 (x, y) (mem_grid.2 ⟨hx, hy⟩)
    have q1 : x + y * (2 * w) = 2 * y * w + x := by rw [← Nat.mul_assoc, Nat.mul_comm y 2, Nat.add_comm]
    have q2 : x + y * (2 * w) + w = (2 * y + 1) * w + x := by ring
    have q3 : x + y * w = y * w + x := Nat.add_comm _ _
    have q4 : x + y * w + h / 2 * w = (y + h / 2) * w + x := by rw [Nat.add_mul]; omega
    rw [← q2, ← q1, ← q3, ← q4]
    exact h5

/-- The memory inside the scope of the local vector. Not in the code: for statements and proofs. -/
def tempMem [Zero R] (t n : Nat) (m : Mem R) : Mem R :=
  ⟨fun b => if b = t then n else m.size b, fun b i => if b = t then 0 else m.byte b i⟩

theorem withTemp_ok [Zero R] {t n : Nat} {body : M (Mem R) Unit} {m m1 : Mem R} (h : body (tempMem t n m) = .ok () m1) :
    withTemp t n body m = .ok () ⟨fun b => if b = t then m.size b else m1.size b, fun b i => if b = t then m.byte b i else m1.byte b i⟩ := by
  show (match body (tempMem t n m) with | .ok a m' => _ | .throw m' => _ | .ub => _) = _
  rw [h]

theorem haarCheck_ok {w h n inp out : Nat} (s : HaarSize w h n) {m : Mem R} (hi : m.size inp = n) (ho : m.size out = n) :
    haarCheck inp out w h m = .ok () m := by
  have h0 : 0 < n := by
    rw [s.count]
    exact Nat.mul_pos s.wpos s.hpos
  have e : (m.size inp == 0 || m.size inp != m.size out || m.size inp != u64 (w * h) || w % 2 != 0 || h % 2 != 0) = false := by
    rw [hi, ho, ← s.count, u64_of_lt s.small, s.we, s.he]
    simp only [bne_self_eq_false, Bool.or_false, beq_eq_false_iff_ne, ne_eq]
    omega
  rw [haarCheck, e]
  rfl

theorem tempMem_other [Zero R] {t n b : Nat} {m : Mem R} (h : b ≠ t) : (tempMem t n m).byte b = m.byte b := by
  funext i
  rw [tempMem]
  exact if_neg h

theorem tempMem_size [Zero R] {t n b : Nat} {m : Mem R} (h : b ≠ t) : (tempMem t n m).size b = m.size b := by
  rw [tempMem]
  exact if_neg h

/-- Where the vectors of a call are. Not in the code: for statements and proofs. -/
structure HaarCall (w h n t inp out : Nat) (m : Mem R) : Prop where
  size : HaarSize w h n
  tz : t ≠ 0
  iz : inp ≠ 0
  oz : out ≠ 0
  ti : t ≠ inp
  ot : t ≠ out
  mi : m.size inp = n
  mo : m.size out = n

theorem HaarDirect_ok [Add R] [Sub R] [Mul R] [Zero R] {c : R} {w h n t inp out : Nat} {m : Mem R} (g : HaarCall w h n t inp out m) :
    ∃ (m' : Mem R) (tmp : Nat → R), HaarDirectTransform c t inp out w h m = .ok () m' ∧ m'.size = m.size ∧ (∀ b, b ≠ out → m'.byte b = m.byte b) ∧
      (∀ x y, x < w / 2 → y < h →
        tmp (y * w + x) = (m.byte inp (y * w + 2 * x + 1) + m.byte inp (y * w + 2 * x)) * c ∧
        tmp (y * w + x + w / 2) = (m.byte inp (y * w + 2 * x + 1) - m.byte inp (y * w + 2 * x)) * c) ∧
      ∀ x y, x < w → y < h / 2 →
        m'.byte out (y * w + x) = (tmp ((2 * y + 1) * w + x) + tmp (2 * y * w + x)) * c ∧
        m'.byte out ((y + h / 2) * w + x) = (tmp ((2 * y + 1) * w + x) - tmp (2 * y * w + x)) * c := by
  obtain ⟨m1, h1, z1, o1, v1⟩ := directX_ok (c := c) (m := tempMem t n m) g.size g.iz g.tz g.ti.symm
    ((tempMem_size g.ti.symm).trans g.mi) (if_pos rfl)
  obtain ⟨m2, h2, z2, o2, v2⟩ := directY_ok (c := c) (m := m1) g.size g.tz g.oz g.ot
    (by rw [z1]; exact if_pos rfl) (by rw [z1]; exact (tempMem_size g.ot.symm).trans g.mo)
  rw [tempMem_other g.ti.symm] at v1
  refine ⟨⟨fun b => if b = t then m.size b else m2.size b, fun b i => if b = t then m.byte b i else m2.byte b i⟩, m1.byte t,
    ?_, ?_, ?_, v1, ?_⟩
  · rw [HaarDirectTransform, bind_ok (haarCheck_ok g.size g.mi g.mo), g.mi]
    exact withTemp_ok ((bind_ok h1).trans h2)
  · funext b
    show (if b = t then _ else _) = _
    split
    · rfl
    · rename_i hb
      rw [z2, z1, tempMem_size hb]
  · intro b hb
    funext i
    show (if b = t then _ else _) = _
    split
    · rfl
    · rename_i hbt
      rw [o2 b hb, o1 b hbt, tempMem_other hbt]
  · intro x y hx hy
    have := v2 x y hx hy
    simp only [if_neg g.ot.symm]
    exact this

theorem HaarInverse_ok [Add R] [Sub R] [Mul R] [Zero R] {c : R} {w h n t inp out : Nat} {m : Mem R} (g : HaarCall w h n t inp out m) :
    ∃ (m' : Mem R) (tmp : Nat → R), HaarInverseTransform c t inp out w h m = .ok () m' ∧ m'.size = m.size ∧ (∀ b, b ≠ out → m'.byte b = m.byte b) ∧
      (∀ x y, x < w / 2 → y < h →
        tmp (y * w + 2 * x) = (m.byte inp (y * w + x) - m.byte inp (y * w + x + w / 2)) * c ∧
        tmp (y * w + 2 * x + 1) = (m.byte inp (y * w + x) + m.byte inp (y * w + x + w / 2)) * c) ∧
      ∀ x y, x < w → y < h / 2 →
        m'.byte out (2 * y * w + x) = (tmp (y * w + x) - tmp ((y + h / 2) * w + x)) * c ∧
        m'.byte out ((2 * y + 1) * w + x) = (tmp (y * w + x) + tmp ((y + h / 2) * w + x)) * c := by
  obtain ⟨m1, h1, z1, o1, v1⟩ := inverseX_ok (c := c) (m := tempMem t n m) g.size g.iz g.tz g.ti.symm
    ((tempMem_size g.ti.symm).trans g.mi) (if_pos rfl)
  obtain ⟨m2, h2, z2, o2, v2⟩ := inverseY_ok (c := c) (m := m1) g.size g.tz g.oz g.ot
    (by rw [z1]; exact if_pos rfl) (by rw [z1]; exact (tempMem_size g.ot.symm).trans g.mo)
  rw [tempMem_other g.ti.symm] at v1
  refine ⟨⟨fun b => if b = t then m.size b else m2.size b, fun b i => if b = t then m.byte b i else m2.byte b i⟩, m1.byte t,
    ?_, ?_, ?_, v1, ?_⟩
  · rw [HaarInverseTransform, bind_ok (haarCheck_ok g.size g.mi g.mo), g.mi]
    exact withTemp_ok ((bind_ok h1).trans h2)
  · funext b
    show (if b = t then _ else _) = _
    split
    · rfl
    · rename_i hb
      rw [z2, z1, tempMem_size hb]
  · intro b hb
    funext i
    show (if b = t then _ else _) = _
    split
    · rfl
    · rename_i hbt
      rw [o2 b hb, o1 b hbt, tempMem_other hbt]
  · intro x y hx hy
    have := v2 x y hx hy
    simp only [if_neg g.ot.symm]
    exact this

end PV
