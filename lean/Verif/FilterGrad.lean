import Verif.FilterLemmas
/-
  Lemmas about `Prewitt` and `Sobel`.
-/
namespace PV

open Simd

variable {α μ A : Type}

/-- A fold with a relation between the steps done, the value carried and the memory. -/
theorem fold_am {body : Nat → A → M μ A} {P : Nat → A → μ → Prop} (n : Nat) (a : A) (m : μ) (h0 : P 0 a m)
    (hs : ∀ j, j < n → ∀ a m, P j a m → ∃ a' m', body j a m = .ok a' m' ∧ P (j + 1) a' m') :
    ∃ a' m', fold body (List.range n) a m = .ok a' m' ∧ P n a' m' := by
  induction n with
  | zero => exact ⟨a, m, rfl, h0⟩
  | succ n ih =>
    obtain ⟨a1, m1, h1, h2⟩ := ih fun j hj => hs j (by omega)
    obtain ⟨a2, m2, h3, h4⟩ := hs n (by omega) a1 m1 h2
    refine ⟨a2, m2, ?_, h4⟩
    rw [List.range_succ, fold_append, bind_ok h1, fold_cons, bind_ok h3]
    rfl

/-- A row of the rectangle written at once. -/
theorem Done.row {m m1 : Mem α} {out : View} {w h y : Nat} {F : Nat → Nat → Nat → α} {P : Nat → Nat → Prop}
    {val : Nat → α} (wf : out.img.WF m) (fit : out.Fits w h) (d : Done m m1 out w h F P) (hy : y < h)
    (hv : ∀ x c, x < w → c < out.img.cc → val (x * out.img.cc + c) = F x y c) :
    Done m (setRange m1 out.img.data (out.start out.img.cc + y * out.img.rowSize) (w * out.img.cc) val) out w h F
      fun x' y' => P x' y' ∨ y' = y := by
  refine ⟨⟨d.off.size_eq, fun b i hi => ?_⟩, fun x y' c hx hy' hc hP => ?_⟩
  · rw [setRange_byte_other fun hc => hi ⟨hc.1, in_row wf fit hy hc.2.1 hc.2.2⟩, d.off.outside b i hi]
  · have ht := mul_add_lt hx hc
    have e := View.start_cell wf fit x y' c
    rw [View.get, ← e]
    by_cases hyy : y' = y
    · subst hyy
      simp only [setRange, true_and]
      rw [if_pos ⟨by omega, by omega⟩, Nat.add_sub_cancel_left, hv x c hx hc]
    · rw [setRange_byte_other, e]
      · exact d.val x y' c hx hy' hc (hP.resolve_right hyy)
      · obtain ⟨_, _, _, _, _, _, _, _, _, hle⟩ := View.facts wf fit
        rintro ⟨_, h1, h2⟩
        have := mul_add_inj (r := out.img.rowSize) (a := y') (b := x * out.img.cc + c) (a' := y)
          (b' := out.start out.img.cc + y' * out.img.rowSize + (x * out.img.cc + c)
            - (out.start out.img.cc + y * out.img.rowSize)) (by omega) (by omega) (by omega)
        exact hyy this.1

/-! ### The pixels around a pixel -/

/-- The byte at column `X` of row `Y` of a gray-scale image. Not in the code: for statements and proofs. -/
def Image.pix (img : Image) (m : BMem) (X Y : Nat) : UInt8 := m.byte img.data (Y * img.rowSize + X)

/-- The pixels around (X, Y): `near img m X Y dx dy` is the pixel (X - 1 + dx, Y - 1 + dy).
    Not in the code: for statements and proofs. -/
def near (img : Image) (m : BMem) (X Y dx dy : Nat) : Int := (img.pix m (X - 1 + dx) (Y - 1 + dy)).toNat

/-- What is used about the gradient `grad` at the pixel (X, Y). Not in the code: for statements and proofs. -/
def GradAt (grad : Nat → M BMem (Int × Int)) (img : Image) (size : Nat) (G : (Nat → Nat → Int) → Int × Int) : Prop :=
  ∀ m : BMem, ∀ X Y, 1 ≤ X → 1 ≤ Y → X + 1 < img.width → Y + 1 < img.height →
    img.data ≠ 0 → img.WF m → img.cc = 1 →
    grad (Y * img.rowSize + X) m = .ok (G (near img m X Y)) m ∧
    (G (near img m X Y)).1.natAbs < size ∧ (G (near img m X Y)).2.natAbs < size

theorem pix_read {m : BMem} {img : Image} {X Y : Nat} (hd : img.data ≠ 0) (wf : img.WF m) (hcc : img.cc = 1)
    (hX : X < img.width) (hY : Y < img.height) :
    readC img.data (Y * img.rowSize + X) m = .ok (img.pix m X Y) m := by
  refine readC_ok ⟨hd, ?_⟩
  have h1 := wf.row
  rw [hcc] at h1
  have h2 := mul_add_lt (r := img.rowSize) hY (show X < img.rowSize by omega)
  have h3 := wf.block
  rw [Nat.mul_comm] at h3
  omega

theorem reads_around {m : BMem} {img : Image} {X Y : Nat} (hX : 1 ≤ X) (hY : 1 ≤ Y) (hX2 : X + 1 < img.width)
    (hY2 : Y + 1 < img.height) (hd : img.data ≠ 0) (wf : img.WF m) (hcc : img.cc = 1) :
    readBack img.data (Y * img.rowSize + X) (u32 (img.rowSize + 1)) m = .ok (img.pix m (X - 1) (Y - 1)) m ∧
    readC img.data (Y * img.rowSize + X + u32 (img.rowSize + 1)) m = .ok (img.pix m (X + 1) (Y + 1)) m ∧
    readBack img.data (Y * img.rowSize + X) 1 m = .ok (img.pix m (X - 1) Y) m ∧
    readC img.data (Y * img.rowSize + X + usub img.rowSize 1) m = .ok (img.pix m (X - 1) (Y + 1)) m ∧
    readBack img.data (Y * img.rowSize + X) (usub img.rowSize 1) m = .ok (img.pix m (X + 1) (Y - 1)) m ∧
    readC img.data (Y * img.rowSize + X + 1) m = .ok (img.pix m (X + 1) Y) m ∧
    readBack img.data (Y * img.rowSize + X) img.rowSize m = .ok (img.pix m X (Y - 1)) m ∧
    readC img.data (Y * img.rowSize + X + img.rowSize) m = .ok (img.pix m X (Y + 1)) m := by
  have hr := wf.row
  rw [hcc] at hr
  have hs := wf.small
  have hs2 : img.rowSize * 2 ≤ img.rowSize * img.height := Nat.mul_le_mul_left _ (by omega)
  have e1 : u32 (img.rowSize + 1) = img.rowSize + 1 := u32_of_lt (by omega)
  have e2 : usub img.rowSize 1 = img.rowSize - 1 := usub_of_le (by omega) (by omega)
  obtain ⟨Z, rfl⟩ : ∃ Z, Y = Z + 1 := ⟨Y - 1, by omega⟩
  obtain ⟨W, rfl⟩ : ∃ W, X = W + 1 := ⟨X - 1, by omega⟩
  have q1 : (Z + 1) * img.rowSize = Z * img.rowSize + img.rowSize := Nat.succ_mul _ _
  have q2 : (Z + 1 + 1) * img.rowSize = Z * img.rowSize + img.rowSize + img.rowSize := by
    rw [Nat.succ_mul, q1]
  rw [e1, e2]
  simp only [Nat.add_sub_cancel]
  have r := fun X Y (h1 : X < img.width) (h2 : Y < img.height) => pix_read (m := m) hd wf hcc h1 h2
  refine ⟨?_, ?_, ?_, ?_, ?_, ?_, ?_, ?_⟩
  · rw [readBack, if_pos (by omega), show (Z + 1) * img.rowSize + (W + 1) - (img.rowSize + 1) = Z * img.rowSize + W by omega]
    exact r W Z (by omega) (by omega)
  · rw [show (Z + 1) * img.rowSize + (W + 1) + (img.rowSize + 1) = (Z + 1 + 1) * img.rowSize + (W + 1 + 1) by omega]
    exact r _ _ (by omega) (by omega)
  · rw [readBack, if_pos (by omega), show (Z + 1) * img.rowSize + (W + 1) - 1 = (Z + 1) * img.rowSize + W by omega]
    exact r _ _ (by omega) (by omega)
  · rw [show (Z + 1) * img.rowSize + (W + 1) + (img.rowSize - 1) = (Z + 1 + 1) * img.rowSize + W by omega]
    exact r _ _ (by omega) (by omega)
  · rw [readBack, if_pos (by omega),
      show (Z + 1) * img.rowSize + (W + 1) - (img.rowSize - 1) = Z * img.rowSize + (W + 1 + 1) by omega]
    exact r _ _ (by omega) (by omega)
  · rw [show (Z + 1) * img.rowSize + (W + 1) + 1 = (Z + 1) * img.rowSize + (W + 1 + 1) by omega]
    exact r _ _ (by omega) (by omega)
  · rw [readBack, if_pos (by omega), show (Z + 1) * img.rowSize + (W + 1) - img.rowSize = Z * img.rowSize + (W + 1) by omega]
    exact r _ _ (by omega) (by omega)
  · rw [show (Z + 1) * img.rowSize + (W + 1) + img.rowSize = (Z + 1 + 1) * img.rowSize + (W + 1) by omega]
    exact r _ _ (by omega) (by omega)

/-- Sum of the products of a 3 x 3 matrix, written row by row, with the pixels of a neighbourhood.
    Not in the code: for statements and proofs. -/
def conv (a b c d e f g h i : Int) (n : Nat → Nat → Int) : Int :=
  a * n 0 0 + b * n 1 0 + c * n 2 0 + d * n 0 1 + e * n 1 1 + f * n 2 1 + g * n 0 2 + h * n 1 2 + i * n 2 2

theorem near_eqs {img : Image} {m : BMem} {X Y : Nat} (hX : 1 ≤ X) (hY : 1 ≤ Y) :
    near img m X Y 0 0 = toInt (img.pix m (X - 1) (Y - 1)) ∧ near img m X Y 1 0 = toInt (img.pix m X (Y - 1)) ∧
    near img m X Y 2 0 = toInt (img.pix m (X + 1) (Y - 1)) ∧ near img m X Y 0 1 = toInt (img.pix m (X - 1) Y) ∧
    near img m X Y 2 1 = toInt (img.pix m (X + 1) Y) ∧ near img m X Y 0 2 = toInt (img.pix m (X - 1) (Y + 1)) ∧
    near img m X Y 1 2 = toInt (img.pix m X (Y + 1)) ∧ near img m X Y 2 2 = toInt (img.pix m (X + 1) (Y + 1)) := by
  have a0 : X - 1 + 0 = X - 1 := rfl
  have a1 : X - 1 + 1 = X := by omega
  have a2 : X - 1 + 2 = X + 1 := by omega
  have b0 : Y - 1 + 0 = Y - 1 := rfl
  have b1 : Y - 1 + 1 = Y := by omega
  have b2 : Y - 1 + 2 = Y + 1 := by omega
  unfold near toInt
  rw [a0, a1, a2, b0, b1, b2]
  exact ⟨rfl, rfl, rfl, rfl, rfl, rfl, rfl, rfl⟩

theorem prewitt_gradAt (img : Image) : GradAt (prewittAt img.data img.rowSize) img 768 fun n =>
    (conv 1 0 (-1)
          1 0 (-1)
          1 0 (-1) n,
     conv 1 1 1
          0 0 0
          (-1) (-1) (-1) n) := by
  intro m X Y hX hY hX2 hY2 hd wf hcc
  obtain ⟨r1, r2, r3, r4, r5, r6, r7, r8⟩ := reads_around hX hY hX2 hY2 hd wf hcc
  obtain ⟨n1, n2, n3, n4, n5, n6, n7, n8⟩ := near_eqs (img := img) (m := m) hX hY
  refine ⟨?_, ?_⟩
  · rw [prewittAt, bind_ok r1, bind_ok r2, bind_ok r3, bind_ok r4, bind_ok r5, bind_ok r6, bind_ok r7, bind_ok r8, pure_run]
    simp only [conv, n1, n2, n3, n4, n5, n6, n7, n8]
    refine congrArg (fun g => Res.ok g m) (Prod.ext ?_ ?_)
    · simp only
      omega
    · simp only
      omega
  · have k : ∀ a : UInt8, 0 ≤ toInt a ∧ toInt a ≤ 255 := fun a => by
      have := a.toNat_lt
      unfold toInt
      omega
    simp only [conv, n1, n2, n3, n4, n5, n6, n7, n8]
    have k1 := k (img.pix m (X - 1) (Y - 1))
    have k2 := k (img.pix m X (Y - 1))
    have k3 := k (img.pix m (X + 1) (Y - 1))
    have k4 := k (img.pix m (X - 1) Y)
    have k5 := k (img.pix m (X + 1) Y)
    have k6 := k (img.pix m (X - 1) (Y + 1))
    have k7 := k (img.pix m X (Y + 1))
    have k8 := k (img.pix m (X + 1) (Y + 1))
    omega

theorem sobel_gradAt (img : Image) : GradAt (sobelAt img.data img.rowSize) img 1024 fun n =>
    (conv 1 0 (-1)
          2 0 (-2)
          1 0 (-1) n,
     conv 1 2 1
          0 0 0
          (-1) (-2) (-1) n) := by
  intro m X Y hX hY hX2 hY2 hd wf hcc
  obtain ⟨r1, r2, r3, r4, r5, r6, r7, r8⟩ := reads_around hX hY hX2 hY2 hd wf hcc
  obtain ⟨n1, n2, n3, n4, n5, n6, n7, n8⟩ := near_eqs (img := img) (m := m) hX hY
  refine ⟨?_, ?_⟩
  · rw [sobelAt, bind_ok r1, bind_ok r2, bind_ok r4, bind_ok r5, bind_ok r3, bind_ok r6, bind_ok r7, bind_ok r8, pure_run]
    simp only [conv, n1, n2, n3, n4, n5, n6, n7, n8]
    refine congrArg (fun g => Res.ok g m) (Prod.ext ?_ ?_)
    · simp only
      omega
    · simp only
      omega
  · have k : ∀ a : UInt8, 0 ≤ toInt a ∧ toInt a ≤ 255 := fun a => by
      have := a.toNat_lt
      unfold toInt
      omega
    simp only [conv, n1, n2, n3, n4, n5, n6, n7, n8]
    have k1 := k (img.pix m (X - 1) (Y - 1))
    have k2 := k (img.pix m X (Y - 1))
    have k3 := k (img.pix m (X + 1) (Y - 1))
    have k4 := k (img.pix m (X - 1) Y)
    have k5 := k (img.pix m (X + 1) Y)
    have k6 := k (img.pix m (X - 1) (Y + 1))
    have k7 := k (img.pix m X (Y + 1))
    have k8 := k (img.pix m (X + 1) (Y + 1))
    omega

/-! ### One row -/

/-- 1 where the offset is 0: the number of pixels set to zero at this side. Not in the code: for statements and proofs. -/
def skip (off : Nat) : Nat := if off = 0 then 1 else 0

theorem firstZero_ok {m1 : BMem} {bo p w sx : Nat} {val : Nat → UInt8} (hw : 0 < w) (hv : m1.Valid bo p)
    (h0 : sx = 0 → val 0 = 0) :
    ∃ m2, firstZero sx bo p m1 = .ok (p + skip sx) m2 ∧ RowState m1 bo p w val (fun t => t < skip sx) m2 := by
  by_cases hs : sx = 0
  · have e : skip sx = 1 := if_pos hs
    refine ⟨setRange m1 bo p 1 fun _ => 0, ?_, ?_⟩
    · rw [firstZero, if_pos hs, bind_ok (writeC_row hv), e]
      rfl
    · rw [e]
      refine (RowState.start m1 bo p w val (fun _ => False) fun _ _ h => h).store 0 1 (by omega) fun t ht hd => ?_
      have : t = 0 := by omega
      subst this
      exact Or.inl ⟨by omega, by omega, (h0 hs).symm⟩
  · have e : skip sx = 0 := if_neg hs
    refine ⟨m1, ?_, ?_⟩
    · rw [firstZero, if_neg hs, e]
      rfl
    · rw [e]
      exact RowState.start m1 bo p w val _ fun _ _ h => absurd h (Nat.not_lt_zero _)

theorem lastZero_ok {m1 m2 : BMem} {bo p w ex n : Nat} {val : Nat → UInt8} (hw : n + skip ex = w)
    (hv : ex = 0 → m1.Valid bo (p + n)) (h0 : ex = 0 → val n = 0)
    (r : RowState m1 bo p w val (fun t => t < n) m2) :
    lastZero ex bo (p + n) m2 = .ok () (setRange m1 bo p w val) := by
  by_cases hs : ex = 0
  · have e : skip ex = 1 := if_pos hs
    rw [lastZero, if_pos hs, writeC_row (Mem.valid_of_size r.size_eq (hv hs))]
    refine congrArg (Res.ok ()) ((r.store (done' := fun _ => True) n 1 (by omega) fun t ht _ => ?_).finish fun _ _ => trivial)
    by_cases h : t = n
    · subst h
      exact Or.inl ⟨by omega, by omega, (h0 hs).symm⟩
    · exact Or.inr ⟨by omega, by omega⟩
  · have e : skip ex = 0 := if_neg hs
    rw [lastZero, if_neg hs, pure_run]
    exact congrArg (Res.ok ()) (r.finish fun t ht => by omega)

theorem gradRow_ok {grad : Nat → M BMem (Int × Int)} {size : Nat} {T : Nat → Nat → UInt8} {m1 : BMem}
    {bo gw sx ex inY p w : Nat} {val : Nat → UInt8} (hw : skip sx + gw + skip ex = w) (hw0 : 0 < w)
    (hgw : gw < 4294967296) (hv : ∀ t, t < w → m1.Valid bo (p + t))
    (h0 : sx = 0 → val 0 = 0) (h1 : ex = 0 → val (skip sx + gw) = 0)
    (hg : ∀ j, j < gw → ∀ m2 : BMem, m2.size = m1.size →
      (∀ b i, ¬ (b = bo ∧ p ≤ i ∧ i < p + w) → m2.byte b i = m1.byte b i) →
      ∃ g : Int × Int, grad (inY + j) m2 = .ok g m2 ∧ g.1.natAbs < size ∧ g.2.natAbs < size ∧
        T g.1.natAbs g.2.natAbs = val (skip sx + j)) :
    gradRow grad size T bo gw sx ex inY p m1 = .ok () (setRange m1 bo p w val) := by
  obtain ⟨m2, e1, r1⟩ := firstZero_ok (p := p) (val := val) hw0 (hv 0 hw0) h0
  have e := loop_eq_fold (μ := BMem) (cond := fun t => t != inY + gw) (next := fun t => t + 1)
    (body := fun t o => do
      let g ← grad t
      let v ← tableAt size T g.1.natAbs g.2.natAbs
      writeC bo o v
      pure (o + 1)) (fun k => inY + k) gw fuelMax (p + skip sx)
    (by rw [fuelMax]; omega) (fun k hk => by simp only [bne_iff_ne, ne_eq]; omega) (by simp) (fun k _ => by omega)
  rw [Nat.add_zero] at e
  obtain ⟨o, m3, e2, ho, r2⟩ := fold_am (P := fun j o m => o = p + (skip sx + j) ∧
      RowState m1 bo p w val (fun t => t < skip sx + j) m)
    (body := fun j o => (do
      let g ← grad (inY + j)
      let v ← tableAt size T g.1.natAbs g.2.natAbs
      writeC bo o v
      pure (o + 1) : M BMem Nat)) gw (p + skip sx) m2 ⟨rfl, r1⟩ (by
    rintro j hj o m ⟨rfl, r⟩
    obtain ⟨g, g1, g2, g3, g4⟩ := hg j hj m r.size_eq r.outside
    have ht : (tableAt size T g.1.natAbs g.2.natAbs : M BMem _) m = .ok (val (skip sx + j)) m := by
      rw [tableAt, if_pos ⟨g2, g3⟩, g4]
      rfl
    have hwv : m.Valid bo (p + (skip sx + j)) := Mem.valid_of_size r.size_eq (hv _ (by omega))
    refine ⟨_, _, (bind_ok g1).trans ((bind_ok ht).trans ((bind_ok (writeC_row hwv)).trans rfl)), rfl, ?_⟩
    refine r.store (skip sx + j) 1 (by omega) fun t ht hd => ?_
    by_cases h : t = skip sx + j
    · subst h
      exact Or.inl ⟨by omega, by omega, rfl⟩
    · exact Or.inr ⟨by omega, by omega⟩)
  have e3 := lastZero_ok (ex := ex) (w := w) hw (fun hx => hv _ (by
    have : skip ex = 1 := if_pos hx
    omega)) h1 r2
  rw [gradRow, bind_ok e1, gradCells, e, bind_ok e2, ho]
  exact e3

theorem memset_row {m : BMem} {b p n : Nat} {v : UInt8} (hv : ∀ t, t < n → m.Valid b (p + t)) :
    memsetC b p v n m = .ok () (setRange m b p n fun _ => v) := by
  obtain ⟨m2, h1, h2⟩ := fold_mem (μ := BMem) (body := fun k => writeC b (p + k) v)
    (P := fun j m2 => RowState m b p n (fun _ => v) (fun t => t < j) m2) n m
    (RowState.start m b p n _ _ fun _ _ h => absurd h (Nat.not_lt_zero _)) (by
      intro j hj m1 r
      refine ⟨_, writeC_row (Mem.valid_of_size r.size_eq (hv j hj)), r.store j 1 (by omega) fun t ht hd => ?_⟩
      by_cases h : t = j
      · exact Or.inl ⟨by omega, by omega, rfl⟩
      · exact Or.inr ⟨by omega, by omega⟩)
  rw [memsetC, h1, h2.finish fun _ h => h]

/-- The value a gradient filter stores at (x, y): zero where the pixel has no complete neighbourhood in
    the image (the right and lower side of the region count as such already one pixel before the end of
    the image), the table entry for the two gradients elsewhere. Not in the code: for statements and proofs. -/
def gradSpec (T : Nat → Nat → UInt8) (G : (Nat → Nat → Int) → Int × Int) (inp : View) (m : BMem) (w h x y : Nat) : UInt8 :=
  if inp.x + x = 0 ∨ inp.y + y = 0 ∨ (x + 1 = w ∧ inp.img.width ≤ inp.x + x + 2) ∨
    (y + 1 = h ∧ inp.img.height ≤ inp.y + y + 2) then 0
  else T (G (near inp.img m (inp.x + x) (inp.y + y))).1.natAbs (G (near inp.img m (inp.x + x) (inp.y + y))).2.natAbs

theorem near_congr {m m1 : BMem} {inp out : View} {w h x y : Nat} (gi : inp.img.cc = 1) (ho : Off m m1 out w h)
    (hap : Apart ⟨inp.img, inp.x - 1, inp.y - 1⟩ (w + 2) (h + 2) out w h) (hx : x < w) (hy : y < h)
    (hX : 1 ≤ inp.x + x) (hY : 1 ≤ inp.y + y) :
    ∀ dx dy, dx < 3 → dy < 3 →
      near inp.img m1 (inp.x + x) (inp.y + y) dx dy = near inp.img m (inp.x + x) (inp.y + y) dx dy := by
  intro dx dy hdx hdy
  have h1 := ho.get hap (x := inp.x + x - 1 + dx - (inp.x - 1)) (y := inp.y + y - 1 + dy - (inp.y - 1)) (c := 0)
    (by omega) (by omega) (by simp only; omega)
  simp only [View.get, View.cell] at h1
  rw [gi, show inp.y - 1 + (inp.y + y - 1 + dy - (inp.y - 1)) = inp.y + y - 1 + dy by omega,
    show inp.x - 1 + (inp.x + x - 1 + dx - (inp.x - 1)) = inp.x + x - 1 + dx by omega, Nat.mul_one, Nat.add_zero] at h1
  simp only [near, Image.pix]
  rw [h1]

/-- The gradients depend on the nine pixels only. Not in the code: for statements and proofs. -/
def Local (G : (Nat → Nat → Int) → Int × Int) : Prop :=
  ∀ n n', (∀ dx dy, dx < 3 → dy < 3 → n dx dy = n' dx dy) → G n = G n'

theorem conv_local (a b c d e f g h i : Int) {n n' : Nat → Nat → Int} (hn : ∀ dx dy, dx < 3 → dy < 3 → n dx dy = n' dx dy) :
    conv a b c d e f g h i n = conv a b c d e f g h i n' := by
  simp only [conv]
  rw [hn 0 0 (by decide) (by decide), hn 1 0 (by decide) (by decide), hn 2 0 (by decide) (by decide),
    hn 0 1 (by decide) (by decide), hn 1 1 (by decide) (by decide), hn 2 1 (by decide) (by decide),
    hn 0 2 (by decide) (by decide), hn 1 2 (by decide) (by decide), hn 2 2 (by decide) (by decide)]

theorem topZero_ok {m : BMem} {out : View} {w h sy : Nat} {F : Nat → Nat → Nat → UInt8} (wf : out.img.WF m)
    (fit : out.Fits w h) (go : out.img.cc = 1) (h0 : sy = 0 → ∀ x c, x < w → F x 0 c = 0) :
    ∃ m1, topZero sy out.img.data (out.start 1) w out.img.rowSize m
        = .ok (out.start 1 + skip sy * out.img.rowSize) m1 ∧
      Done m m1 out w h F fun _ y => y < skip sy := by
  by_cases hs : sy = 0
  · have e : skip sy = 1 := if_pos hs
    have hv : ∀ t, t < w → m.Valid out.img.data (out.start 1 + t) := fun t ht => by
      have := View.cell_valid (x := t) (y := 0) (c := 0) wf fit ht fit.hpos (by omega)
      rw [← View.start_cell wf fit, go, Nat.zero_mul, Nat.mul_one] at this
      exact this
    refine ⟨setRange m out.img.data (out.start 1) w fun _ => 0, ?_, ?_⟩
    · rw [topZero, if_pos hs, bind_ok (memset_row hv), e, Nat.one_mul]
      rfl
    · have := (Done.start m out w h F).row (y := 0) (val := fun _ => 0) wf fit fit.hpos
        (fun x c hx _ => (h0 hs x c hx).symm)
      rw [go, Nat.zero_mul, Nat.mul_one] at this
      exact ⟨this.off, fun x y c hx hy hc hP => this.val x y c hx hy hc (by omega)⟩
  · have e : skip sy = 0 := if_neg hs
    refine ⟨m, ?_, ⟨Off.refl .., fun _ _ _ _ _ _ h => by omega⟩⟩
    rw [topZero, if_neg hs, e, Nat.zero_mul]
    rfl

theorem bottomZero_ok {m m1 : BMem} {out : View} {w h ey n : Nat} {F : Nat → Nat → Nat → UInt8} (wf : out.img.WF m)
    (fit : out.Fits w h) (go : out.img.cc = 1) (hn : n + skip ey = h) (h0 : ey = 0 → ∀ x c, x < w → F x n c = 0)
    (d : Done m m1 out w h F fun _ y => y < n) :
    ∃ m2, bottomZero ey out.img.data (out.start 1 + n * out.img.rowSize) w m1 = .ok () m2 ∧ WritesRoi m m2 out w h F := by
  by_cases hs : ey = 0
  · have e : skip ey = 1 := if_pos hs
    have hv : ∀ t, t < w → m1.Valid out.img.data (out.start 1 + n * out.img.rowSize + t) := fun t ht => by
      have := View.cell_valid (x := t) (y := n) (c := 0) wf fit ht (by omega) (by omega)
      rw [← View.start_cell wf fit, go, Nat.mul_one] at this
      exact Mem.valid_of_size d.off.size_eq this
    refine ⟨_, by rw [bottomZero, if_pos hs, memset_row hv], ?_⟩
    have := d.row (y := n) (val := fun _ => 0) wf fit (by omega) (fun x c hx _ => (h0 hs x c hx).symm)
    rw [go, Nat.mul_one] at this
    exact this.writes fun x y _ _ => by omega
  · have e : skip ey = 0 := if_neg hs
    refine ⟨m1, by rw [bottomZero, if_neg hs]; rfl, d.writes fun x y _ _ => by omega⟩

set_option maxHeartbeats 1000000 in
theorem gradientFilter_ok {grad : Nat → M BMem (Int × Int)} {size : Nat} {T : Nat → Nat → UInt8}
    {G : (Nat → Nat → Int) → Int × Int} {m : BMem} {inp out : View} {w h : Nat}
    (hG : GradAt grad inp.img size G) (hl : Local G)
    (wfi : inp.img.WF m) (wfo : out.img.WF m) (fiti : inp.Fits w h) (fito : out.Fits w h)
    (gi : inp.img.cc = 1) (go : out.img.cc = 1)
    (hap : Apart ⟨inp.img, inp.x - 1, inp.y - 1⟩ (w + 2) (h + 2) out w h) (hw3 : 3 ≤ w) (hh3 : 3 ≤ h) :
    ∃ m', gradientFilter grad size T inp out w h m = .ok () m' ∧
      WritesRoi m m' out w h fun x y _ => gradSpec T G inp m w h x y := by
  obtain ⟨hxi, hyi⟩ := Fits.sub_eq wfi fiti
  obtain ⟨_, hrO, _, hwO, hhO, hfO, _, _, _, _⟩ := View.facts wfo fito
  obtain ⟨_, hrI, _, hwI, hhI, hfI, _, _, _, hrw⟩ := View.facts wfi fiti
  have inX := fiti.inX
  have inY := fiti.inY
  have hsm := wfi.small
  have hrow := wfi.row
  rw [gi] at hrow hrw
  have b1 : inp.img.rowSize * 3 ≤ inp.img.rowSize * inp.img.height := Nat.mul_le_mul_left _ (by omega)
  have b2 : 3 * inp.img.height ≤ inp.img.rowSize * inp.img.height := Nat.mul_le_mul_right _ (by omega)
  have e1 : u32 (u32 (inp.x + w) + 1) = inp.x + w + 1 := by rw [u32_of_lt hxi, u32_of_lt (by omega)]
  have e2 : u32 (u32 (inp.y + h) + 1) = inp.y + h + 1 := by rw [u32_of_lt hyi, u32_of_lt (by omega)]
  have e3 : u32 (inp.y + 1) = inp.y + 1 := u32_of_lt (by omega)
  rw [gradientFilter, bind_ok (validateRois_ok m (vs := [inp, out]) (by
      intro v hv
      simp only [List.mem_cons, List.not_mem_nil, or_false] at hv
      rcases hv with rfl | rfl
      · exact ⟨fiti, hwI, hhI⟩
      · exact ⟨fito, hwO, hhO⟩)),
    bind_ok (gray_ok (by simp [gi, go]))]
  have hthr : (decide (w < 3) || decide (h < 3)) = false := by
    simp
    omega
  rw [hthr, throwIf_false, pure_bind', e1, e2, e3]
  generalize hsx : (if inp.x > 0 then 1 else 0) = sx
  generalize hsy : (if inp.y > 0 then 1 else 0) = sy
  generalize hex : (if inp.x + w + 1 < inp.img.width then 1 else 0) = ex
  generalize hey : (if inp.y + h + 1 < inp.img.height then 1 else 0) = ey
  have k : ∀ s : Nat, (if s > 0 then 0 else 1) = skip s := fun s => by
    rw [skip]
    split <;> split <;> omega
  simp only [k]
  have fx : (sx = 0 ∧ inp.x = 0 ∧ skip sx = 1) ∨ (sx = 1 ∧ 0 < inp.x ∧ skip sx = 0) := by
    rw [← hsx, skip]
    split
    · exact Or.inr ⟨rfl, by omega, rfl⟩
    · exact Or.inl ⟨rfl, by omega, rfl⟩
  have fy : (sy = 0 ∧ inp.y = 0 ∧ skip sy = 1) ∨ (sy = 1 ∧ 0 < inp.y ∧ skip sy = 0) := by
    rw [← hsy, skip]
    split
    · exact Or.inr ⟨rfl, by omega, rfl⟩
    · exact Or.inl ⟨rfl, by omega, rfl⟩
  have gx : (ex = 0 ∧ inp.img.width ≤ inp.x + w + 1 ∧ skip ex = 1) ∨ (ex = 1 ∧ inp.x + w + 1 < inp.img.width ∧ skip ex = 0) := by
    rw [← hex, skip]
    split
    · exact Or.inr ⟨rfl, by omega, rfl⟩
    · exact Or.inl ⟨rfl, by omega, rfl⟩
  have gy : (ey = 0 ∧ inp.img.height ≤ inp.y + h + 1 ∧ skip ey = 1) ∨ (ey = 1 ∧ inp.y + h + 1 < inp.img.height ∧ skip ey = 0) := by
    rw [← hey, skip]
    split
    · exact Or.inr ⟨rfl, by omega, rfl⟩
    · exact Or.inl ⟨rfl, by omega, rfl⟩
  have e4 : usub w (skip sx + skip ex) = w - (skip sx + skip ex) := usub_of_le (by omega) (by omega)
  have e5 : usub h (skip sy + skip ey) = h - (skip sy + skip ey) := usub_of_le (by omega) (by omega)
  have e6 : usub (inp.y + 1) sy = inp.y + skip sy := by rw [usub_of_le (by omega) (by omega)]; omega
  have hyr : (inp.y + skip sy) * inp.img.rowSize < 4294967296 := by
    refine Nat.lt_of_le_of_lt (Nat.mul_le_mul_right _ (show inp.y + skip sy ≤ inp.img.height by omega)) ?_
    rw [Nat.mul_comm]
    exact hsm
  have e7 : u32 ((inp.y + skip sy) * inp.img.rowSize) + inp.x + 1 - sx
      = (inp.y + skip sy) * inp.img.rowSize + (inp.x + skip sx) := by
    rw [u32_of_lt hyr]; omega
  rw [e4, e5, e6, e7]
  generalize hgw : w - (skip sx + skip ex) = gw
  generalize hgh : h - (skip sy + skip ey) = gh
  have hghr : gh * inp.img.rowSize < 4294967296 := by
    refine Nat.lt_of_le_of_lt (Nat.mul_le_mul_right _ (show gh ≤ h by omega)) hfI
  rw [u32_of_lt hghr]
  generalize hq : (inp.y + skip sy) * inp.img.rowSize + (inp.x + skip sx) = q
  obtain ⟨m1, t1, d1⟩ := topZero_ok (m := m) (sy := sy) (F := fun x y _ => gradSpec T G inp m w h x y) wfo fito go
    (fun hs x _ hx => by
      rw [gradSpec, if_pos (by omega)])
  have e := loop_eq_fold (μ := BMem) (cond := fun s => s != q + gh * inp.img.rowSize) (next := fun s => s + inp.img.rowSize)
    (body := fun s outY => do
      gradRow grad size T out.img.data gw sx ex s outY
      pure (outY + out.img.rowSize)) (fun k => q + k * inp.img.rowSize) gh fuelMax
    (out.start 1 + skip sy * out.img.rowSize) (count_lt_fuel hrI hghr) (fun k hk => ptr_ne hk hrI) (by simp)
    (fun k _ => by simp only [Nat.succ_mul]; omega)
  rw [Nat.zero_mul, Nat.add_zero] at e
  obtain ⟨o, m2, t2, rfl, d2⟩ := fold_am
    (P := fun j o m2 => o = out.start 1 + (skip sy + j) * out.img.rowSize ∧
      Done m m2 out w h (fun x y _ => gradSpec T G inp m w h x y) fun _ y => y < skip sy + j)
    (body := fun k outY => (do
      gradRow grad size T out.img.data gw sx ex (q + k * inp.img.rowSize) outY
      pure (outY + out.img.rowSize) : M BMem Nat)) gh (out.start 1 + skip sy * out.img.rowSize) m1 ⟨rfl, d1⟩ (by
    rintro j hj o m2 ⟨rfl, d⟩
    have hrow := gradRow_ok (grad := grad) (size := size) (T := T) (m1 := m2) (bo := out.img.data) (gw := gw) (sx := sx)
      (ex := ex) (inY := q + j * inp.img.rowSize) (p := out.start 1 + (skip sy + j) * out.img.rowSize) (w := w)
      (val := fun x => gradSpec T G inp m w h x (skip sy + j)) (by omega) (by omega) (by omega)
      (fun t ht => by
        have := View.cell_valid (x := t) (y := skip sy + j) (c := 0) wfo fito ht (by omega) (by omega)
        rw [← View.start_cell wfo fito, go, Nat.mul_one] at this
        exact Mem.valid_of_size d.off.size_eq this)
      (fun hs => by rw [gradSpec, if_pos (by omega)])
      (fun hs => by rw [gradSpec, if_pos (by omega)])
      (fun t ht m3 hs3 ho3 => by
        have hoff : Off m m3 out w h := by
          refine ⟨hs3.trans d.off.size_eq, fun b i hi => ?_⟩
          rw [ho3 b i fun hc => hi ⟨hc.1, ?_⟩, d.off.outside b i hi]
          refine in_row wfo fito (y := skip sy + j) (by omega) ?_ ?_
          · rw [go]; exact hc.2.1
          · rw [go, Nat.mul_one]; exact hc.2.2
        have hpos : q + j * inp.img.rowSize + t = (inp.y + (skip sy + j)) * inp.img.rowSize + (inp.x + (skip sx + t)) := by
          rw [← hq, ← Nat.add_assoc inp.y, Nat.add_mul (inp.y + skip sy)]
          omega
        have g := hG m3 (inp.x + (skip sx + t)) (inp.y + (skip sy + j)) (by omega) (by omega) (by omega) (by omega)
          fiti.nonempty (hoff.wf wfi) gi
        rw [hl _ _ (near_congr gi hoff hap (by omega) (by omega) (by omega) (by omega))] at g
        refine ⟨_, by rw [hpos]; exact g.1, g.2.1, g.2.2, ?_⟩
        rw [gradSpec, if_neg (by omega)])
    refine ⟨_, _, (bind_ok hrow).trans rfl, ?_, ?_⟩
    · rw [← Nat.add_assoc, Nat.succ_mul, Nat.add_assoc]
    · have := d.row (y := skip sy + j) (val := fun x => gradSpec T G inp m w h x (skip sy + j)) wfo fito (by omega)
        (fun x c hx hc => by
          rw [go] at hc
          have hx' : x * out.img.cc + c = x := by
            rw [go, Nat.mul_one, Nat.lt_one_iff.1 hc, Nat.add_zero]
          exact congrArg (fun x => gradSpec T G inp m w h x (skip sy + j)) hx')
      rw [go, Nat.mul_one] at this
      exact ⟨this.off, fun x y c hx hy hc hP => this.val x y c hx hy hc (by omega)⟩)
  obtain ⟨m', t3, w3⟩ := bottomZero_ok (ey := ey) (n := skip sy + gh) wfo fito go (by omega) (fun hs x _ hx => by
      rw [gradSpec, if_pos (by omega)]) d2
  refine ⟨m', ?_, w3⟩
  rw [bind_ok t1, e, bind_ok t2]
  exact t3

end PV
