import Verif.RotateLemmas
/-
  Lemmas about `Shift`.
-/
namespace PV.Move

open Simd

/-- The value of an output pixel. -/
def shiftValue (k0 k1 k2 k3 : Nat) (g : Nat → Nat → UInt8) (X Y : Nat) : UInt8 :=
  UInt8.ofNat (((g X Y).toNat * k0 + (g X (Y + 1)).toNat * k3 + (g (X + 1) Y).toNat * k1 + (g (X + 1) (Y + 1)).toNat * k2 + 8192) / 16384)

theorem readI_ok {m : BMem} {b p : Nat} {z : Int} (h : z = (p : Int)) : readI b z m = readC b p m := by
  rw [readI, if_pos (by omega), h, Int.toNat_natCast]

theorem weight_mul {a : UInt8} {k : Nat} (hk : k ≤ 16384) : a.toNat * k ≤ 4177920 := by
  have h1 := a.toNat_lt
  have h2 : a.toNat * k ≤ 255 * 16384 := Nat.mul_le_mul (by omega) hk
  omega

theorem shiftPixel_ok {m m1 : BMem} {img : Image} {k0 k1 k2 k3 bo o X Y : Nat} {z : Int} (hd : img.data ≠ 0) (wf : img.WF m1)
    (hcc : img.cc = 1) (hX : X + 1 < img.width) (hY : Y + 1 < img.height) (hz : z = ((Y * img.rowSize + X : Nat) : Int))
    (h0 : k0 ≤ 16384) (h1 : k1 ≤ 16384) (h2 : k2 ≤ 16384) (h3 : k3 ≤ 16384) (hv : m1.Valid bo o)
    (he : ∀ X' Y', X' < img.width → Y' < img.height → img.pix m1 X' Y' = img.pix m X' Y') :
    shiftPixel img.data img.rowSize k0 k1 k2 k3 bo (o, z) m1 = .ok () (m1.set bo o (shiftValue k0 k1 k2 k3 (img.pix m) X Y)) := by
  have r := fun X Y (a1 : X < img.width) (a2 : Y < img.height) => pix_read (m := m1) hd wf hcc a1 a2
  have r1 := r X Y (by omega) (by omega)
  have r2 := r X (Y + 1) (by omega) hY
  have r3 := r (X + 1) Y hX (by omega)
  have r4 := r (X + 1) (Y + 1) hX hY
  rw [he _ _ (by omega) (by omega)] at r1 r2 r3 r4
  have q : (Y + 1) * img.rowSize = Y * img.rowSize + img.rowSize := Nat.succ_mul _ _
  rw [← readI_ok (z := z) hz] at r1
  rw [← readI_ok (z := z + img.rowSize) (by omega)] at r2
  rw [← readI_ok (z := z + 1) (by omega)] at r3
  rw [← readI_ok (z := z + 1 + img.rowSize) (by omega)] at r4
  rw [shiftPixel]
  refine (bind_ok r1).trans ((bind_ok r2).trans ((bind_ok r3).trans ((bind_ok r4).trans ?_)))
  have w1 := weight_mul (a := img.pix m X Y) h0
  have w2 := weight_mul (a := img.pix m X (Y + 1)) h3
  have w3 := weight_mul (a := img.pix m (X + 1) Y) h1
  have w4 := weight_mul (a := img.pix m (X + 1) (Y + 1)) h2
  rw [shiftValue]
  generalize (img.pix m X Y).toNat * k0 = d0 at *
  generalize (img.pix m X (Y + 1)).toNat * k3 = d1 at *
  generalize (img.pix m (X + 1) Y).toNat * k1 = d2 at *
  generalize (img.pix m (X + 1) (Y + 1)).toNat * k2 = d3 at *
  rw [u32_of_lt (n := d0) (by omega), u32_of_lt (n := d1) (by omega), u32_of_lt (n := d2) (by omega), u32_of_lt (n := d3) (by omega),
    u32_of_lt (n := d0 + d1) (by omega), u32_of_lt (n := d0 + d1 + d2) (by omega), u32_of_lt (n := d0 + d1 + d2 + d3) (by omega),
    u32_of_lt (by omega)]
  exact writeC_ok _ hv

theorem shiftRow_ok {m1 : BMem} {bi rowIn k0 k1 k2 k3 bo eL rW eR p w : Nat} {q : Int} {val : Nat → UInt8}
    (hw : eL + rW + eR = w) (hw2 : w < 4294967296) (hv : ∀ t, t < w → m1.Valid bo (p + t))
    (h0 : ∀ t, eL + rW ≤ t → t < w → val t = 0)
    (hp : ∀ t, t < eL + rW → ∀ m3 : BMem, m3.size = m1.size → (∀ b i, ¬ (b = bo ∧ p ≤ i ∧ i < p + w) → m3.byte b i = m1.byte b i) →
      shiftPixel bi rowIn k0 k1 k2 k3 bo (p + t, q + eL + t) m3 = .ok () (m3.set bo (p + t) (val t))) :
    shiftRow bi rowIn k0 k1 k2 k3 bo eL rW eR (p, q) m1 = .ok () (setRange m1 bo p w val) := by
  have r0 : RowState m1 bo p w val (fun t => t < 0) m1 := RowState.start _ _ _ _ _ _ (by simp)
  have r1 : RowState m1 bo p w val (fun t => t < 0) (setRange m1 bo p eL fun _ => 0) := by
    have := r0.store (v := fun _ => 0) (done' := fun t => t < 0) 0 eL (by omega) (fun t _ h => absurd h (Nat.not_lt_zero _))
    rwa [Nat.add_zero] at this
  have e := loop_eq_fold (μ := BMem) (cond := fun t : Nat × Int => t.1 != p + eL + rW) (next := fun t => (t.1 + 1, t.2 + 1))
    (body := fun t _ => shiftPixel bi rowIn k0 k1 k2 k3 bo t) (fun k => (p + k, q + eL + k)) (eL + rW) fuelMax ()
    (by unfold fuelMax; omega) (fun k hk => by simp; omega) (by simp; omega) (fun k _ => by
      simp only [Prod.mk.injEq]
      exact ⟨by omega, by push_cast; omega⟩)
  simp only [Nat.cast_zero, Nat.add_zero, add_zero] at e
  obtain ⟨m2, t1, t2⟩ := fold_mem (μ := BMem) (body := fun k => shiftPixel bi rowIn k0 k1 k2 k3 bo (p + k, q + eL + k))
    (P := fun j m2 => RowState m1 bo p w val (fun t => t < j) m2) (eL + rW) _ r1 (by
      intro j hj m2 r
      refine ⟨_, hp j hj m2 r.size_eq r.outside, ?_⟩
      rw [set_eq_setRange]
      refine r.store j 1 (by omega) fun t ht hd => ?_
      by_cases h : t = j
      · subst h
        exact Or.inl ⟨by omega, by omega, rfl⟩
      · exact Or.inr ⟨by omega, by omega⟩)
  have e3 := memset_row (m := m2) (b := bo) (p := p + eL + rW) (n := eR) (v := 0) fun t ht => by
    have := Mem.valid_of_size t2.size_eq (hv (eL + rW + t) (by omega))
    rwa [show p + (eL + rW + t) = p + eL + rW + t by omega] at this
  rw [shiftRow]
  simp only
  rw [bind_ok (memset_row fun t ht => hv t (by omega)), e, bind_ok t1, e3]
  have := t2.store (v := fun _ => 0) (done' := fun t => t < w) (eL + rW) eR (by omega) (fun t ht _ => by
    by_cases h : t < eL + rW
    · exact Or.inr ⟨by omega, h⟩
    · exact Or.inl ⟨by omega, by omega, (h0 t (by omega) ht).symm⟩)
  rw [← Nat.add_assoc] at this
  rw [this.finish fun _ h => h]

theorem zeroRows_ok {m m1 : BMem} {out : View} {w h y0 n : Nat} {F : Nat → Nat → Nat → UInt8} (wf : out.img.WF m)
    (fit : out.Fits w h) (go : out.img.cc = 1) (hn : y0 + n ≤ h) (h0 : ∀ x y c, x < w → y0 ≤ y → y < y0 + n → F x y c = 0)
    (d : Done m m1 out w h F fun _ y => y < y0) :
    ∃ m2, zeroRows out.img.data (out.start 1 + y0 * out.img.rowSize) out.img.rowSize w n m1 = .ok () m2 ∧
      Done m m2 out w h F fun _ y => y < y0 + n := by
  obtain ⟨_, hrO, _, hwO, hhO, hfO, _, _, _, _⟩ := View.facts wf fit
  have hnr : n * out.img.rowSize < 4294967296 :=
    Nat.lt_of_le_of_lt (Nat.mul_le_mul_right _ (show n ≤ h by omega)) hfO
  rw [zeroRows, u32_of_lt hnr]
  have e := loop_eq_fold (μ := BMem) (cond := fun s => s != out.start 1 + y0 * out.img.rowSize + n * out.img.rowSize)
    (next := fun s => s + out.img.rowSize) (body := fun s _ => memsetC out.img.data s 0 w)
    (fun k => out.start 1 + y0 * out.img.rowSize + k * out.img.rowSize) n fuelMax () (count_lt_fuel hrO hnr)
    (fun k hk => ptr_ne hk hrO) (by simp) (fun k _ => by simp only [Nat.succ_mul]; omega)
  rw [Nat.zero_mul, Nat.add_zero] at e
  rw [e]
  refine fold_mem (μ := BMem) (body := fun k => memsetC out.img.data (out.start 1 + y0 * out.img.rowSize + k * out.img.rowSize) 0 w)
    (P := fun j m2 => Done m m2 out w h F fun _ y => y < y0 + j) n m1 d fun j hj m2 d2 => ?_
  have ep : out.start 1 + y0 * out.img.rowSize + j * out.img.rowSize = out.start 1 + (y0 + j) * out.img.rowSize := by
    rw [Nat.add_mul]
    omega
  rw [ep]
  refine ⟨_, memset_row fun t ht => ?_, ?_⟩
  · have := View.cell_valid (x := t) (y := y0 + j) (c := 0) wf fit ht (by omega) (by omega)
    rw [← View.start_cell wf fit, go, Nat.mul_one] at this
    exact Mem.valid_of_size d2.off.size_eq this
  · have := d2.row (y := y0 + j) (val := fun _ => 0) wf fit (by omega) (fun x c hx _ => (h0 x _ c hx (by omega) (by omega)).symm)
    rw [go, Nat.mul_one] at this
    exact ⟨this.off, fun x y c hx hy hc hP => this.val x y c hx hy hc (by omega)⟩

/-! ### The areas without input -/

/-- What is read for the column `k` or row `k` of the output starts at the column or row `first + k` of the input. -/
theorem emptyBefore_ok {μ : Type} {i : Int} {start : Nat} (h1 : -2147483648 < i) (h2 : start < 4294967296) (m : μ) :
    emptyBefore i start m = .ok (-(start + i)).toNat m := by
  rw [emptyBefore]
  by_cases h : i < 0
  · rw [if_pos h]
    have e : (Edge.int32 (-i) : M μ Int) m = .ok (-i) m := by
      rw [Edge.int32, if_pos (by omega)]
      rfl
    rw [bind_ok e]
    by_cases h3 : start < (-i).toNat
    · rw [if_pos h3, usub_of_le (by omega) (by omega), show (-i).toNat - start = (-(start + i)).toNat by omega]
      rfl
    · rw [if_neg h3, show (-(start + i)).toNat = 0 by omega]
      rfl
  · rw [if_neg h, show (-(start + i)).toNat = 0 by omega]
    rfl

theorem emptyAfter_eq {i : Int} {start size n : Nat} (h1 : i < size) (h2 : start + size ≤ n) (h4 : 0 < size)
    (h3 : n < 2147483648) :
    emptyAfter i start size (usub n 1) = if 0 < i then (start + size + i - (n - 1)).toNat else 0 := by
  rw [emptyAfter, u32_of_lt (n := start + size) (by omega), usub_of_le (by omega) (by omega)]
  by_cases h : 0 < i
  · rw [u32_of_lt (by omega), if_pos h]
    by_cases h5 : n - 1 < start + size + i.toNat
    · rw [if_pos ⟨h, h5⟩, usub_of_le (by omega) (by omega)]
      omega
    · rw [if_neg fun hc => h5 hc.2]
      omega
  · rw [if_neg fun hc => h hc.1, if_neg h]

/-! ### All rows -/

/-- What is stored at (k, l). -/
def shiftOut (k0 k1 k2 k3 : Nat) (g : Nat → Nat → UInt8) (W H : Nat) (oX oY : Int) (k l : Nat) : UInt8 :=
  if 0 ≤ oY + l ∧ oY + l + 1 < H ∧ oX.toNat + k + 1 < W then shiftValue k0 k1 k2 k3 g (oX.toNat + k) (oY + l).toNat else 0

set_option maxHeartbeats 1000000 in
theorem shiftRows_ok {rnd : ℚ → ℚ} {m : BMem} {inp out : View} {w h k0 k1 k2 k3 : Nat} {iX iY : Int} {cx cy : ℚ}
    (wfi : inp.img.WF m) (wfo : out.img.WF m) (fiti : inp.Fits w h) (fito : out.Fits w h) (gi : inp.img.cc = 1)
    (go : out.img.cc = 1) (hap : Apart ⟨inp.img, 0, 0⟩ inp.img.width inp.img.height out w h)
    (hsmall : inp.img.rowSize * inp.img.height + inp.img.rowSize < 2147483648)
    (e0 : ∀ m : BMem, shiftWeight rnd cx cy m = .ok k0 m) (e1 : ∀ m : BMem, shiftWeight rnd (rnd (1 - cx)) cy m = .ok k1 m)
    (e2 : ∀ m : BMem, shiftWeight rnd (rnd (1 - cx)) (rnd (1 - cy)) m = .ok k2 m)
    (e3 : ∀ m : BMem, shiftWeight rnd cx (rnd (1 - cy)) m = .ok k3 m)
    (h0 : k0 ≤ 16384) (h1 : k1 ≤ 16384) (h2 : k2 ≤ 16384) (h3 : k3 ≤ 16384)
    (hiX : -(w : Int) ≤ iX) (hiX2 : iX < w) (hiY : -(h : Int) ≤ iY) (hiY2 : iY < h)
    (hsX : 0 < iX ∨ (inp.x + iX).toNat + w + 1 ≤ inp.img.width) (hsY : 0 < iY ∨ inp.y + iY + h + 1 ≤ inp.img.height) :
    ∃ m', shiftRows rnd inp out w h iX iY cx cy m = .ok () m' ∧
      WritesRoi m m' out w h fun k l _ =>
        shiftOut k0 k1 k2 k3 (inp.img.pix m) inp.img.width inp.img.height (inp.x + iX) (inp.y + iY) k l := by
  obtain ⟨hxi, hyi⟩ := Fits.sub_eq wfi fiti
  obtain ⟨_, hrO, _, hwO, hhO, hfO, _, _, _, _⟩ := View.facts wfo fito
  obtain ⟨_, hrI, _, hwI, hhI, hfI, hsI, _, _, hrw⟩ := View.facts wfi fiti
  have wpos := fiti.wpos
  have hpos := fiti.hpos
  have inX := fiti.inX
  have inY := fiti.inY
  have hd : inp.img.data ≠ 0 := fiti.nonempty
  have hrow := wfi.row
  rw [gi] at hrow
  have b1 : inp.img.rowSize * 1 ≤ inp.img.rowSize * inp.img.height := Nat.mul_le_mul_left _ (by omega)
  have b2 : 1 * inp.img.height ≤ inp.img.rowSize * inp.img.height := Nat.mul_le_mul_right _ hrI
  have hH : inp.img.height < 2147483648 := by omega
  have hW : inp.img.width < 2147483648 := by omega
  have eti : Edge.toInt inp.img.rowSize = (inp.img.rowSize : Int) := by rw [Edge.toInt, if_pos (by omega)]
  -- the offset
  have hprod : -((inp.img.rowSize * inp.img.height : Nat) : Int) ≤ iY * inp.img.rowSize ∧
      iY * inp.img.rowSize + inp.img.rowSize ≤ ((inp.img.rowSize * inp.img.height : Nat) : Int) := by
    have hr0 : (0 : Int) ≤ inp.img.rowSize := by omega
    have a1 : -(inp.img.height : Int) ≤ iY := by omega
    have a2 : iY + 1 ≤ (inp.img.height : Int) := by omega
    have c1 := mul_le_mul_of_nonneg_right a1 hr0
    have c2 := mul_le_mul_of_nonneg_right a2 hr0
    push_cast
    constructor <;> nlinarith
  have ep : (Edge.int32 (iY * Edge.toInt inp.img.rowSize) : M BMem Int) m = .ok (iY * inp.img.rowSize) m := by
    rw [eti, Edge.int32, if_pos (by omega)]
    rfl
  have es : (Edge.int32 (iX + iY * inp.img.rowSize) : M BMem Int) m = .ok (iX + iY * inp.img.rowSize) m := by
    rw [Edge.int32, if_pos (by omega)]
    rfl
  have f1 := emptyBefore_ok (i := iX) (start := inp.x) (by omega) (by omega) m
  have f2 := emptyBefore_ok (i := iY) (start := inp.y) (by omega) (by omega) m
  have f3 := emptyAfter_eq (i := iX) (start := inp.x) (size := w) (n := inp.img.width) hiX2 (by omega) wpos hW
  have f4 := emptyAfter_eq (i := iY) (start := inp.y) (size := h) (n := inp.img.height) hiY2 (by omega) hpos hH
  have est : inp.start 1 = inp.y * inp.img.rowSize + inp.x := by
    have := View.start_eq wfi fiti
    rwa [gi, Nat.mul_one] at this
  obtain ⟨X0, hX0⟩ : ∃ X0, X0 = (inp.x + iX).toNat := ⟨_, rfl⟩
  generalize hF : (fun k l (_ : Nat) => shiftOut k0 k1 k2 k3 (inp.img.pix m) inp.img.width inp.img.height (inp.x + iX) (inp.y + iY) k l) = F
  have hF' : ∀ k l c, F k l c = shiftOut k0 k1 k2 k3 (inp.img.pix m) inp.img.width inp.img.height (inp.x + iX) (inp.y + iY) k l := by
    rw [← hF]
    exact fun _ _ _ => rfl
  rw [shiftRows, bind_ok (e0 m), bind_ok (e1 m), bind_ok (e2 m), bind_ok (e3 m), bind_ok f1, bind_ok f2, f3, f4, bind_ok ep, bind_ok es, est]
  generalize heL : (-(inp.x + iX)).toNat = eL
  generalize heT : (-(inp.y + iY)).toNat = eT
  generalize heR : (if 0 < iX then (inp.x + w + iX - (inp.img.width - 1)).toNat else 0) = eR
  generalize heB : (if 0 < iY then (inp.y + h + iY - (inp.img.height - 1)).toNat else 0) = eB
  have hR : (0 < iX ∧ eL = 0 ∧ eR = (inp.x + w + iX - (inp.img.width - 1)).toNat) ∨ (iX ≤ 0 ∧ eR = 0) := by
    by_cases hx : 0 < iX
    · rw [if_pos hx] at heR
      exact Or.inl ⟨hx, by omega, heR.symm⟩
    · rw [if_neg hx] at heR
      exact Or.inr ⟨by omega, heR.symm⟩
  have hB : (0 < iY ∧ eT = 0 ∧ eB = (inp.y + h + iY - (inp.img.height - 1)).toNat) ∨ (iY ≤ 0 ∧ eB = 0) := by
    by_cases hx : 0 < iY
    · rw [if_pos hx] at heB
      exact Or.inl ⟨hx, by omega, heB.symm⟩
    · rw [if_neg hx] at heB
      exact Or.inr ⟨by omega, heB.symm⟩
  clear heR heB f1 f2 f3 f4
  have hLR : eL + eR ≤ w := by omega
  have hTB : eT + eB ≤ h := by omega
  rw [usub_of_le (a := w) (by omega) (by omega), usub_of_le (a := w - eL) (by omega) (by omega), usub_of_le (a := h) (by omega) (by omega),
    usub_of_le (a := h - eT) (by omega) (by omega)]
  obtain ⟨rW, hrW⟩ : ∃ rW, rW = w - eL - eR := ⟨_, rfl⟩
  obtain ⟨rH, hrH⟩ : ∃ rH, rH = h - eT - eB := ⟨_, rfl⟩
  rw [← hrW, ← hrH]
  have hTr : eT * inp.img.rowSize < 4294967296 :=
    Nat.lt_of_le_of_lt (Nat.mul_le_mul_right _ (show eT ≤ h by omega)) hfI
  have hTr' : eT * out.img.rowSize < 4294967296 :=
    Nat.lt_of_le_of_lt (Nat.mul_le_mul_right _ (show eT ≤ h by omega)) hfO
  have hHr' : rH * out.img.rowSize < 4294967296 :=
    Nat.lt_of_le_of_lt (Nat.mul_le_mul_right _ (show rH ≤ h by omega)) hfO
  rw [u32_of_lt hTr, u32_of_lt hTr', u32_of_lt hHr']
  -- the rows above
  have z1 := zeroRows_ok (m := m) (m1 := m) (y0 := 0) (n := eT) (F := F) wfo fito go (by omega) (fun x y c hx h1 h2 => by
    rw [hF', shiftOut, if_neg (by omega)]) ⟨Off.refl .., fun _ _ _ _ _ _ h => absurd h (Nat.not_lt_zero _)⟩
  rw [Nat.zero_mul, Nat.add_zero, Nat.zero_add] at z1
  obtain ⟨m1, z1, d1⟩ := z1
  rw [bind_ok z1]
  -- the rows with input
  obtain ⟨Z, hZ⟩ : ∃ Z : Nat, (Z : Int) = inp.y + iY + eT := ⟨(inp.y + iY + eT).toNat, by omega⟩
  obtain ⟨q, hq⟩ : ∃ q : Int, q = ((inp.y * inp.img.rowSize + inp.x : Nat) : Int) + (iX + iY * inp.img.rowSize) + (eT * inp.img.rowSize : Nat) := ⟨_, rfl⟩
  rw [← hq]
  have hqZ : q = ((Z * inp.img.rowSize : Nat) : Int) + (inp.x + iX) := by
    have : iY = Z - inp.y - eT := by omega
    rw [hq, this]
    push_cast
    ring
  have e := loop_eq_fold (μ := BMem) (cond := fun s : Nat × Int => s.1 != out.start 1 + eT * out.img.rowSize + rH * out.img.rowSize)
    (next := fun s => (s.1 + out.img.rowSize, s.2 + inp.img.rowSize))
    (body := fun s _ => shiftRow inp.img.data inp.img.rowSize k0 k1 k2 k3 out.img.data eL rW eR s)
    (fun k => (out.start 1 + eT * out.img.rowSize + k * out.img.rowSize, q + (k * inp.img.rowSize : Nat))) rH fuelMax ()
    (count_lt_fuel hrO hHr') (fun k hk => ptr_ne hk hrO) (by simp) (fun k _ => by
      simp only [Prod.mk.injEq, Nat.succ_mul]
      exact ⟨by omega, by push_cast; omega⟩)
  simp only [Nat.zero_mul, Nat.add_zero, Nat.cast_zero, add_zero] at e
  obtain ⟨m2, t2, d2⟩ := fold_mem (μ := BMem)
    (body := fun k => shiftRow inp.img.data inp.img.rowSize k0 k1 k2 k3 out.img.data eL rW eR
      (out.start 1 + eT * out.img.rowSize + k * out.img.rowSize, q + (k * inp.img.rowSize : Nat)))
    (P := fun j m2 => Done m m2 out w h F fun _ y => y < eT + j) rH m1 d1 (by
    intro j hj m2 d
    have ep : out.start 1 + eT * out.img.rowSize + j * out.img.rowSize = out.start 1 + (eT + j) * out.img.rowSize := by
      rw [Nat.add_mul]
      omega
    rw [ep]
    have hrow := shiftRow_ok (m1 := m2) (bi := inp.img.data) (rowIn := inp.img.rowSize) (k0 := k0) (k1 := k1) (k2 := k2) (k3 := k3)
      (bo := out.img.data) (eL := eL) (rW := rW) (eR := eR) (p := out.start 1 + (eT + j) * out.img.rowSize) (w := w)
      (q := q + (j * inp.img.rowSize : Nat)) (val := fun x => F x (eT + j) 0) (by omega) (by omega)
      (fun t ht => by
        have := View.cell_valid (x := t) (y := eT + j) (c := 0) wfo fito ht (by omega) (by omega)
        rw [← View.start_cell wfo fito, go, Nat.mul_one] at this
        exact Mem.valid_of_size d.off.size_eq this)
      (fun t h1 h2 => by
        rw [hF', shiftOut, if_neg (by omega)])
      (fun t ht m3 hs3 ho3 => by
        have hoff : Off m m3 out w h := by
          refine ⟨hs3.trans d.off.size_eq, fun b i hi => ?_⟩
          rw [ho3 b i fun hc => hi ⟨hc.1, ?_⟩, d.off.outside b i hi]
          refine in_row wfo fito (y := eT + j) (by omega) ?_ ?_
          · rw [go]; exact hc.2.1
          · rw [go, Nat.mul_one]; exact hc.2.2
        have hYe : (inp.y + iY + ((eT + j : Nat) : Int)).toNat = Z + j := by omega
        have hXe : (inp.x + iX).toNat = X0 := hX0.symm
        rw [hF', shiftOut, if_pos (by omega), hYe, hXe]
        refine shiftPixel_ok hd (hoff.wf wfi) gi (by omega) (by omega) ?_ h0 h1 h2 h3 ?_ ?_
        · rw [hqZ, Nat.add_mul]
          push_cast
          omega
        · have := View.cell_valid (x := t) (y := eT + j) (c := 0) wfo fito (by omega) (by omega) (by omega)
          rw [← View.start_cell wfo fito, go, Nat.mul_one] at this
          exact Mem.valid_of_size (hs3.trans d.off.size_eq) this
        · intro X' Y' hX' hY'
          have := hoff.get hap (x := X') (y := Y') (c := 0) hX' hY' (by simp only; omega)
          simp only [View.get, View.cell, Nat.zero_add] at this
          rw [gi, Nat.mul_one, Nat.add_zero] at this
          exact this)
    refine ⟨_, hrow, ?_⟩
    have := d.row (y := eT + j) (val := fun x => F x (eT + j) 0) wfo fito (by omega)
      (fun x c hx hc => by
        rw [go] at hc
        rw [go, Nat.mul_one, Nat.lt_one_iff.1 hc, Nat.add_zero])
    rw [go, Nat.mul_one] at this
    exact ⟨this.off, fun x y c hx hy hc hP => this.val x y c hx hy hc (by omega)⟩)
  rw [e, bind_ok t2]
  -- the rows below
  obtain ⟨m3, z3, d3⟩ := zeroRows_ok (m := m) (m1 := m2) (y0 := eT + rH) (n := eB) (F := F) wfo fito go (by omega) (fun x y c hx h1 h2 => by
    rw [hF', shiftOut, if_neg (by omega)]) d2
  refine ⟨m3, ?_, d3.writes fun x y _ _ => by omega⟩
  rw [Nat.add_mul, ← Nat.add_assoc] at z3
  exact z3

/-! ### The weights -/

theorem shiftWeight_ok {rnd : ℚ → ℚ} (R : Rounding rnd) {a b : ℚ} (ha : 0 ≤ a) (ha1 : a ≤ 1) (hb : 0 ≤ b) (hb1 : b ≤ 1) :
    ∃ k : Nat, k ≤ 16384 ∧ (∀ m : BMem, shiftWeight rnd a b m = .ok k m) ∧ |(k : ℚ) - 16384 * (a * b)| ≤ 1 / 2 + 1 / 2 ^ 36 := by
  have p0 : 0 ≤ a * b := mul_nonneg ha hb
  have p1 : a * b ≤ 1 := by nlinarith
  have q0 := R.nonneg p0
  have q1 : rnd (a * b) ≤ 1 := by
    calc rnd (a * b) ≤ rnd 1 := R.mono _ _ p1
      _ = 1 := R.one
  have q2 := abs_le.1 (rnd_near R (n := 1) (by rw [abs_of_nonneg p0]; exact p1))
  obtain ⟨r1, hr1⟩ : ∃ r1, r1 = rnd (a * b) := ⟨_, rfl⟩
  rw [← hr1] at q0 q1 q2
  have s0 : 0 ≤ r1 * 16384 := by linarith
  have s1 : r1 * 16384 ≤ 16384 := by linarith
  have t0 := R.nonneg s0
  have t1 : rnd (r1 * 16384) ≤ 16384 := by
    have e : rnd 16384 = 16384 := by exact_mod_cast rnd_nat R (n := 16384) (by norm_num)
    calc rnd (r1 * 16384) ≤ rnd 16384 := R.mono _ _ s1
      _ = 16384 := e
  have t2 := abs_le.1 (rnd_near R (n := 16384) (by rw [abs_of_nonneg s0]; exact s1))
  obtain ⟨r2, hr2⟩ : ∃ r2, r2 = rnd (r1 * 16384) := ⟨_, rfl⟩
  rw [← hr2] at t0 t1 t2
  have v0 : 0 ≤ r2 + 1 / 2 := by linarith
  have v1 : r2 + 1 / 2 ≤ 16385 := by linarith
  have w0 := R.nonneg v0
  have w2 := abs_le.1 (rnd_near R (n := 16385) (by rw [abs_of_nonneg v0]; exact v1))
  obtain ⟨f1, f2⟩ := floor_nat w0
  norm_num at q2 t2 w2
  refine ⟨⌊rnd (r2 + 1 / 2)⌋.toNat, ?_, fun m => ?_, ?_⟩
  · have : (⌊rnd (r2 + 1 / 2)⌋.toNat : ℚ) < 16385 := lt_of_le_of_lt f1 (by linarith [w2.2])
    have : ⌊rnd (r2 + 1 / 2)⌋.toNat < 16385 := by exact_mod_cast this
    omega
  · rw [shiftWeight, ← hr1, ← hr2]
    refine toU32_ok w0 ?_ m
    norm_num
    linarith [w2.2]
  · rw [abs_le]
    norm_num at f1 f2 ⊢
    constructor <;> linarith [w2.1, w2.2, t2.1, t2.2, q2.1, q2.2]

/-- The part of the next pixel in the value: the fraction of the position, but one at whole positions. -/
def nextPart (s : ℚ) : ℚ := if s = ⌊s⌋ then 1 else -s - ⌊-s⌋

theorem shiftSplit_ok {rnd : ℚ → ℚ} (R : Rounding rnd) {s : ℚ} (h1 : -2147483647 ≤ s) (h2 : s ≤ 2147483646) :
    ∃ f : ℚ, (∀ m : BMem, shiftSplit rnd s m = .ok (⌊-s⌋, f) m) ∧ 0 ≤ shiftCoeff rnd f ∧ shiftCoeff rnd f ≤ 1 ∧
      |shiftCoeff rnd f - (1 - nextPart s)| ≤ 3 / 2 ^ 52 := by
  have g1 : (-2147483647 : ℤ) ≤ ⌊s⌋ := Int.le_floor.2 (by push_cast; linarith)
  have g2 : ⌊s⌋ ≤ 2147483646 := by
    have : (⌊s⌋ : ℚ) ≤ 2147483646 := le_trans (Int.floor_le s) h2
    exact_mod_cast this
  have g3 : (-2147483647 : ℤ) ≤ ⌈s⌉ := by
    have : (-2147483647 : ℚ) ≤ ⌈s⌉ := le_trans h1 (Int.le_ceil s)
    exact_mod_cast this
  have g4 : ⌈s⌉ ≤ 2147483646 := Int.ceil_le.2 (by push_cast; linarith)
  have l1 := Int.floor_le s
  have l2 := Int.lt_floor_add_one s
  have l3 := Int.le_ceil s
  have l4 := Int.ceil_lt_add_one s
  -- the whole part
  obtain ⟨t, ht, ht1, ht2⟩ : ∃ t : ℤ, (if 0 ≤ s then ⌊s⌋ else ⌈s⌉) = t ∧ -2147483647 ≤ t ∧ t ≤ 2147483646 := by
    by_cases h : 0 ≤ s
    · exact ⟨⌊s⌋, if_pos h, g1, g2⟩
    · exact ⟨⌈s⌉, if_neg h, g3, g4⟩
  have habs : |s + ((-t : ℤ) : ℚ)| ≤ 1 := by
    rw [abs_le]
    push_cast
    rw [← ht]
    split <;> constructor <;> linarith
  have err := rnd_near R habs
  have hle := rnd_abs R (n := 1) (by exact_mod_cast habs) (by norm_num)
  have e1 : ∀ m : BMem, truncInt s m = .ok t m := fun m => by
    rw [truncInt, ht, Edge.int32, if_pos (by omega)]
    rfl
  have e2 : ∀ m : BMem, (Edge.int32 (-t) : M BMem Int) m = .ok (-t) m := fun m => by
    rw [Edge.int32, if_pos (by omega)]
    rfl
  obtain ⟨f, hf⟩ : ∃ f, f = rnd (s + ((-t : ℤ) : ℚ)) := ⟨_, rfl⟩
  have hrun : ∀ m : BMem, shiftSplit rnd s m = (if f > 0 then do
      let j ← Edge.int32 (-t - 1)
      pure (j, f)
    else pure (-t, f) : M BMem (Int × ℚ)) m := fun m => by
    rw [shiftSplit, bind_ok (e1 m), bind_ok (e2 m), ← hf]
  rcases lt_trichotomy (s + ((-t : ℤ) : ℚ)) 0 with hneg | hz | hpos
  · -- a negative rest
    have hf0 : f < 0 := by
      rw [hf]
      have := R.err (s + ((-t : ℤ) : ℚ))
      rw [abs_of_neg hneg, abs_le] at this
      have k : -(s + ((-t : ℤ) : ℚ)) / 2 ^ 52 ≤ -(s + ((-t : ℤ) : ℚ)) / 2 := div_le_div_of_nonneg_left (by linarith) (by norm_num) (by norm_num)
      linarith [this.2]
    have hfl : ⌊-s⌋ = -t := by
      rw [Int.floor_eq_iff]
      push_cast at hneg ⊢
      have := (abs_le.1 habs).1
      push_cast at this
      refine ⟨by linarith, ?_⟩
      by_contra hc
      have heq : s = t - 1 := by linarith
      rw [heq] at ht
      have : ((t : ℚ) - 1) = ((t - 1 : ℤ) : ℚ) := by push_cast; ring
      rw [this, Int.floor_intCast, Int.ceil_intCast] at ht
      split at ht <;> omega
    have hnint : s ≠ ⌊s⌋ := by
      intro hc
      have : ((⌊s⌋ : ℤ) : ℚ) - t < 0 := by rw [← hc]; push_cast at hneg; linarith
      have h3 : (⌊s⌋ : ℤ) < t := by
        have : ((⌊s⌋ : ℤ) : ℚ) < t := by linarith
        exact_mod_cast this
      have h4 : ⌈s⌉ = ⌊s⌋ := by rw [hc, Int.ceil_intCast, Int.floor_intCast]
      rw [h4] at ht
      split at ht <;> omega
    refine ⟨f, fun m => ?_, ?_⟩
    · rw [hrun, if_neg (by linarith), hfl]
      rfl
    · have hf1 : -1 ≤ f := by rw [hf]; have := (abs_le.1 hle).1; push_cast at this; exact this
      have n1 : 0 ≤ 1 + f := by linarith
      have er := abs_le.1 (rnd_near R (q := 1 + f) (n := 1) (by rw [abs_of_nonneg n1]; linarith))
      rw [shiftCoeff, if_pos hf0, nextPart, if_neg hnint, hfl]
      refine ⟨R.nonneg n1, ?_, ?_⟩
      · calc rnd (1 + f) ≤ rnd 1 := R.mono _ _ (by linarith)
          _ = 1 := R.one
      · have err := abs_le.1 err
        rw [← hf] at err
        rw [abs_le]
        push_cast at err ⊢
        norm_num at err er ⊢
        constructor <;> linarith [err.1, err.2, er.1, er.2]
  · -- no rest
    have hf0 : f = 0 := by rw [hf, hz, R.zero]
    have hst : s = t := by push_cast at hz; linarith
    have hfl : ⌊-s⌋ = -t := by
      rw [hst, show -(t : ℚ) = ((-t : ℤ) : ℚ) by push_cast; ring, Int.floor_intCast]
    refine ⟨f, fun m => ?_, ?_⟩
    · rw [hrun, if_neg (by rw [hf0]; exact lt_irrefl _), hfl]
      rfl
    · rw [shiftCoeff, if_neg (by rw [hf0]; exact lt_irrefl _), nextPart, if_pos (by rw [hst, Int.floor_intCast]), hf0]
      norm_num
  · -- a positive rest
    have hf0 : 0 < f := by
      rw [hf]
      have := R.err (s + ((-t : ℤ) : ℚ))
      rw [abs_of_pos hpos, abs_le] at this
      have k : (s + ((-t : ℤ) : ℚ)) / 2 ^ 52 ≤ (s + ((-t : ℤ) : ℚ)) / 2 := div_le_div_of_nonneg_left (by linarith) (by norm_num) (by norm_num)
      linarith [this.1]
    have hfl : ⌊-s⌋ = -t - 1 := by
      rw [Int.floor_eq_iff]
      push_cast at hpos ⊢
      have := (abs_le.1 habs).2
      push_cast at this
      refine ⟨by linarith, by linarith⟩
    have hnint : s ≠ ⌊s⌋ := by
      intro hc
      have h3 : t < (⌊s⌋ : ℤ) := by
        have : (t : ℚ) < ((⌊s⌋ : ℤ) : ℚ) := by rw [← hc]; push_cast at hpos; linarith
        exact_mod_cast this
      have h4 : ⌈s⌉ = ⌊s⌋ := by rw [hc, Int.ceil_intCast, Int.floor_intCast]
      rw [h4] at ht
      split at ht <;> omega
    refine ⟨f, fun m => ?_, ?_⟩
    · have e3 : (Edge.int32 (-t - 1) : M BMem Int) m = .ok (-t - 1) m := by
        rw [Edge.int32, if_pos (by omega)]
        rfl
      rw [hrun, if_pos hf0, bind_ok e3, hfl]
      rfl
    · have hf1 : f ≤ 1 := by rw [hf]; have := (abs_le.1 hle).2; push_cast at this; exact this
      rw [shiftCoeff, if_neg (by linarith), nextPart, if_neg hnint, hfl]
      refine ⟨hf0.le, hf1, ?_⟩
      have err := abs_le.1 err
      rw [← hf] at err
      rw [abs_le]
      push_cast at err ⊢
      norm_num at err ⊢
      constructor <;> linarith [err.1, err.2]

/-! ### The value -/

/-- A weight near the exact one. -/
def NearWeight (k : Nat) (x : ℚ) : Prop := |(k : ℚ) - 16384 * x| ≤ 1 / 2 + 1 / 2 ^ 30

theorem near_of {k : Nat} {a b A B : ℚ} (h : |(k : ℚ) - 16384 * (a * b)| ≤ 1 / 2 + 1 / 2 ^ 36) (ha : 0 ≤ a) (ha1 : a ≤ 1)
    (hB : 0 ≤ B) (hB1 : B ≤ 1) (e1 : |a - A| ≤ 4 / 2 ^ 52) (e2 : |b - B| ≤ 4 / 2 ^ 52) : NearWeight k (A * B) := by
  have k1 : |a * b - a * B| ≤ 4 / 2 ^ 52 := by
    rw [← mul_sub, abs_mul, abs_of_nonneg ha]
    calc a * |b - B| ≤ 1 * (4 / 2 ^ 52) := mul_le_mul ha1 e2 (abs_nonneg _) (by norm_num)
      _ = 4 / 2 ^ 52 := one_mul _
  have k2 : |a * B - A * B| ≤ 4 / 2 ^ 52 := by
    rw [← sub_mul, abs_mul, abs_of_nonneg hB]
    calc |a - A| * B ≤ (4 / 2 ^ 52) * 1 := mul_le_mul e1 hB1 hB (by norm_num)
      _ = 4 / 2 ^ 52 := mul_one _
  have h := abs_le.1 h
  have k1 := abs_le.1 k1
  have k2 := abs_le.1 k2
  rw [NearWeight, abs_le]
  norm_num at h k1 k2 ⊢
  constructor <;> linarith [h.1, h.2, k1.1, k1.2, k2.1, k2.2]

theorem term_bound {a : UInt8} {k : Nat} {x : ℚ} (h : NearWeight k x) :
    |(a.toNat : ℚ) * k - 16384 * (a.toNat * x)| ≤ 255 * (1 / 2 + 1 / 2 ^ 30) := by
  have ha : (a.toNat : ℚ) ≤ 255 := by
    have := a.toNat_lt
    have : a.toNat ≤ 255 := by omega
    exact_mod_cast this
  rw [show (a.toNat : ℚ) * k - 16384 * (a.toNat * x) = a.toNat * (k - 16384 * x) by ring, abs_mul, abs_of_nonneg (by positivity)]
  exact mul_le_mul ha h (abs_nonneg _) (by norm_num)

theorem shiftValue_near {k0 k1 k2 k3 : Nat} {g : Nat → Nat → UInt8} {X Y : Nat} {u v : ℚ} (hu : 0 ≤ u) (hu1 : u ≤ 1)
    (hv : 0 ≤ v) (hv1 : v ≤ 1) (h0 : NearWeight k0 ((1 - u) * (1 - v))) (h1 : NearWeight k1 (u * (1 - v)))
    (h2 : NearWeight k2 (u * v)) (h3 : NearWeight k3 ((1 - u) * v)) :
    |((shiftValue k0 k1 k2 k3 g X Y).toNat : ℚ) - blend (g X Y) (g (X + 1) Y) (g X (Y + 1)) (g (X + 1) (Y + 1)) u v| ≤ 1 / 2 + 1 / 32 := by
  have t0 := abs_le.1 (term_bound (a := g X Y) h0)
  have t1 := abs_le.1 (term_bound (a := g (X + 1) Y) h1)
  have t2 := abs_le.1 (term_bound (a := g (X + 1) (Y + 1)) h2)
  have t3 := abs_le.1 (term_bound (a := g X (Y + 1)) h3)
  have ha := fun z : UInt8 => (by have := z.toNat_lt; omega : z.toNat ≤ 255)
  have hb := blend_le (a := g X Y) (b := g (X + 1) Y) (c := g X (Y + 1)) (d := g (X + 1) (Y + 1)) (hi := 255) hu hu1 hv hv1
    (ha _) (ha _) (ha _) (ha _)
  have hB : blend (g X Y) (g (X + 1) Y) (g X (Y + 1)) (g (X + 1) (Y + 1)) u v
      = (g X Y).toNat * ((1 - u) * (1 - v)) + (g (X + 1) Y).toNat * (u * (1 - v)) + (g X (Y + 1)).toNat * ((1 - u) * v)
        + (g (X + 1) (Y + 1)).toNat * (u * v) := by
    simp only [blend, mul_assoc]
  generalize blend (g X Y) (g (X + 1) Y) (g X (Y + 1)) (g (X + 1) (Y + 1)) u v = B at *
  obtain ⟨N, hN⟩ : ∃ N : Nat, N = (g X Y).toNat * k0 + (g X (Y + 1)).toNat * k3 + (g (X + 1) Y).toNat * k1
      + (g (X + 1) (Y + 1)).toNat * k2 := ⟨_, rfl⟩
  have hNq : (N : ℚ) = (g X Y).toNat * k0 + (g X (Y + 1)).toNat * k3 + (g (X + 1) Y).toNat * k1
      + (g (X + 1) (Y + 1)).toNat * k2 := by
    rw [hN]
    push_cast
    rfl
  norm_num at t0 t1 t2 t3
  have n1 : (N : ℚ) ≤ 16384 * B + 511 := by rw [hNq, hB]; linarith [t0.2, t1.2, t2.2, t3.2]
  have n2 : 16384 * B - (510 + 1 / 1024) ≤ N := by rw [hNq, hB]; linarith [t0.1, t1.1, t2.1, t3.1]
  have n3 : (N : ℚ) ≤ 16384 * B + (510 + 1 / 1024) := by rw [hNq, hB]; linarith [t0.2, t1.2, t2.2, t3.2]
  have lt : (N + 8192) / 16384 < 256 := by
    have : (N : ℚ) ≤ 4178431 := by push_cast at hb; linarith
    have : N ≤ 4178431 := by exact_mod_cast this
    omega
  have hd1 : ((N + 8192) / 16384) * 16384 ≤ N + 8192 := Nat.div_mul_le_self _ _
  have hd2 : N + 8192 < ((N + 8192) / 16384 + 1) * 16384 := by omega
  rw [shiftValue, ← hN, UInt8.toNat_ofNat_of_lt' lt]
  generalize (N + 8192) / 16384 = V at *
  have d1 : (V : ℚ) * 16384 ≤ N + 8192 := by exact_mod_cast hd1
  have d2 : (N : ℚ) + 8192 < (V + 1) * 16384 := by exact_mod_cast hd2
  rw [abs_le]
  constructor <;> linarith

end PV.Move
