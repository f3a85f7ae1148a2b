import Verif.ShiftLemmas
import Verif.PropsRotate
import Verif.PropsReduce
/-
  Properties C98 - C100: `Shift`.
-/
namespace PV.Props

open Move

/-- The whole image. -/
def whole (img : Image) : View := ⟨img, 0, 0⟩

/-- What `Shift` needs: gray-scale images with regions inside, the output apart from the input image, an image of less
    than 2 GiB, a shift of less than the region. -/
structure ShiftAt (m : BMem) (inp out : View) (w h : Nat) (sx sy : ℚ) : Prop where
  pair : GrayPair m inp out w h
  apart : Apart (whole inp.img) inp.img.width inp.img.height out w h
  small : inp.img.rowSize * inp.img.height + inp.img.rowSize < 2147483648
  sx_le : |sx| ≤ w - 1
  sy_le : |sy| ≤ h - 1

/-- The pixels needed for an axis are in the image: a shift towards the beginning of at least a pixel, or a region which,
    moved (but not before the first pixel), ends a pixel before the end of the image. -/
def Room (start size total : Nat) (s : ℚ) : Prop := s ≤ -1 ∨ (start + ⌊-s⌋).toNat + size + 1 ≤ total

/-- The same for the rows: rows before the first one are not needed. -/
def RoomY (start size total : Nat) (s : ℚ) : Prop := s ≤ -1 ∨ start + ⌊-s⌋ + size + 1 ≤ total

theorem nextPart_mem (s : ℚ) : 0 ≤ nextPart s ∧ nextPart s ≤ 1 := by
  rw [nextPart]
  have h1 := Int.floor_le (-s)
  have h2 := Int.lt_floor_add_one (-s)
  split
  · norm_num
  · constructor <;> linarith

theorem floor_range {s : ℚ} {w : Nat} (h : |s| ≤ (w : ℚ) - 1) : -(w : Int) ≤ ⌊-s⌋ ∧ ⌊-s⌋ < w := by
  have h := abs_le.1 h
  constructor
  · refine Int.le_floor.2 ?_
    push_cast
    linarith [h.2]
  · rw [Int.floor_lt]
    push_cast
    linarith [h.1]

theorem between_of_near {m : BMem} {inp : View} {X Y : Nat} {u v eps : ℚ} {a : UInt8} (hu : 0 ≤ u) (hu1 : u ≤ 1) (hv : 0 ≤ v)
    (hv1 : v ≤ 1) (he : eps < 1) (h : |(a.toNat : ℚ) - bilinear m inp X Y u v| ≤ eps) : Between m inp X Y a := by
  have e : bilinear m inp X Y u v
      = blend (inp.get m X Y 0) (inp.get m (X + 1) Y 0) (inp.get m X (Y + 1) 0) (inp.get m (X + 1) (Y + 1) 0) u v := by
    simp only [bilinear, blend, mul_assoc]
  rw [e] at h
  have h := abs_le.1 h
  constructor
  · obtain ⟨i, j, hi, hj, b1, b2, b3, b4⟩ := exists_min fun i j => inp.get m (X + i) (Y + j) 0
    refine ⟨i, j, hi, hj, ?_⟩
    simp only [UInt8.le_iff_toNat_le] at *
    have k := blend_ge hu hu1 hv hv1 b1 b2 b3 b4
    simp only [Nat.add_zero] at k
    have k2 : ((inp.get m (X + i) (Y + j) 0).toNat : ℚ) < a.toNat + 1 := by linarith [h.1]
    have : (inp.get m (X + i) (Y + j) 0).toNat < a.toNat + 1 := by exact_mod_cast k2
    omega
  · obtain ⟨i, j, hi, hj, b1, b2, b3, b4⟩ := exists_max fun i j => inp.get m (X + i) (Y + j) 0
    refine ⟨i, j, hi, hj, ?_⟩
    simp only [UInt8.le_iff_toNat_le] at *
    have k := blend_le hu hu1 hv hv1 b1 b2 b3 b4
    simp only [Nat.add_zero] at k
    have k2 : (a.toNat : ℚ) < (inp.get m (X + i) (Y + j) 0).toNat + 1 := by linarith [h.2]
    have : a.toNat < (inp.get m (X + i) (Y + j) 0).toNat + 1 := by exact_mod_cast k2
    omega

theorem shift_core {rnd : ℚ → ℚ} (R : Rounding rnd) {m : BMem} {inp out : View} {w h : Nat} {sx sy : ℚ}
    (r : ShiftAt m inp out w h sx sy) (hX : Room inp.x w inp.img.width sx) (hY : RoomY inp.y h inp.img.height sy) :
    ∃ (m' : BMem) (F : Nat → Nat → UInt8), Shift rnd inp out w h sx sy m = .ok () m' ∧ WritesRoi m m' out w h (fun k l _ => F k l) ∧
      ∀ k l : Nat,
        (0 ≤ (inp.y : Int) + ⌊-sy⌋ + l ∧ (inp.y : Int) + ⌊-sy⌋ + l + 1 < inp.img.height ∧
            (inp.x + ⌊-sx⌋).toNat + k + 1 < inp.img.width ∧
          |((F k l).toNat : ℚ) - bilinear m (whole inp.img) ((inp.x + ⌊-sx⌋).toNat + k) ((inp.y : Int) + ⌊-sy⌋ + l).toNat
            (nextPart sx) (nextPart sy)| ≤ 1 / 2 + 1 / 32) ∨
        (¬ (0 ≤ (inp.y : Int) + ⌊-sy⌋ + l ∧ (inp.y : Int) + ⌊-sy⌋ + l + 1 < inp.img.height ∧
            (inp.x + ⌊-sx⌋).toNat + k + 1 < inp.img.width) ∧ F k l = 0) := by
  have fiti := r.pair.fiti
  have wpos := fiti.wpos
  have hpos := fiti.hpos
  have inX := fiti.inX
  have inY := fiti.inY
  obtain ⟨_, hrO, _, hwO, hhO, hfO, _, _, _, _⟩ := View.facts r.pair.wfo r.pair.fito
  obtain ⟨_, hrI, _, hwI, hhI, hfI, hsI, _, _, hrw⟩ := View.facts r.pair.wfi fiti
  have hrow := r.pair.wfi.row
  rw [r.pair.gi] at hrow
  have hsmall := r.small
  have b1 : inp.img.rowSize * 1 ≤ inp.img.rowSize * inp.img.height := Nat.mul_le_mul_left _ (by omega)
  have b2 : 1 * inp.img.height ≤ inp.img.rowSize * inp.img.height := Nat.mul_le_mul_right _ hrI
  have wq : (w : ℚ) ≤ 2147483647 := by
    have : w ≤ 2147483647 := by omega
    exact_mod_cast this
  have hq : (h : ℚ) ≤ 2147483647 := by
    have : h ≤ 2147483647 := by omega
    exact_mod_cast this
  have ax := abs_le.1 r.sx_le
  have ay := abs_le.1 r.sy_le
  obtain ⟨fx, x1, x2, x3, x4⟩ := shiftSplit_ok R (s := sx) (by linarith [ax.1]) (by linarith [ax.2])
  obtain ⟨fy, y1, y2, y3, y4⟩ := shiftSplit_ok R (s := sy) (by linarith [ay.1]) (by linarith [ay.2])
  obtain ⟨u0, u1⟩ := nextPart_mem sx
  obtain ⟨v0, v1⟩ := nextPart_mem sy
  generalize hcx : shiftCoeff rnd fx = cx at *
  generalize hcy : shiftCoeff rnd fy = cy at *
  obtain ⟨p1, p2, p3⟩ := compl_facts R x2 x3
  obtain ⟨q1, q2, q3⟩ := compl_facts R y2 y3
  have ex : |cx - (1 - nextPart sx)| ≤ 4 / 2 ^ 52 := le_trans x4 (by norm_num)
  have ey : |cy - (1 - nextPart sy)| ≤ 4 / 2 ^ 52 := le_trans y4 (by norm_num)
  have ex' : |rnd (1 - cx) - nextPart sx| ≤ 4 / 2 ^ 52 := by
    have a := abs_le.1 x4
    have b := abs_le.1 p3
    rw [abs_le]
    constructor <;> linarith [a.1, a.2, b.1, b.2]
  have ey' : |rnd (1 - cy) - nextPart sy| ≤ 4 / 2 ^ 52 := by
    have a := abs_le.1 y4
    have b := abs_le.1 q3
    rw [abs_le]
    constructor <;> linarith [a.1, a.2, b.1, b.2]
  obtain ⟨k0, a0, e0, n0⟩ := shiftWeight_ok R x2 x3 y2 y3
  obtain ⟨k1, a1, e1, n1⟩ := shiftWeight_ok R p1 p2 y2 y3
  obtain ⟨k2, a2, e2, n2⟩ := shiftWeight_ok R p1 p2 q1 q2
  obtain ⟨k3, a3, e3, n3⟩ := shiftWeight_ok R x2 x3 q1 q2
  have w0 := near_of n0 x2 x3 (by linarith) (by linarith) ex ey
  have w1 := near_of n1 p1 p2 (by linarith) (by linarith) ex' ey
  have w2 := near_of n2 p1 p2 v0 v1 ex' ey'
  have w3 := near_of n3 x2 x3 v0 v1 ex ey'
  obtain ⟨i1, i2⟩ := floor_range r.sx_le
  obtain ⟨j1, j2⟩ := floor_range r.sy_le
  have hp : ∀ s : ℚ, s ≤ -1 → 0 < ⌊-s⌋ := fun s hs => by
    have : (1 : ℤ) ≤ ⌊-s⌋ := Int.le_floor.2 (by push_cast; linarith)
    omega
  obtain ⟨m', g1, g2⟩ := shiftRows_ok (rnd := rnd) (m := m) (iX := ⌊-sx⌋) (iY := ⌊-sy⌋) r.pair.wfi r.pair.wfo fiti r.pair.fito
    r.pair.gi r.pair.go r.apart hsmall e0 e1 e2 e3 a0 a1 a2 a3 i1 i2 j1 j2 (hX.imp_left (hp sx)) (hY.imp_left (hp sy))
  refine ⟨m', fun k l => shiftOut k0 k1 k2 k3 (inp.img.pix m) inp.img.width inp.img.height (inp.x + ⌊-sx⌋) (inp.y + ⌊-sy⌋) k l,
    ?_, g2, fun k l => ?_⟩
  · rw [Shift, bind_ok (validateRois_ok m (vs := [inp, out]) (by
        intro v hv
        simp only [List.mem_cons, List.not_mem_nil, or_false] at hv
        rcases hv with rfl | rfl
        · exact ⟨fiti, hwI, hhI⟩
        · exact ⟨r.pair.fito, hwO, hhO⟩)),
      bind_ok (gray_ok (by simp [r.pair.gi, r.pair.go]))]
    have t1 : ¬ |sx| > ((usub w 1 : Nat) : ℚ) := by
      rw [usub_of_le wpos (by omega), Nat.cast_sub wpos]
      push_cast
      exact not_lt.2 r.sx_le
    have t2 : ¬ |sy| > ((usub h 1 : Nat) : ℚ) := by
      rw [usub_of_le hpos (by omega), Nat.cast_sub hpos]
      push_cast
      exact not_lt.2 r.sy_le
    rw [decide_eq_false t1, decide_eq_false t2, Bool.or_false, throwIf_false, pure_bind', bind_ok (x1 m), bind_ok (y1 m)]
    simp only [hcx, hcy]
    exact g1
  · by_cases hc : 0 ≤ (inp.y : Int) + ⌊-sy⌋ + l ∧ (inp.y : Int) + ⌊-sy⌋ + l + 1 < inp.img.height ∧
        (inp.x + ⌊-sx⌋).toNat + k + 1 < inp.img.width
    · left
      refine ⟨hc.1, hc.2.1, hc.2.2, ?_⟩
      beta_reduce
      rw [shiftOut, if_pos hc]
      have := shiftValue_near (g := inp.img.pix m) (X := (inp.x + ⌊-sx⌋).toNat + k) (Y := ((inp.y : Int) + ⌊-sy⌋ + l).toNat)
        u0 u1 v0 v1 w0 w1 w2 w3
      have e : ∀ X Y, inp.img.pix m X Y = (whole inp.img).get m X Y 0 := fun X Y => by
        have := pix_get (m := m) (v := whole inp.img) r.pair.gi X Y
        simp only [whole, Nat.zero_add] at this ⊢
        exact this
      simp only [e, blend, mul_assoc] at this
      simp only [e, bilinear]
      exact this
    · right
      exact ⟨hc, by beta_reduce; rw [shiftOut, if_neg hc]⟩

/-! ### C98 : only pixels of the image -/

/-- Where there is room, `Shift` reads pixels of the image only, writes the output region, and every pixel it writes is
    zero or lies between four neighbouring pixels.  Missing: regions without the room, for example the whole image with a
    shift of (0, 0). -/
theorem C98_partial {rnd : ℚ → ℚ} (R : Rounding rnd) {m : BMem} {inp out : View} {w h : Nat} {sx sy : ℚ}
    (r : ShiftAt m inp out w h sx sy) (hX : Room inp.x w inp.img.width sx) (hY : RoomY inp.y h inp.img.height sy) :
    ∃ (m' : BMem) (F : Nat → Nat → UInt8), Shift rnd inp out w h sx sy m = .ok () m' ∧ WritesRoi m m' out w h (fun k l _ => F k l) ∧
      ∀ k l, F k l = 0 ∨ ∃ X Y, X + 1 < inp.img.width ∧ Y + 1 < inp.img.height ∧ Between m (whole inp.img) X Y (F k l) := by
  obtain ⟨m', F, e1, e2, e3⟩ := shift_core R r hX hY
  refine ⟨m', F, e1, e2, fun k l => ?_⟩
  obtain ⟨u0, u1⟩ := nextPart_mem sx
  obtain ⟨v0, v1⟩ := nextPart_mem sy
  rcases e3 k l with ⟨h1, h2, h3, h4⟩ | ⟨_, h1⟩
  · exact Or.inr ⟨_, _, h3, by omega, between_of_near u0 u1 v0 v1 (by norm_num) h4⟩
  · exact Or.inl h1

/-- A shift by more than the size of the region minus one is rejected. -/
theorem C98_too_far {rnd : ℚ → ℚ} {m : BMem} {inp out : View} {w h : Nat} {sx sy : ℚ} (p : GrayPair m inp out w h)
    (hs : (w : ℚ) - 1 < |sx| ∨ (h : ℚ) - 1 < |sy|) : Shift rnd inp out w h sx sy m = .throw m := by
  have wpos := p.fiti.wpos
  have hpos := p.fiti.hpos
  have inX := p.fiti.inX
  have inY := p.fiti.inY
  obtain ⟨_, _, _, hwO, hhO, _⟩ := View.facts p.wfo p.fito
  obtain ⟨_, _, _, hwI, hhI, _⟩ := View.facts p.wfi p.fiti
  rw [Shift, bind_ok (validateRois_ok m (vs := [inp, out]) (by
      intro v hv
      simp only [List.mem_cons, List.not_mem_nil, or_false] at hv
      rcases hv with rfl | rfl
      · exact ⟨p.fiti, hwI, hhI⟩
      · exact ⟨p.fito, hwO, hhO⟩)),
    bind_ok (gray_ok (by simp [p.gi, p.go]))]
  have : (decide (|sx| > ((usub w 1 : Nat) : ℚ)) || decide (|sy| > ((usub h 1 : Nat) : ℚ))) = true := by
    rw [usub_of_le wpos (by omega), Nat.cast_sub wpos, usub_of_le hpos (by omega), Nat.cast_sub hpos]
    push_cast
    simp only [Bool.or_eq_true, decide_eq_true_eq]
    exact hs
  rw [this]
  exact bind_throw (throwIf_true m)

theorem C98_rejects {rnd : ℚ → ℚ} {m : BMem} {inp out : View} {w h : Nat} {sx sy : ℚ} (hb : Bad [inp, out] w h (Gray1 inp out)) :
    Shift rnd inp out w h sx sy m = .throw m := by
  rw [Shift]
  refine rois_bad_then hb fun hc => ?_
  refine bind_throw (gray_throw ?_)
  by_cases h1 : inp.img.cc = 1
  · exact ⟨out.img, by simp, fun h2 => hc ⟨h1, h2⟩⟩
  · exact ⟨inp.img, by simp, h1⟩

/-! ### C99 : shifts by a fraction -/

/-- A shift which is whole in neither direction puts at (k, l) the bilinear interpolation at the point (k, l) minus the
    shift, with an error of at most 1/2 + 1/32, and zero where there are no four pixels.  Missing: regions without the
    room; regions moved before the first column (`hx`), where the pixels of the first columns are repeated at the wrong place
    (`C99_wrong`); shifts by whole numbers (`C100_partial`). -/
theorem C99_partial {rnd : ℚ → ℚ} (R : Rounding rnd) {m : BMem} {inp out : View} {w h : Nat} {sx sy : ℚ}
    (r : ShiftAt m inp out w h sx sy) (hX : Room inp.x w inp.img.width sx) (hY : RoomY inp.y h inp.img.height sy)
    (hx : sx ≤ inp.x) (nx : sx ≠ ⌊sx⌋) (ny : sy ≠ ⌊sy⌋) :
    ∃ (m' : BMem) (F : Nat → Nat → UInt8), Shift rnd inp out w h sx sy m = .ok () m' ∧ WritesRoi m m' out w h (fun k l _ => F k l) ∧
      ∀ k l : Nat, Sampled m (whole inp.img) inp.img.width inp.img.height (1 / 32) (inp.x + k - sx) (inp.y + l - sy) (F k l) := by
  obtain ⟨m', F, e1, e2, e3⟩ := shift_core R r hX hY
  refine ⟨m', F, e1, e2, fun k l => ?_⟩
  obtain ⟨u0, u1⟩ := nextPart_mem sx
  obtain ⟨v0, v1⟩ := nextPart_mem sy
  have ux : nextPart sx = -sx - ⌊-sx⌋ := by rw [nextPart, if_neg nx]
  have uy : nextPart sy = -sy - ⌊-sy⌋ := by rw [nextPart, if_neg ny]
  have hx0 : 0 ≤ (inp.x : Int) + ⌊-sx⌋ := by
    have : -(inp.x : Int) ≤ ⌊-sx⌋ := Int.le_floor.2 (by push_cast; linarith)
    omega
  obtain ⟨X, hXe⟩ : ∃ X : Nat, (X : Int) = inp.x + ⌊-sx⌋ + k := ⟨(inp.x + ⌊-sx⌋ + k).toNat, by omega⟩
  have hXt : (inp.x + ⌊-sx⌋).toNat + k = X := by omega
  have hXq : (X : ℚ) = inp.x + ⌊-sx⌋ + k := by exact_mod_cast hXe
  have lx := Int.floor_le (-sx)
  have lx' := Int.lt_floor_add_one (-sx)
  have ly := Int.floor_le (-sy)
  have ly' := Int.lt_floor_add_one (-sy)
  rcases e3 k l with ⟨h1, h2, h3, h4⟩ | ⟨h1, h2⟩
  · obtain ⟨Y, hYe⟩ : ∃ Y : Nat, (Y : Int) = inp.y + ⌊-sy⌋ + l := ⟨(inp.y + ⌊-sy⌋ + l).toNat, by omega⟩
    have hYq : (Y : ℚ) = inp.y + ⌊-sy⌋ + l := by exact_mod_cast hYe
    have hYt : ((inp.y : Int) + ⌊-sy⌋ + l).toNat = Y := by omega
    rw [hXt, hYt] at h4
    refine Or.inr ⟨X, Y, by omega, by omega, ?_, ?_, ?_, ?_, between_of_near u0 u1 v0 v1 (by norm_num) h4, ?_⟩
    · simp only [whole, Nat.cast_zero, zero_add]
      linarith
    · simp only [whole, Nat.cast_zero, zero_add]
      linarith
    · simp only [whole, Nat.cast_zero, zero_add]
      linarith
    · simp only [whole, Nat.cast_zero, zero_add]
      linarith
    · simp only [whole, Nat.cast_zero, zero_add]
      rw [show (inp.x : ℚ) + k - sx - X = nextPart sx by rw [hXq, ux]; ring,
        show (inp.y : ℚ) + l - sy - Y = nextPart sy by rw [hYq, uy]; ring]
      exact h4
  · refine Or.inl ⟨?_, h2⟩
    simp only [whole, Nat.cast_zero, zero_add]
    by_contra hc
    push Not at hc
    obtain ⟨c1, c2, c3, c4⟩ := hc
    refine h1 ⟨?_, ?_, ?_⟩
    · have : -((inp.y : Int) + l) ≤ ⌊-sy⌋ := Int.le_floor.2 (by push_cast; linarith)
      omega
    · have : (⌊-sy⌋ : ℚ) < inp.img.height - 1 - inp.y - l := by linarith
      have : (⌊-sy⌋ : ℚ) < ((inp.img.height - 1 - inp.y - l : Int) : ℚ) := by push_cast; exact this
      have : ⌊-sy⌋ < (inp.img.height - 1 - inp.y - l : Int) := by exact_mod_cast this
      omega
    · have : (⌊-sx⌋ : ℚ) < inp.img.width - 1 - inp.x - k := by linarith
      have : (⌊-sx⌋ : ℚ) < ((inp.img.width - 1 - inp.x - k : Int) : ℚ) := by push_cast; exact this
      have : ⌊-sx⌋ < (inp.img.width - 1 - inp.x - k : Int) := by exact_mod_cast this
      omega

/-! ### C100 : shifts by whole numbers -/

/-- A shift by the whole numbers (a, b) does not put the pixel (k - a, l - b) at (k, l) but the pixel
    (k - a + 1, l - b + 1): everything moves by one pixel less in both directions. -/
theorem C100_partial {rnd : ℚ → ℚ} (R : Rounding rnd) {m : BMem} {inp out : View} {w h : Nat} {a b : Int}
    (r : ShiftAt m inp out w h a b) (hX : Room inp.x w inp.img.width a) (hY : RoomY inp.y h inp.img.height b)
    (hx : a ≤ inp.x) :
    ∃ (m' : BMem) (F : Nat → Nat → UInt8), Shift rnd inp out w h a b m = .ok () m' ∧ WritesRoi m m' out w h (fun k l _ => F k l) ∧
      ∀ k l : Nat,
        (∀ X Y : Nat, (X : Int) = inp.x + k - a + 1 → (Y : Int) = inp.y + l - b + 1 → 0 < Y → X < inp.img.width → Y < inp.img.height →
          F k l = (whole inp.img).get m X Y 0) ∧
        ((inp.y + l - b < 0 ∨ (inp.img.width : Int) ≤ inp.x + k - a + 1 ∨ (inp.img.height : Int) ≤ inp.y + l - b + 1) → F k l = 0) := by
  obtain ⟨m', F, e1, e2, e3⟩ := shift_core R r hX hY
  refine ⟨m', F, e1, e2, fun k l => ?_⟩
  have fa : ⌊-(a : ℚ)⌋ = -a := by
    rw [show -(a : ℚ) = ((-a : ℤ) : ℚ) by push_cast; ring, Int.floor_intCast]
  have fb : ⌊-(b : ℚ)⌋ = -b := by
    rw [show -(b : ℚ) = ((-b : ℤ) : ℚ) by push_cast; ring, Int.floor_intCast]
  have na : nextPart a = 1 := by rw [nextPart, if_pos (by rw [Int.floor_intCast])]
  have nb : nextPart b = 1 := by rw [nextPart, if_pos (by rw [Int.floor_intCast])]
  have e3 := e3 k l
  rw [fa, fb, na, nb] at e3
  constructor
  · intro X Y hX' hY' hY0 hXW hYH
    rcases e3 with ⟨h1, h2, h3, h4⟩ | ⟨h1, h2⟩
    · rw [show (inp.x + -a).toNat + k = X - 1 by omega, show ((inp.y : Int) + -b + l).toNat = Y - 1 by omega, bilinear] at h4
      rw [show X - 1 + 1 = X by omega, show Y - 1 + 1 = Y by omega] at h4
      norm_num at h4
      have h4 := abs_le.1 h4
      have a1 : ((F k l).toNat : ℚ) < ((whole inp.img).get m X Y 0).toNat + 1 := by linarith [h4.2]
      have a2 : (((whole inp.img).get m X Y 0).toNat : ℚ) < (F k l).toNat + 1 := by linarith [h4.1]
      have b1 : (F k l).toNat < ((whole inp.img).get m X Y 0).toNat + 1 := by exact_mod_cast a1
      have b2 : ((whole inp.img).get m X Y 0).toNat < (F k l).toNat + 1 := by exact_mod_cast a2
      exact UInt8.toNat_inj.1 (by omega)
    · exact absurd ⟨by omega, by omega, by omega⟩ h1
  · intro hz
    rcases e3 with ⟨h1, h2, h3, h4⟩ | ⟨h1, h2⟩
    · omega
    · exact h2

/-! ### Witnesses and concrete cases -/

/-- A full image of 3x3 pixels without padding. -/
def fullMem : BMem := ⟨fun b => if b = 0 then 0 else 9, fun b i => UInt8.ofNat (b * 100 + i * i * 7)⟩
def fullIn : View := ⟨⟨1, 3, 3, 1, 3⟩, 0, 0⟩
def fullOut : View := ⟨⟨2, 3, 3, 1, 3⟩, 0, 0⟩

/-- C98 is false: a shift of a whole image by (0, 0) or by (1/2, 1/2) reads after the end of the image. -/
theorem C98_wrong : ShiftAt fullMem fullIn fullOut 3 3 0 0 ∧ isUb (Shift id fullIn fullOut 3 3 0 0 fullMem) = true ∧
    ShiftAt fullMem fullIn fullOut 3 3 (-1 / 2) (-1 / 2) ∧
    isUb (Shift id fullIn fullOut 3 3 (-1 / 2) (-1 / 2) fullMem) = true := by
  have p : GrayPair fullMem fullIn fullOut 3 3 := ⟨⟨by decide, by decide, by decide⟩, ⟨by decide, by decide, by decide⟩,
    ⟨by decide, by decide, by decide, by decide, by decide, by decide⟩,
    ⟨by decide, by decide, by decide, by decide, by decide, by decide⟩, rfl, rfl⟩
  exact ⟨⟨p, apart_of_ne _ _ _ _ (by decide), by decide, by norm_num, by norm_num⟩, by decide +kernel,
    ⟨p, apart_of_ne _ _ _ _ (by decide), by decide, by norm_num [abs_div], by norm_num [abs_div]⟩, by decide +kernel⟩

theorem shift_pre : ShiftAt filterMem filterIn filterOut 4 4 (-5 / 4) (1 / 2) where
  pair := filter_pair
  apart := apart_of_ne _ _ _ _ (by decide)
  small := by decide
  sx_le := by norm_num [abs_div]
  sy_le := by norm_num [abs_div]

theorem floor_shift : ⌊-(1 / 2 : ℚ)⌋ = -1 := by rw [Int.floor_eq_iff]; norm_num

theorem shift_roomY : RoomY filterIn.y 4 filterIn.img.height (1 / 2) := by
  rw [RoomY, floor_shift]
  right; decide

example : ∃ (m' : BMem) (F : Nat → Nat → UInt8), Shift double filterIn filterOut 4 4 (-5 / 4) (1 / 2) filterMem = .ok () m' ∧
    WritesRoi filterMem m' filterOut 4 4 (fun k l _ => F k l) ∧
    ∀ k l : Nat, Sampled filterMem (whole filterIn.img) 5 4 (1 / 32) (filterIn.x + k - -5 / 4) (filterIn.y + l - 1 / 2) (F k l) :=
  C99_partial Rounding.double shift_pre (Or.inl (by norm_num)) shift_roomY (by norm_num [filterIn])
    (by rw [show ⌊(-5 / 4 : ℚ)⌋ = -2 by rw [Int.floor_eq_iff]; norm_num]; norm_num)
    (by rw [show ⌊(1 / 2 : ℚ)⌋ = 0 by rw [Int.floor_eq_iff]; norm_num]; norm_num)

-- The point for (1, 2) is (9/4, 3/2).
example : bilinear filterMem (whole filterIn.img) 2 1 (1 / 4) (1 / 2) = 489 / 4 := by decide +kernel
example : after (Shift id filterIn filterOut 4 4 (-5 / 4) (1 / 2) filterMem) 2 13 = some 122 := by decide +kernel
example : after (Shift id filterIn filterOut 4 4 (-5 / 4) (1 / 2) filterMem) 2 4 = some 0 := by decide +kernel
example : after (Shift id filterIn filterOut 4 4 (-5 / 4) (1 / 2) filterMem) 2 15 = some 0 := by decide +kernel

/-- The rest of C99 is false where the region is moved before the first column: shifted by (3/2, 1/2), the first column should
    be zero, as its point is before the image, but it is not. -/
theorem C99_wrong : ShiftAt filterMem filterIn filterOut 4 4 (3 / 2) (1 / 2) ∧ Room filterIn.x 4 filterIn.img.width (3 / 2) ∧
    ∃ m', Shift id filterIn filterOut 4 4 (3 / 2) (1 / 2) filterMem = .ok () m' ∧
      ¬ Sampled filterMem (whole filterIn.img) filterIn.img.width filterIn.img.height (1 / 32) (filterIn.x + (0 : Nat) - 3 / 2)
        (filterIn.y + (1 : Nat) - 1 / 2) (filterOut.get m' 0 1 0) := by
  have r : ShiftAt filterMem filterIn filterOut 4 4 (3 / 2) (1 / 2) :=
    ⟨filter_pair, apart_of_ne _ _ _ _ (by decide), by decide, by norm_num [abs_div], by norm_num [abs_div]⟩
  have rx : Room filterIn.x 4 filterIn.img.width (3 / 2) := by
    rw [Room, show ⌊-(3 / 2 : ℚ)⌋ = -2 by rw [Int.floor_eq_iff]; norm_num]
    right; decide
  refine ⟨r, rx, ?_⟩
  obtain ⟨m', F, e1, e2, e3⟩ := shift_core Rounding.exact r rx shift_roomY
  have e : after (Shift id filterIn filterOut 4 4 (3 / 2) (1 / 2) filterMem) 2 8 ≠ some 0 := by decide +kernel
  refine ⟨m', e1, fun hs => ?_⟩
  rcases hs with ⟨_, h⟩ | ⟨X, Y, _, _, hx, _⟩
  · rw [e1] at e
    exact e (congrArg some h)
  · have : (0 : ℚ) ≤ X := Nat.cast_nonneg X
    simp only [whole, filterIn, Nat.cast_zero] at hx
    linarith

theorem still_pre : ShiftAt filterMem filterIn filterOut 4 3 ((0 : Int) : ℚ) ((0 : Int) : ℚ) where
  pair := ⟨filter_pair.wfi, filter_pair.wfo, ⟨by decide, by decide, by decide, by decide, by decide, by decide⟩,
    ⟨by decide, by decide, by decide, by decide, by decide, by decide⟩, rfl, rfl⟩
  apart := apart_of_ne _ _ _ _ (by decide)
  small := by decide
  sx_le := by norm_num
  sy_le := by norm_num

/-- C100 is false: a shift by (0, 0) puts the pixel (1, 1) at (0, 0). -/
theorem C100_wrong : ∃ m', Shift id filterIn filterOut 4 3 ((0 : Int) : ℚ) ((0 : Int) : ℚ) filterMem = .ok () m' ∧
    filterOut.get m' 0 0 0 = filterIn.get filterMem 1 1 0 ∧ filterOut.get m' 0 0 0 ≠ filterIn.get filterMem 0 0 0 := by
  obtain ⟨m', F, e1, e2, e3⟩ := C100_partial Rounding.exact still_pre (Or.inr (by simp [filterIn]))
    (Or.inr (by simp [filterIn])) (by decide)
  have h0 : filterOut.get m' 0 0 0 = filterIn.get filterMem 1 1 0 := by
    rw [e2.inside 0 0 0 (by decide) (by decide) (by decide)]
    exact (e3 0 0).1 1 1 (by decide) (by decide) (by decide) (by decide) (by decide)
  refine ⟨m', e1, h0, ?_⟩
  rw [h0]
  decide

example : filterOut.img.cc = 1 ∧ Shift double filterIn filterOut 4 4 (-4) 0 filterMem = .throw filterMem :=
  ⟨rfl, C98_too_far filter_pair (Or.inl (by norm_num))⟩
example : Shift double filterIn filterOut 5 4 0 0 filterMem = .throw filterMem := by
  refine C98_rejects ⟨?_, by decide, by decide, Or.inl ⟨filterOut, by simp, fun h => absurd h.inX (by decide)⟩⟩
  intro v hv
  simp only [List.mem_cons, List.not_mem_nil, or_false] at hv
  rcases hv with rfl | rfl <;> exact ⟨by decide, by decide, by decide, by decide⟩

end PV.Props
