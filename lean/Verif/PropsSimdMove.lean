import Verif.SimdMoveRows
import Verif.PropsSimd
import Verif.PropsChannel
import Verif.PropsConvert16
/-
  Properties C52, C76 and C77: the vector forms of ConvertTo16Bit, ConvertTo8Bit, ConvertToRgb, Flip
  and RgbToBgr give the results of the scalar forms.
-/
namespace PV.Props

open PV.Simd (Kind)

/-! ### C52 : ConvertTo16Bit -/

/-- Which byte of the input row the vector form widens into place `t` when registers have `n`
    bytes and the first `total` bytes of a row are handled by registers: both halves of a group
    are made from the lower 8 bytes of each 16-byte lane. -/
def lowHalves (n total t : Nat) : Nat :=
  if t < total then t / n * n + (t % n % (n / 2) / 8 * 16 + t % 8) else t

/-- Exactly what the x86 forms write if the width is at least the width of a register. -/
theorem C52_to16_shuffled (k : Kind) (hk : k = .sse ∨ k = .avx ∨ k = .avx512) {src : BMem} {m : Mem UInt16}
    {inp out : View} {w h : Nat} (p : Cross src m inp out w h) (hw : Simd.size k ≤ w) :
    ∃ m', Simd.ConvertTo16Bit k src inp out w h m = .ok () m' ∧ WritesRoi m m' out w h
      fun x y c => to16 (src.byte inp.img.data ((inp.y + y) * inp.img.rowSize + (inp.x +
        lowHalves (Simd.size k) (w * inp.img.cc / Simd.size k * Simd.size k) (x * inp.img.cc + c)))) := by
  have hc : k ≠ .cpu := by rcases hk with rfl | rfl | rfl <;> decide
  rw [Simd.ConvertTo16Bit, if_neg (fun h => h.elim hc (by omega))]
  obtain ⟨m', h1, h2⟩ := Simd.convPath_ok (m := m) (reg := Simd.to16Reg k src) (pi := Simd.order16 k) hc (fun j => Simd.order16_lt hc)
    (fun inX outX m2 h1 h2 => Simd.to16Reg_ok hc h1 h2) p.wfi p.wfo p.fiti p.fito p.co
  refine ⟨m', h1, h2.congr fun x y c _ _ _ => ?_⟩
  have hstep : Simd.convStep k = Simd.size k := by rcases hk with rfl | rfl | rfl <;> rfl
  have hn : k ≠ .neon := by rcases hk with rfl | rfl | rfl <;> decide
  have h8 : Simd.size k = 8 * (Simd.size k / 8) := by rcases hk with rfl | rfl | rfl <;> decide
  rw [hstep, lowHalves, Simd.source, Simd.order16, if_neg hn]
  have : ∀ t, t % Simd.size k % 8 = t % 8 := fun t => by rw [h8, Nat.mod_mul_right_mod]
  rw [this]

theorem source_id (n total t : Nat) (pi : Nat → Nat) (hn : 0 < n) (hp : ∀ j, j < n → pi j = j) :
    Simd.source n total pi t = t := by
  rw [Simd.source]
  split
  · rw [hp _ (Nat.mod_lt _ hn), Nat.mul_comm, Nat.div_add_mod]
  · rfl

/-- C52 with NEON, without vector instructions and for rectangles narrower than a register.
    Missing for the full claim: SSE, AVX and AVX-512 for all other rectangles, where it is false
    (`C52_to16_wrong`). -/
theorem C52_to16_partial (k : Kind) {src : BMem} {m : Mem UInt16} {inp out : View} {w h : Nat}
    (p : Cross src m inp out w h) (hk : k = .neon ∨ k = .cpu ∨ w < Simd.size k) :
    ∃ m', Simd.ConvertTo16Bit k src inp out w h m = .ok () m' ∧ ConvertTo16Bit src inp out w h m = .ok () m' ∧
      WritesRoi m m' out w h fun x y c =>
        to16 (src.byte inp.img.data ((inp.y + y) * inp.img.rowSize + (inp.x + (x * inp.img.cc + c)))) := by
  obtain ⟨m', h1, h2⟩ := C33_to16_exact p
  rw [Simd.ConvertTo16Bit]
  by_cases h0 : k = .cpu ∨ w < Simd.size k
  · exact ⟨m', by rw [if_pos h0, h1], h1, h2⟩
  · have hn : k = .neon := hk.resolve_right h0
    subst hn
    obtain ⟨m'', h3, h4⟩ := Simd.convPath_ok (m := m) (k := .neon) (reg := Simd.to16Reg .neon src)
      (pi := Simd.order16 .neon) (by decide) (fun j => Simd.order16_lt (by decide))
      (fun inX outX m2 h1 h2 => Simd.to16Reg_ok (by decide) h1 h2) p.wfi p.wfo p.fiti p.fito p.co
    have h5 := h4.congr (G := fun x y c => to16 (src.byte inp.img.data ((inp.y + y) * inp.img.rowSize +
      (inp.x + (x * inp.img.cc + c))))) (fun x y c _ _ _ => by
        rw [source_id _ _ _ _ (by decide) (fun j _ => by rw [Simd.order16, if_pos rfl])])
    obtain rfl := h2.unique h5
    exact ⟨m', by rw [if_neg h0, h3], h1, h2⟩

theorem cross_bad {μ : Type} {m : μ} {inp out : View} {w h : Nat} {k : M μ Unit}
    (hb : Bad [inp, out] w h (out.img.cc = inp.img.cc)) :
    (do validateRois [inp] w h
        validateRois [out] w h
        checkCommonColorCount inp.img [out.img]
        k) m = .throw m := by
  have hb1 : Bad [inp] w h (out.Fits w h ∧ out.img.cc = inp.img.cc) := by
    refine ⟨fun v hv => hb.u32 v (by simp_all), hb.hw, hb.hh, ?_⟩
    rcases hb.bad with ⟨v, hv, hn⟩ | hn
    · rcases List.mem_cons.mp hv with rfl | hv
      · exact Or.inl ⟨v, by simp, hn⟩
      · rw [List.mem_singleton.mp hv] at hn
        exact Or.inr fun hh => hn hh.1
    · exact Or.inr fun hh => hn hh.2
  refine rois_bad_then hb1 fun hn => ?_
  refine rois_bad_then (cond := out.img.cc = inp.img.cc) ⟨fun v hv => hb.u32 v (by simp_all), hb.hw, hb.hh, ?_⟩ fun hc => ?_
  · by_cases hf : out.Fits w h
    · exact Or.inr fun hh => hn ⟨hf, hh⟩
    · exact Or.inl ⟨out, by simp, hf⟩
  · rw [bind_throw (common_throw ⟨out.img, by simp, hc⟩)]

theorem C52_to16_rejects (k : Kind) {src : BMem} {m : Mem UInt16} {inp out : View} {w h : Nat}
    (hb : Bad [inp, out] w h (out.img.cc = inp.img.cc)) : Simd.ConvertTo16Bit k src inp out w h m = .throw m := by
  rw [Simd.ConvertTo16Bit]
  split
  · exact C33_rejects hb
  · exact cross_bad hb

/-! ### C76 : ConvertTo8Bit -/

/-- Which number of the input row the vector form narrows into place `t`: each 16-byte lane of a
    register takes eight numbers of the first and eight of the second half of the group. -/
def laneHalves (n total t : Nat) : Nat :=
  if t < total then t / n * n +
    (if t % n % 16 < 8 then t % n / 16 * 8 + t % n % 16 else n / 2 + (t % n / 16 * 8 + (t % n % 16 - 8)))
  else t

/-- Exactly what the AVX and AVX-512 forms write if the width is at least the width of a register. -/
theorem C76_to8_shuffled (k : Kind) (hk : k = .avx ∨ k = .avx512) {src : Mem UInt16} {m : BMem}
    {inp out : View} {w h : Nat} (p : Cross src m inp out w h) (hw : Simd.size k ≤ w) :
    ∃ m', Simd.ConvertTo8Bit k src inp out w h m = .ok () m' ∧ WritesRoi m m' out w h
      fun x y c => to8 (src.byte inp.img.data ((inp.y + y) * inp.img.rowSize + (inp.x +
        laneHalves (Simd.size k) (w * inp.img.cc / Simd.size k * Simd.size k) (x * inp.img.cc + c)))) := by
  have hc : k ≠ .cpu := by rcases hk with rfl | rfl <;> decide
  rw [Simd.ConvertTo8Bit, if_neg (fun h => h.elim hc (by omega))]
  obtain ⟨m', h1, h2⟩ := Simd.convPath_ok (m := m) (reg := Simd.to8Reg k src) (pi := Simd.order8 k) hc (fun j => Simd.order8_lt hc)
    (fun inX outX m2 h1 h2 => Simd.to8Reg_ok hc h1 h2) p.wfi p.wfo p.fiti p.fito p.co
  refine ⟨m', h1, h2.congr fun x y c _ _ _ => ?_⟩
  have hstep : Simd.convStep k = Simd.size k := by rcases hk with rfl | rfl <;> rfl
  have hn : k ≠ .neon := by rcases hk with rfl | rfl <;> decide
  rw [hstep, laneHalves, Simd.source, Simd.order8, if_neg hn]

/-- C76 with SSE, NEON, without vector instructions and for rectangles narrower than a register.
    Missing for the full claim: AVX and AVX-512 for all other rectangles, where it is false
    (`C76_to8_wrong`). -/
theorem C76_to8_partial (k : Kind) {src : Mem UInt16} {m : BMem} {inp out : View} {w h : Nat}
    (p : Cross src m inp out w h) (hk : k = .sse ∨ k = .neon ∨ k = .cpu ∨ w < Simd.size k) :
    ∃ m', Simd.ConvertTo8Bit k src inp out w h m = .ok () m' ∧ ConvertTo8Bit src inp out w h m = .ok () m' ∧
      WritesRoi m m' out w h fun x y c =>
        to8 (src.byte inp.img.data ((inp.y + y) * inp.img.rowSize + (inp.x + (x * inp.img.cc + c)))) := by
  obtain ⟨m', h1, h2⟩ := C33_to8_exact p
  rw [Simd.ConvertTo8Bit]
  by_cases h0 : k = .cpu ∨ w < Simd.size k
  · exact ⟨m', by rw [if_pos h0, h1], h1, h2⟩
  · have hc : k ≠ .cpu := fun h => h0 (Or.inl h)
    obtain ⟨m'', h3, h4⟩ := Simd.convPath_ok (m := m) (reg := Simd.to8Reg k src) (pi := Simd.order8 k) hc
      (fun j => Simd.order8_lt hc)
      (fun inX outX m2 h1 h2 => Simd.to8Reg_ok hc h1 h2) p.wfi p.wfo p.fiti p.fito p.co
    have h5 := h4.congr (G := fun x y c => to8 (src.byte inp.img.data ((inp.y + y) * inp.img.rowSize +
      (inp.x + (x * inp.img.cc + c))))) (fun x y c _ _ _ => by
        rw [source_id _ _ _ _ (by cases k <;> decide) (fun j hj => by
          rcases hk with rfl | rfl | h
          · have hj : j < 16 := hj
            rw [Simd.order8, if_neg (by decide)]
            show (if j % 16 < 8 then _ else 8 + _) = _
            split <;> omega
          · rw [Simd.order8, if_pos rfl]
          · exact absurd h h0)])
    obtain rfl := h2.unique h5
    exact ⟨m', by rw [if_neg h0, h3], h1, h2⟩

theorem C76_to8_rejects (k : Kind) {src : Mem UInt16} {m : BMem} {inp out : View} {w h : Nat}
    (hb : Bad [inp, out] w h (out.img.cc = inp.img.cc)) : Simd.ConvertTo8Bit k src inp out w h m = .throw m := by
  rw [Simd.ConvertTo8Bit]
  split
  · exact C33_to8_rejects hb
  · exact cross_bad hb

/-! ### C77 : ConvertToRgb, Flip, RgbToBgr -/

theorem C77_convertToRgb_gray (k : Kind) {m : BMem} {inp out : View} {w h : Nat}
    (p : Pair m inp w h out w h) (ci : inp.img.cc = 1) (co : out.img.cc = 3) :
    ∃ m', Simd.ConvertToRgb k inp out w h m = .ok () m' ∧ ConvertToRgb inp out w h m = .ok () m' ∧
      WritesRoi m m' out w h fun x y _ => inp.get m x y 0 := by
  obtain ⟨m', h1, h2⟩ := C22_convertToRgb_gray p ci co
  have base : ∀ k, k ≠ .avx → Simd.rgbBase k inp out w h m = .ok () m' := by
    intro k hk
    rw [Simd.rgbBase]
    split
    · exact h1
    · rename_i h0
      have hk2 : k = .sse ∨ k = .neon := by
        cases k <;> simp at hk h0 ⊢
      rw [Simd.rgbPath, p.validate, bind_ok (rgb_ok (by simp [co]))]
      simp only [ci, Nat.reduceBEq, Bool.false_eq_true, ↓reduceIte]
      obtain ⟨m'', h3, h4⟩ := Simd.rgbKernel_ok hk2 p.wfi p.wfo p.fiti p.fito p.apart ci co
      obtain rfl := h2.unique h4
      exact h3
  refine ⟨m', ?_, h1, h2⟩
  rw [Simd.ConvertToRgb]
  split
  · exact base _ (by decide)
  · exact base k (by assumption)

theorem C77_convertToRgb_rgb (k : Kind) {m : BMem} {inp out : View} {w h : Nat}
    (p : Pair m inp w h out w h) (ci : inp.img.cc = 3) (co : out.img.cc = 3) :
    ∃ m', Simd.ConvertToRgb k inp out w h m = .ok () m' ∧ ConvertToRgb inp out w h m = .ok () m' ∧
      WritesRoi m m' out w h fun x y c => inp.get m x y c := by
  obtain ⟨m', h1, h2⟩ := C22_convertToRgb_rgb p ci co
  have base : ∀ k, Simd.rgbBase k inp out w h m = .ok () m' := by
    intro k
    rw [Simd.rgbBase]
    split
    · exact h1
    · rw [ConvertToRgb, p.validate, bind_ok (rgb_ok (by simp [co]))] at h1
      rw [Simd.rgbPath, p.validate, bind_ok (rgb_ok (by simp [co]))]
      simp only [ci, Nat.reduceBEq, ↓reduceIte] at h1 ⊢
      exact h1
  refine ⟨m', ?_, h1, h2⟩
  rw [Simd.ConvertToRgb]
  split <;> exact base _

/-- RGBA images: both forms read the row of the input as if its pixels had one colour. -/
theorem C77_convertToRgb_rgba (k : Kind) {m : BMem} {inp out : View} {w h : Nat}
    (p : Pair m inp w h out w h) (hd : inp.img.data ≠ out.img.data) (ci : inp.img.cc = 4)
    (co : out.img.cc = 3) :
    ∃ m', Simd.ConvertToRgb k inp out w h m = .ok () m' ∧ ConvertToRgb inp out w h m = .ok () m' ∧
      WritesRoi m m' out w h fun x y _ =>
        m.byte inp.img.data ((inp.y + y) * inp.img.rowSize + (inp.x + x)) := by
  have q := pair_asColors p (n := 1) (by simp) (by omega) hd
  obtain ⟨m', h1, h2⟩ := C22_toRgb_rgba_exact p hd ci co
  obtain ⟨m'', g1, g2, _⟩ := C77_convertToRgb_gray k q rfl co
  have e := convertToRgb_asColors p q (by omega) co
  obtain rfl : m' = m'' := by
    rw [e, g2] at h1
    injection h1 with _ h1
    exact h1.symm
  have path : ∀ k, Simd.rgbPath k inp out w h m = Simd.rgbPath k (asColors 1 inp) out w h m := by
    intro k
    have c1 : (inp.img.cc == 3) = false := by simp [ci]
    have c2 : ((asColors 1 inp).img.cc == 3) = false := rfl
    have e1 : (asColors 1 inp).start 1 = inp.start 1 := rfl
    have e2 : (asColors 1 inp).img.rowSize = inp.img.rowSize := rfl
    have e3 : (asColors 1 inp).img.data = inp.img.data := rfl
    rw [Simd.rgbPath, p.validate, bind_ok (rgb_ok (by simp [co])), Simd.rgbPath, q.validate,
      bind_ok (rgb_ok (by simp [co])), c1, c2]
    simp only [Bool.false_eq_true, if_false, e1, e2, e3]
  have base : ∀ k, Simd.rgbBase k inp out w h m = Simd.rgbBase k (asColors 1 inp) out w h m := by
    intro k
    rw [Simd.rgbBase, Simd.rgbBase]
    split
    · exact e
    · exact path k
  refine ⟨m', ?_, h1, h2⟩
  rw [← g1, Simd.ConvertToRgb, Simd.ConvertToRgb]
  split <;> exact base _

theorem C77_convertToRgb_rejects (k : Kind) {m : BMem} {inp out : View} {w h : Nat}
    (hb : Bad [inp, out] w h (out.img.cc = 3)) : Simd.ConvertToRgb k inp out w h m = .throw m := by
  have base : ∀ k, Simd.rgbBase k inp out w h m = .throw m := by
    intro k
    rw [Simd.rgbBase]
    split
    · exact C22_rejects.1 hb
    · rw [Simd.rgbPath]
      refine rois_bad_then hb fun hc => ?_
      rw [bind_throw (rgb_throw ⟨out.img, by simp, hc⟩)]
  rw [Simd.ConvertToRgb]
  split <;> exact base _

theorem C77_flip (k : Kind) {m : BMem} {inp out : View} {w h : Nat} (hor ver : Bool)
    (p : Pair m inp w h out w h) (ci : inp.img.cc = 1) (co : out.img.cc = 1) :
    ∃ m', Simd.Flip k inp out w h hor ver m = .ok () m' ∧ Flip inp out w h hor ver m = .ok () m' ∧
      WritesRoi m m' out w h fun x y c => inp.get m (mirror hor w x) (mirror ver h y) c := by
  obtain ⟨m', h1, h2⟩ := C18_flip hor ver p ci co
  obtain ⟨_, hr, _, _, hhi, hfit, hyr, _⟩ := View.facts p.wfo p.fito
  have estart : out.start 1 = out.y * out.img.rowSize + out.x := by
    have := View.start_eq p.wfo p.fito
    rw [co, Nat.mul_one] at this
    exact this
  have hpos := p.fito.hpos
  have inY := p.fito.inY
  have ebot : u32 (u32 (out.y + h - 1) * out.img.rowSize) = (out.y + h - 1) * out.img.rowSize := by
    have h1 : (out.y + h - 1) * out.img.rowSize ≤ out.img.height * out.img.rowSize :=
      Nat.mul_le_mul_right _ (by omega)
    have := p.wfo.small
    rw [Nat.mul_comm] at this
    rw [u32_of_lt (n := out.y + h - 1) (by omega), u32_of_lt (by omega)]
  have base : ∀ k, k ≠ .avx → Simd.flipBase k inp out w h hor ver m = .ok () m' := by
    intro k hk
    rw [Simd.flipBase]
    split
    · exact h1
    · rename_i h0
      have hk2 : k = .sse ∨ k = .neon := by
        cases k <;> simp at hk h0 ⊢
      have h00 : (!hor && ver) = false := by
        cases hb : (!hor && ver)
        · rfl
        · exact absurd (Or.inr (Or.inr (Or.inr hb))) h0
      have h1' := h1
      rw [Flip, p.validate, bind_ok (gray_ok (by simp [ci, co]))] at h1'
      rw [Simd.flipPath, p.validate, bind_ok (gray_ok (by simp [ci, co]))]
      cases hor <;> cases ver
      · simp only [Bool.not_false, Bool.and_self, ↓reduceIte] at h1' ⊢
        exact h1'
      · exact absurd h00 (by decide)
      · simp only [Bool.not_false, Bool.not_true, Bool.and_true, Bool.false_eq_true, ↓reduceIte]
        obtain ⟨m'', h3, h4⟩ := Simd.flipKernel_ok hk2 (dy := out.img.rowSize)
          (outEnd := ((u32 (out.y * out.img.rowSize) + out.x + w : Nat) : Int)) false
          p.wfi p.wfo p.fiti p.fito p.apart ci co (fun y _ => by
            rw [u32_of_lt hyr, estart]
            simp only [Bool.false_eq_true, ↓reduceIte, Int.natCast_add, Int.natCast_mul]
            omega)
        have h5 := h4.congr (G := fun x y c => inp.get m (mirror true w x) (mirror false h y) c)
          (fun x y c _ _ hc => by
            rw [co] at hc
            rw [show c = 0 by omega]
            rfl)
        obtain rfl := h2.unique h5
        exact h3
      · simp only [Bool.not_true, Bool.and_false, Bool.false_eq_true, ↓reduceIte]
        obtain ⟨m'', h3, h4⟩ := Simd.flipKernel_ok hk2 (dy := -(out.img.rowSize : Int))
          (outEnd := ((u32 (u32 (out.y + h - 1) * out.img.rowSize) + out.x + w : Nat) : Int)) true
          p.wfi p.wfo p.fiti p.fito p.apart ci co (fun y hy => by
            rw [ebot, estart]
            have e : out.y + h - 1 = out.y + (h - 1 - y) + y := by omega
            rw [e]
            simp only [↓reduceIte, Int.natCast_add, Int.natCast_mul, Int.add_mul, Int.mul_neg]
            omega)
        have h5 := h4.congr (G := fun x y c => inp.get m (mirror true w x) (mirror true h y) c)
          (fun x y c _ _ hc => by
            rw [co] at hc
            rw [show c = 0 by omega]
            rfl)
        obtain rfl := h2.unique h5
        exact h3
  refine ⟨m', ?_, h1, h2⟩
  rw [Simd.Flip]
  split
  · exact base _ (by decide)
  · exact base k (by assumption)

theorem C77_flip_rejects (k : Kind) {m : BMem} {inp out : View} {w h : Nat} (hor ver : Bool)
    (hb : Bad [inp, out] w h (Gray1 inp out)) : Simd.Flip k inp out w h hor ver m = .throw m := by
  have base : ∀ k, Simd.flipBase k inp out w h hor ver m = .throw m := by
    intro k
    rw [Simd.flipBase]
    split
    · exact C18_flip_rejects hor ver hb
    · rw [Simd.flipPath, grayPrologue_bad hb]
  rw [Simd.Flip]
  split <;> exact base _

/-- As for the scalar function (C21) the rectangles must not overlap; in place both forms are
    wrong, not even in the same way (`C77_rgbToBgr_inPlace_differs`). -/
theorem C77_rgbToBgr_partial (k : Kind) {m : BMem} {inp out : View} {w h : Nat}
    (p : Pair m inp w h out w h) (ci : inp.img.cc = 3) (co : out.img.cc = 3) :
    ∃ m', Simd.RgbToBgr k inp out w h m = .ok () m' ∧ RgbToBgr inp out w h m = .ok () m' ∧
      WritesRoi m m' out w h fun x y c => inp.get m x y (2 - c) := by
  obtain ⟨m', h1, h2⟩ := C21_rgbToBgr_partial p ci co
  obtain ⟨_, _, _, _, _, _, _, _, hwcc, _⟩ := View.facts p.wfo p.fito
  rw [co] at hwcc
  have base : ∀ k, Simd.bgrBase k inp out w h m = .ok () m' := by
    intro k
    rw [Simd.bgrBase]
    split
    · exact h1
    · rename_i h0
      rw [u32_of_lt hwcc] at h0
      have hk2 : k = .sse ∨ k = .neon ∨ k = .avx := by
        cases k <;> simp at h0 ⊢
      obtain ⟨m'', h3, h4⟩ := Simd.bgrPath_ok hk2 (by omega) p.wfi p.wfo p.fiti p.fito p.apart ci co
      obtain rfl := h2.unique h4
      exact h3
  refine ⟨m', ?_, h1, h2⟩
  rw [Simd.RgbToBgr]
  split <;> exact base _

theorem C77_rgbToBgr_rejects (k : Kind) {m : BMem} {inp out : View} {w h : Nat}
    (hb : Bad [inp, out] w h (inp.img.cc = 3 ∧ out.img.cc = 3)) : Simd.RgbToBgr k inp out w h m = .throw m := by
  have base : ∀ k, Simd.bgrBase k inp out w h m = .throw m := by
    intro k
    rw [Simd.bgrBase]
    split
    · exact C21_rgbToBgr_rejects hb
    · rw [Simd.bgrPath]
      refine rois_bad_then hb fun hc => ?_
      rw [bind_throw (rgb_throw ?_)]
      by_cases h1 : inp.img.cc = 3
      · exact ⟨out.img, by simp, fun h2 => hc ⟨h1, h2⟩⟩
      · exact ⟨inp.img, by simp, h1⟩
  rw [Simd.RgbToBgr]
  split <;> exact base _

/-! ### Examples and witnesses -/

/-- 64 numbers of 16 bits in a block. -/
def wide16 : Mem UInt16 where
  size b := if b = 0 then 0 else 64
  byte b i := UInt16.ofNat (b * 37 * 256 + i * 11 * 256 + 5)

/-- 64 pixels in a row. -/
def strip (b : Nat) : View := ⟨⟨b, 64, 1, 1, 64⟩, 0, 0⟩

theorem cross_strip16 : Cross simdMem wide16 (strip 1) (strip 1) 64 1 :=
  ⟨⟨by decide, by decide, by decide⟩, ⟨by decide, by decide, by decide⟩,
    ⟨by decide, Or.inl rfl, by decide, by decide, by decide, by decide⟩,
    ⟨by decide, Or.inl rfl, by decide, by decide, by decide, by decide⟩, rfl⟩

theorem cross_strip8 : Cross wide16 simdMem (strip 1) (strip 2) 64 1 :=
  ⟨⟨by decide, by decide, by decide⟩, ⟨by decide, by decide, by decide⟩,
    ⟨by decide, Or.inl rfl, by decide, by decide, by decide, by decide⟩,
    ⟨by decide, Or.inl rfl, by decide, by decide, by decide, by decide⟩, rfl⟩

example : ∃ m', Simd.ConvertTo16Bit .neon simdMem (strip 1) (strip 1) 64 1 wide16 = .ok () m' ∧
    ConvertTo16Bit simdMem (strip 1) (strip 1) 64 1 wide16 = .ok () m' ∧
    WritesRoi wide16 m' (strip 1) 64 1 fun x y c => to16 (simdMem.byte 1 ((0 + y) * 64 + (0 + (x * 1 + c)))) :=
  C52_to16_partial .neon cross_strip16 (Or.inl rfl)

/-- C52 is false on all x86 units: pixel 8 becomes pixel 0 with SSE, pixel 8 becomes pixel 16 with
    AVX and AVX-512. -/
theorem C52_to16_wrong :
    Cross simdMem wide16 (strip 1) (strip 1) 64 1 ∧
    (∃ m', ConvertTo16Bit simdMem (strip 1) (strip 1) 64 1 wide16 = .ok () m' ∧
      (strip 1).get m' 8 0 0 = 125 * 256) ∧
    (∃ m', Simd.ConvertTo16Bit .sse simdMem (strip 1) (strip 1) 64 1 wide16 = .ok () m' ∧
      (strip 1).get m' 8 0 0 = 37 * 256) ∧
    (∃ m', Simd.ConvertTo16Bit .avx simdMem (strip 1) (strip 1) 64 1 wide16 = .ok () m' ∧
      (strip 1).get m' 8 0 0 = 213 * 256) ∧
    (∃ m', Simd.ConvertTo16Bit .avx512 simdMem (strip 1) (strip 1) 64 1 wide16 = .ok () m' ∧
      (strip 1).get m' 8 0 0 = 213 * 256) := by
  obtain ⟨m0, a0, b0⟩ := C33_to16_exact cross_strip16
  obtain ⟨m1, a1, b1⟩ := C52_to16_shuffled .sse (Or.inl rfl) cross_strip16 (by decide)
  obtain ⟨m2, a2, b2⟩ := C52_to16_shuffled .avx (Or.inr (Or.inl rfl)) cross_strip16 (by decide)
  obtain ⟨m3, a3, b3⟩ := C52_to16_shuffled .avx512 (Or.inr (Or.inr rfl)) cross_strip16 (by decide)
  refine ⟨cross_strip16, ⟨m0, a0, ?_⟩, ⟨m1, a1, ?_⟩, ⟨m2, a2, ?_⟩, ⟨m3, a3, ?_⟩⟩
  · rw [b0.inside 8 0 0 (by decide) (by decide) (by decide)]; decide
  · rw [b1.inside 8 0 0 (by decide) (by decide) (by decide)]; decide
  · rw [b2.inside 8 0 0 (by decide) (by decide) (by decide)]; decide
  · rw [b3.inside 8 0 0 (by decide) (by decide) (by decide)]; decide

example : ∃ m', Simd.ConvertTo8Bit .sse wide16 (strip 1) (strip 2) 64 1 simdMem = .ok () m' ∧
    ConvertTo8Bit wide16 (strip 1) (strip 2) 64 1 simdMem = .ok () m' ∧
    WritesRoi simdMem m' (strip 2) 64 1 fun x y c => to8 (wide16.byte 1 ((0 + y) * 64 + (0 + (x * 1 + c)))) :=
  C76_to8_partial .sse cross_strip8 (Or.inl rfl)

/-- C76 is false with AVX and AVX-512: pixel 8 becomes pixel 16 or 32. -/
theorem C76_to8_wrong :
    Cross wide16 simdMem (strip 1) (strip 2) 64 1 ∧
    (∃ m', ConvertTo8Bit wide16 (strip 1) (strip 2) 64 1 simdMem = .ok () m' ∧ (strip 2).get m' 8 0 0 = 125) ∧
    (∃ m', Simd.ConvertTo8Bit .avx wide16 (strip 1) (strip 2) 64 1 simdMem = .ok () m' ∧
      (strip 2).get m' 8 0 0 = 213) ∧
    (∃ m', Simd.ConvertTo8Bit .avx512 wide16 (strip 1) (strip 2) 64 1 simdMem = .ok () m' ∧
      (strip 2).get m' 8 0 0 = 133) := by
  obtain ⟨m0, a0, b0⟩ := C33_to8_exact cross_strip8
  obtain ⟨m1, a1, b1⟩ := C76_to8_shuffled .avx (Or.inl rfl) cross_strip8 (by decide)
  obtain ⟨m2, a2, b2⟩ := C76_to8_shuffled .avx512 (Or.inr rfl) cross_strip8 (by decide)
  refine ⟨cross_strip8, ⟨m0, a0, ?_⟩, ⟨m1, a1, ?_⟩, ⟨m2, a2, ?_⟩⟩
  · rw [b0.inside 8 0 0 (by decide) (by decide) (by decide)]; decide
  · rw [b1.inside 8 0 0 (by decide) (by decide) (by decide)]; decide
  · rw [b2.inside 8 0 0 (by decide) (by decide) (by decide)]; decide

theorem pair_wide : Pair simdMem (wide 1) 17 2 (wide 2) 17 2 :=
  ⟨wf_wide 1 (by decide), wf_wide 2 (by decide), fits_wide 1 (by decide), fits_wide 2 (by decide),
    apart_of_ne _ _ _ _ (by decide)⟩

/-- 19 pixels of three bytes. -/
def strip3 (b : Nat) : View := ⟨⟨b, 19, 1, 3, 57⟩, 0, 0⟩

theorem pair_strip3 : Pair simdMem (strip3 1) 19 1 (strip3 2) 19 1 :=
  ⟨⟨by decide, by decide, by decide⟩, ⟨by decide, by decide, by decide⟩,
    ⟨by decide, Or.inr (Or.inl rfl), by decide, by decide, by decide, by decide⟩,
    ⟨by decide, Or.inr (Or.inl rfl), by decide, by decide, by decide, by decide⟩,
    apart_of_ne _ _ _ _ (by decide)⟩

theorem pair_strip13 : Pair simdMem (strip 1) 19 1 (strip3 2) 19 1 :=
  ⟨⟨by decide, by decide, by decide⟩, ⟨by decide, by decide, by decide⟩,
    ⟨by decide, Or.inl rfl, by decide, by decide, by decide, by decide⟩,
    ⟨by decide, Or.inr (Or.inl rfl), by decide, by decide, by decide, by decide⟩,
    apart_of_ne _ _ _ _ (by decide)⟩

example : ∃ m', Simd.Flip .sse (wide 1) (wide 2) 17 2 true true simdMem = .ok () m' ∧
    Flip (wide 1) (wide 2) 17 2 true true simdMem = .ok () m' ∧
    WritesRoi simdMem m' (wide 2) 17 2 fun x y c => (wide 1).get simdMem (mirror true 17 x) (mirror true 2 y) c :=
  C77_flip .sse true true pair_wide rfl rfl
example : ∃ m', Simd.RgbToBgr .avx (strip3 1) (strip3 2) 19 1 simdMem = .ok () m' ∧
    RgbToBgr (strip3 1) (strip3 2) 19 1 simdMem = .ok () m' ∧
    WritesRoi simdMem m' (strip3 2) 19 1 fun x y c => (strip3 1).get simdMem x y (2 - c) :=
  C77_rgbToBgr_partial .avx pair_strip3 rfl rfl
example : ∃ m', Simd.ConvertToRgb .neon (strip 1) (strip3 2) 19 1 simdMem = .ok () m' ∧
    ConvertToRgb (strip 1) (strip3 2) 19 1 simdMem = .ok () m' ∧
    WritesRoi simdMem m' (strip3 2) 19 1 fun x y _ => (strip 1).get simdMem x y 0 :=
  C77_convertToRgb_gray .neon pair_strip13 rfl rfl
example : after (Simd.Flip .avx (wide 1) (wide 2) 17 2 true false simdMem) 2 0 = some 213 := by decide +kernel
example : after (Simd.RgbToBgr .avx (strip3 1) (strip3 2) 19 1 simdMem) 2 15 = some 224 := by decide +kernel

/-- In place the scalar form loses the third channel of the first pixel, the SSE form keeps it; the
    AVX form loses byte 17. -/
theorem C77_rgbToBgr_inPlace_differs :
    after (RgbToBgr (strip3 1) (strip3 1) 19 1 simdMem) 1 0 = some 37 ∧
    after (Simd.RgbToBgr .sse (strip3 1) (strip3 1) 19 1 simdMem) 1 0 = some 59 ∧
    after (Simd.RgbToBgr .sse (strip3 1) (strip3 1) 19 1 simdMem) 1 17 = some 202 ∧
    after (Simd.RgbToBgr .avx (strip3 1) (strip3 1) 19 1 simdMem) 1 17 = some 224 := by
  decide +kernel

end PV.Props
