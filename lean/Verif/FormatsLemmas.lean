import Verif.Formats
import Verif.PropsBmp
/-
  Lemmas about PNG and JPEG files: rows read from and written to images.
-/
namespace PV.Props
open PV PV.Raw PV.Formats

/-! ### Rows given to libpng -/

/-- Bytes per pixel in the rows given to libpng -/
def pngBytes (cc : Nat) : Nat := if cc = 1 then 1 else 3

theorem bgrRow_ok {b : Nat} (hb : b ≠ 0) {m : BMem} : ∀ (n p : Nat), p + n * 3 ≤ m.size b → ∃ l, bgrRow b p n m = .ok l m ∧ l.length = n * 3 ∧
    ∀ x c, x < n → c < 3 → l[x * 3 + c]? = some (m.byte b (p + x * 3 + (2 - c))) := by
  intro n
  induction n with
  | zero =>
    intro p _
    exact ⟨[], rfl, rfl, fun x c hx _ => absurd hx (Nat.not_lt_zero _)⟩
  | succ n ih =>
    intro p hp
    obtain ⟨l, h1, h2, h3⟩ := ih (p + 3) (by omega)
    refine ⟨m.byte b (p + 2) :: m.byte b (p + 1) :: m.byte b p :: l, ?_, ?_, fun x c hx hc => ?_⟩
    · rw [bgrRow, bind_ok (readC_ok ⟨hb, by omega⟩), bind_ok (readC_ok ⟨hb, by omega⟩), bind_ok (readC_ok ⟨hb, by omega⟩), bind_ok h1]
      rfl
    · simp only [List.length_cons, h2]
      omega
    · cases x with
      | zero =>
        rcases (by omega : c = 0 ∨ c = 1 ∨ c = 2) with rfl | rfl | rfl <;> rfl
      | succ x =>
        rw [show (x + 1) * 3 + c = x * 3 + c + 1 + 1 + 1 by omega, List.getElem?_cons_succ, List.getElem?_cons_succ, List.getElem?_cons_succ,
          h3 x c (by omega) hc, show p + 3 + x * 3 + (2 - c) = p + (x + 1) * 3 + (2 - c) by omega]

theorem pngRow_ok {img : Image} {m : BMem} {w p : Nat} (hb : img.data ≠ 0) (hp : p + w * pngBytes img.cc ≤ m.size img.data) :
    ∃ l, pngRow img w p m = .ok l m ∧ l.length = w * pngBytes img.cc ∧
      ∀ x c, x < w → c < pngBytes img.cc → l[x * pngBytes img.cc + c]? = some (m.byte img.data (p + x * pngBytes img.cc + (pngBytes img.cc - 1 - c))) := by
  rw [pngRow]
  by_cases hc : img.cc = 1
  · have hk : pngBytes img.cc = 1 := by rw [pngBytes, if_pos hc]
    rw [hk] at hp ⊢
    rw [if_pos hc]
    refine ⟨_, fetch_ok hb w p (by omega), by simp, fun x c hx hc => ?_⟩
    rw [show x * 1 + c = x by omega, List.getElem?_map, List.getElem?_range' hx, show p + x * 1 + (1 - 1 - c) = p + 1 * x by omega]
    rfl
  · have hk : pngBytes img.cc = 3 := by rw [pngBytes, if_neg hc]
    rw [hk] at hp ⊢
    rw [if_neg hc]
    exact bgrRow_ok hb w p hp

theorem pngRows_ok {img : Image} {m : BMem} {w : Nat} (hb : img.data ≠ 0) : ∀ (n p : Nat),
    (∀ y, y < n → p + y * img.rowSize + w * pngBytes img.cc ≤ m.size img.data) →
    ∃ rs, pngRows img w p n m = .ok rs m ∧ rs.length = n ∧ (∀ r ∈ rs, r.length = w * pngBytes img.cc) ∧ ∀ y, y < n → ∃ r, rs[y]? = some r ∧
      ∀ x c, x < w → c < pngBytes img.cc →
        r[x * pngBytes img.cc + c]? = some (m.byte img.data (p + y * img.rowSize + x * pngBytes img.cc + (pngBytes img.cc - 1 - c))) := by
  intro n
  induction n with
  | zero =>
    intro p _
    exact ⟨[], rfl, rfl, fun r hr => absurd hr List.not_mem_nil, fun y hy => absurd hy (Nat.not_lt_zero _)⟩
  | succ n ih =>
    intro p hp
    obtain ⟨l, h1, h2, h3⟩ := pngRow_ok (img := img) (m := m) (w := w) (p := p) hb (by have := hp 0 (by omega); omega)
    obtain ⟨rs, g1, g2, g3, g4⟩ := ih (p + img.rowSize) (fun y hy => by
      have := hp (y + 1) (by omega)
      rw [Nat.add_mul] at this
      omega)
    refine ⟨l :: rs, ?_, by rw [List.length_cons, g2], fun r hr => ?_, fun y hy => ?_⟩
    · rw [pngRows, bind_ok h1, bind_ok g1]
      rfl
    · rcases List.mem_cons.1 hr with rfl | hr
      · exact h2
      · exact g3 r hr
    · cases y with
      | zero =>
        refine ⟨l, rfl, fun x c hx hc => ?_⟩
        rw [h3 x c hx hc, Nat.zero_mul, Nat.add_zero]
      | succ y =>
        obtain ⟨r, q1, q2⟩ := g4 y (by omega)
        refine ⟨r, by rw [List.getElem?_cons_succ, q1], fun x c hx hc => ?_⟩
        rw [q2 x c hx hc, Nat.add_mul y 1, Nat.one_mul, show p + img.rowSize + y * img.rowSize = p + (y * img.rowSize + img.rowSize) by omega]

/-! ### Rows given by libpng -/

theorem expandGray_get : ∀ (l : List UInt8), (expandGray l).length = 4 * l.length ∧
    ∀ x, x < l.length → (expandGray l)[4 * x]? = l[x]? := by
  intro l
  induction l with
  | nil => exact ⟨rfl, fun x hx => absurd hx (Nat.not_lt_zero _)⟩
  | cons a l ih =>
    rw [expandGray]
    refine ⟨?_, fun x hx => ?_⟩
    · simp only [List.length_cons, ih.1]
      omega
    · cases x with
      | zero => rfl
      | succ x =>
        rw [show 4 * (x + 1) = 4 * x + 1 + 1 + 1 + 1 by omega]
        simp only [List.getElem?_cons_succ]
        exact ih.2 x (by simpa using hx)

theorem expandRgb_get : ∀ (n : Nat) (l : List UInt8), l.length = n * 3 → (expandRgb l).length = 4 * n ∧
    ∀ x c, x < n → c < 3 → (expandRgb l)[4 * x + c]? = l[x * 3 + c]? := by
  intro n
  induction n with
  | zero =>
    intro l hl
    rw [List.eq_nil_of_length_eq_zero (by omega : l.length = 0)]
    exact ⟨rfl, fun x c hx => absurd hx (Nat.not_lt_zero _)⟩
  | succ n ih =>
    intro l hl
    match l, hl with
    | a :: b :: c :: l, hl =>
      simp only [List.length_cons] at hl
      obtain ⟨i1, i2⟩ := ih l (by omega)
      rw [expandRgb]
      refine ⟨?_, fun x k hx hk => ?_⟩
      · simp only [List.length_cons, i1]
        omega
      · cases x with
        | zero => rcases (by omega : k = 0 ∨ k = 1 ∨ k = 2) with rfl | rfl | rfl <;> rfl
        | succ x =>
          rw [show 4 * (x + 1) + k = 4 * x + k + 1 + 1 + 1 + 1 by omega, show (x + 1) * 3 + k = x * 3 + k + 1 + 1 + 1 by omega]
          simp only [List.getElem?_cons_succ]
          exact i2 x k (by omega) hk
    | [], hl => simp at hl
    | [_], hl => simp at hl; omega
    | [_, _], hl => simp at hl; omega

theorem grayPixels_ok {b : Nat} (hb : b ≠ 0) : ∀ (n p : Nat) (column : List UInt8) (m : BMem), p + n ≤ m.size b → column.length = 4 * n →
    ∃ m', grayPixels b p column n m = .ok () m' ∧ m'.size = m.size ∧ (∀ x, x < n → column[4 * x]? = some (m'.byte b (p + x))) ∧
      ∀ b' i, ¬ (b' = b ∧ p ≤ i ∧ i < p + n) → m'.byte b' i = m.byte b' i := by
  intro n
  induction n with
  | zero =>
    intro p column m _ _
    exact ⟨m, rfl, rfl, fun x hx => absurd hx (Nat.not_lt_zero _), fun _ _ _ => rfl⟩
  | succ n ih =>
    intro p column m hp hl
    obtain ⟨v, hv⟩ : ∃ v, column[0]? = some v := ⟨column[0]'(by omega), List.getElem?_eq_getElem _⟩
    obtain ⟨m', h1, h2, h3, h4⟩ := ih (p + 1) (column.drop 4) (m.set b p v) (by rw [Mem.set_size]; omega) (by rw [List.length_drop]; omega)
    refine ⟨m', ?_, by rw [h2, Mem.set_size], fun x hx => ?_, fun b' i hn => ?_⟩
    · rw [grayPixels, hv]
      refine (bind_ok (show orUb (some v) m = .ok v m from rfl)).trans ?_
      rw [bind_ok (writeC_ok v ⟨hb, by omega⟩)]
      exact h1
    · cases x with
      | zero => rw [Nat.mul_zero, hv, h4 b _ (by omega), Nat.add_zero, Mem.set_same]
      | succ x =>
        have := h3 x (by omega)
        rw [List.getElem?_drop] at this
        rw [show 4 * (x + 1) = 4 + 4 * x by omega, this, show p + 1 + x = p + (x + 1) by omega]
    · rw [h4 b' i (by intro h; exact hn ⟨h.1, by omega, by omega⟩), Mem.set_other _ _ (by intro h; exact hn ⟨h.1, by omega, by omega⟩)]

theorem bgrPixels_ok {b : Nat} (hb : b ≠ 0) : ∀ (n p : Nat) (column : List UInt8) (m : BMem), p + n * 3 ≤ m.size b → column.length = 4 * n →
    ∃ m', bgrPixels b p column n m = .ok () m' ∧ m'.size = m.size ∧
      (∀ x c, x < n → c < 3 → column[4 * x + (2 - c)]? = some (m'.byte b (p + x * 3 + c))) ∧
      ∀ b' i, ¬ (b' = b ∧ p ≤ i ∧ i < p + n * 3) → m'.byte b' i = m.byte b' i := by
  intro n
  induction n with
  | zero =>
    intro p column m _ _
    exact ⟨m, rfl, rfl, fun x c hx => absurd hx (Nat.not_lt_zero _), fun _ _ _ => rfl⟩
  | succ n ih =>
    intro p column m hp hl
    obtain ⟨v0, hv0⟩ : ∃ v, column[0]? = some v := ⟨column[0]'(by omega), List.getElem?_eq_getElem _⟩
    obtain ⟨v1, hv1⟩ : ∃ v, column[1]? = some v := ⟨column[1]'(by omega), List.getElem?_eq_getElem _⟩
    obtain ⟨v2, hv2⟩ : ∃ v, column[2]? = some v := ⟨column[2]'(by omega), List.getElem?_eq_getElem _⟩
    obtain ⟨m', h1, h2, h3, h4⟩ := ih (p + 3) (column.drop 4) (((m.set b p v2).set b (p + 1) v1).set b (p + 2) v0)
      (by simp only [Mem.set_size]; omega) (by rw [List.length_drop]; omega)
    refine ⟨m', ?_, by simp only [h2, Mem.set_size], fun x c hx hc => ?_, fun b' i hn => ?_⟩
    · rw [bgrPixels, hv0, hv1, hv2]
      refine (bind_ok (show orUb (some v2) m = .ok v2 m from rfl)).trans ?_
      rw [bind_ok (writeC_ok v2 ⟨hb, by omega⟩)]
      refine (bind_ok (show orUb (some v1) (m.set b p v2) = .ok v1 (m.set b p v2) from rfl)).trans ?_
      rw [bind_ok (writeC_ok v1 ⟨hb, by rw [Mem.set_size]; omega⟩)]
      refine (bind_ok (show orUb (some v0) ((m.set b p v2).set b (p + 1) v1) = .ok v0 ((m.set b p v2).set b (p + 1) v1) from rfl)).trans ?_
      rw [bind_ok (writeC_ok v0 ⟨hb, by simp only [Mem.set_size]; omega⟩)]
      exact h1
    · cases x with
      | zero =>
        rw [h4 b _ (by omega)]
        rcases (by omega : c = 0 ∨ c = 1 ∨ c = 2) with rfl | rfl | rfl
        · rw [show 4 * 0 + (2 - 0) = 2 from rfl, hv2, show p + 0 * 3 + 0 = p by omega, Mem.set_other _ _ (by omega), Mem.set_other _ _ (by omega), Mem.set_same]
        · rw [show 4 * 0 + (2 - 1) = 1 from rfl, hv1, show p + 0 * 3 + 1 = p + 1 by omega, Mem.set_other _ _ (by omega), Mem.set_same]
        · rw [show 4 * 0 + (2 - 2) = 0 from rfl, hv0, show p + 0 * 3 + 2 = p + 2 by omega, Mem.set_same]
      | succ x =>
        have := h3 x c (by omega) hc
        rw [List.getElem?_drop] at this
        rw [show 4 * (x + 1) + (2 - c) = 4 + (4 * x + (2 - c)) by omega, this, show p + 3 + x * 3 + c = p + (x + 1) * 3 + c by omega]
    · rw [h4 b' i (by intro h; exact hn ⟨h.1, by omega, by omega⟩), Mem.set_other _ _ (by intro h; exact hn ⟨h.1, by omega, by omega⟩),
        Mem.set_other _ _ (by intro h; exact hn ⟨h.1, by omega, by omega⟩), Mem.set_other _ _ (by intro h; exact hn ⟨h.1, by omega, by omega⟩)]

/-- Bytes per pixel of the image loaded from a PNG file -/
def pngColors (gray : Bool) : Nat := if gray then 1 else 3

theorem pngPixels_ok {img : Image} {gray : Bool} (hb : img.data ≠ 0) (hrow : img.width * pngColors gray ≤ img.rowSize) : ∀ (rs : List (List UInt8)) (p : Nat) (m : BMem),
    p + img.rowSize * rs.length ≤ m.size img.data → (∀ r ∈ rs, r.length = 4 * img.width) →
    ∃ m', pngPixels img gray p rs m = .ok () m' ∧ m'.size = m.size ∧
      (∀ y r, rs[y]? = some r → ∀ x c, x < img.width → c < pngColors gray →
        r[4 * x + (pngColors gray - 1 - c)]? = some (m'.byte img.data (p + y * img.rowSize + x * pngColors gray + c))) ∧
      ∀ b i, ¬ (b = img.data ∧ p ≤ i) → m'.byte b i = m.byte b i := by
  intro rs
  induction rs with
  | nil =>
    intro p m _ _
    exact ⟨m, rfl, rfl, fun y r hr => by simp at hr, fun _ _ _ => rfl⟩
  | cons r rs ih =>
    intro p m hp hl
    rw [List.length_cons, Nat.mul_add, Nat.mul_one] at hp
    have hr := hl r (List.mem_cons_self ..)
    obtain ⟨m1, a1, a2, a3, a4⟩ : ∃ m1, pngPixelRow img gray p r m = .ok () m1 ∧ m1.size = m.size ∧
        (∀ x c, x < img.width → c < pngColors gray → r[4 * x + (pngColors gray - 1 - c)]? = some (m1.byte img.data (p + x * pngColors gray + c))) ∧
        ∀ b i, ¬ (b = img.data ∧ p ≤ i) → m1.byte b i = m.byte b i := by
      cases gray with
      | true =>
        obtain ⟨m1, a1, a2, a3, a4⟩ := grayPixels_ok hb img.width p r m (by rw [pngColors, if_pos rfl] at hrow; omega) hr
        refine ⟨m1, by rw [pngPixelRow, if_pos rfl]; exact a1, a2, fun x c hx hc => ?_, fun b i hn => a4 b i (by intro h; exact hn ⟨h.1, h.2.1⟩)⟩
        rw [pngColors, if_pos rfl] at hc ⊢
        rw [show 4 * x + (1 - 1 - c) = 4 * x by omega, a3 x hx, show p + x * 1 + c = p + x by omega]
      | false =>
        obtain ⟨m1, a1, a2, a3, a4⟩ := bgrPixels_ok hb img.width p r m (by rw [pngColors, if_neg (by decide)] at hrow; omega) hr
        refine ⟨m1, by rw [pngPixelRow, if_neg (by decide)]; exact a1, a2, fun x c hx hc => ?_, fun b i hn => a4 b i (by intro h; exact hn ⟨h.1, h.2.1⟩)⟩
        rw [pngColors, if_neg (by decide)] at hc ⊢
        exact a3 x c hx hc
    obtain ⟨m2, b1, b2, b3, b4⟩ := ih (p + img.rowSize) m1 (by rw [a2]; omega) (fun r hr => hl r (List.mem_cons_of_mem _ hr))
    refine ⟨m2, ?_, by rw [b2, a2], fun y r' hr' x c hx hc => ?_, fun b i hn => ?_⟩
    · rw [pngPixels]
      exact (bind_ok a1).trans b1
    · cases y with
      | zero =>
        rw [List.getElem?_cons_zero, Option.some.injEq] at hr'
        subst hr'
        have hcell : x * pngColors gray + c < img.width * pngColors gray := mul_add_lt hx hc
        rw [b4 _ _ (by omega), Nat.zero_mul, Nat.add_zero]
        exact a3 x c hx hc
      | succ y =>
        rw [List.getElem?_cons_succ] at hr'
        rw [b3 y r' hr' x c hx hc, Nat.add_mul y 1, Nat.one_mul, show p + img.rowSize + y * img.rowSize = p + (y * img.rowSize + img.rowSize) by omega]
    · rw [b4 b i (by intro h; exact hn ⟨h.1, by omega⟩), a4 b i hn]

/-! ### JPEG lines -/

theorem jpegRows_ok {img : Image} {m : BMem} {w : Nat} (hb : img.data ≠ 0) : ∀ (n y0 : Nat),
    (∀ y, y < n → img.rowSize * (y0 + y) < 4294967296 ∧ img.rowSize * (y0 + y) + w * img.cc ≤ m.size img.data) →
    ∃ rs, jpegRows img w y0 n m = .ok rs m ∧ rs.length = n ∧
      ∀ y, y < n → rs[y]? = some ((List.range' (img.rowSize * (y0 + y)) (w * img.cc)).map (m.byte img.data)) := by
  intro n
  induction n with
  | zero =>
    intro y0 _
    exact ⟨[], rfl, rfl, fun y hy => absurd hy (Nat.not_lt_zero _)⟩
  | succ n ih =>
    intro y0 hp
    obtain ⟨rs, g1, g2, g3⟩ := ih (y0 + 1) (fun y hy => by
      have := hp (y + 1) (by omega)
      rwa [show y0 + 1 + y = y0 + (y + 1) by omega])
    have h0 := hp 0 (by omega)
    rw [Nat.add_zero] at h0
    refine ⟨(List.range' (img.rowSize * y0) (w * img.cc)).map (m.byte img.data) :: rs, ?_, by rw [List.length_cons, g2], fun y hy => ?_⟩
    · rw [jpegRows, u32_of_lt h0.1, bind_ok (fetch_ok hb _ _ h0.2), bind_ok g1]
      rfl
    · cases y with
      | zero => rfl
      | succ y => rw [List.getElem?_cons_succ, g3 y (by omega), show y0 + 1 + y = y0 + (y + 1) by omega]

theorem jpegLines_ok {img : Image} (hb : img.data ≠ 0) : ∀ (rs : List (List UInt8)) (y0 : Nat) (m : BMem),
    (∀ r ∈ rs, r.length = img.rowSize) → img.rowSize * (y0 + rs.length) < 4294967296 → img.rowSize * (y0 + rs.length) ≤ m.size img.data →
    ∃ m', jpegLines img y0 rs m = .ok () m' ∧ m'.size = m.size ∧
      (∀ y r, rs[y]? = some r → ∀ i, i < img.rowSize → r[i]? = some (m'.byte img.data (img.rowSize * (y0 + y) + i))) ∧
      ∀ b i, ¬ (b = img.data ∧ img.rowSize * y0 ≤ i) → m'.byte b i = m.byte b i := by
  intro rs
  induction rs with
  | nil =>
    intro y0 m _ _ _
    exact ⟨m, rfl, rfl, fun y r hr => by simp at hr, fun _ _ _ => rfl⟩
  | cons r rs ih =>
    intro y0 m hl hs hm
    rw [List.length_cons] at hs hm
    have hr := hl r (List.mem_cons_self ..)
    have hle : img.rowSize * (y0 + 1) ≤ img.rowSize * (y0 + (rs.length + 1)) := Nat.mul_le_mul_left _ (by omega)
    rw [Nat.mul_add _ y0 1, Nat.mul_one] at hle
    obtain ⟨m1, a1, a2, a3, a4⟩ := store_ok hb r (img.rowSize * y0) m (by omega)
    obtain ⟨m2, b1, b2, b3, b4⟩ := ih (y0 + 1) m1 (fun r hr => hl r (List.mem_cons_of_mem _ hr))
      (by rwa [show y0 + 1 + rs.length = y0 + (rs.length + 1) by omega]) (by rwa [a2, show y0 + 1 + rs.length = y0 + (rs.length + 1) by omega])
    refine ⟨m2, ?_, by rw [b2, a2], fun y r' hr' i hi => ?_, fun b i hn => ?_⟩
    · rw [jpegLines, u32_of_lt (by omega)]
      exact (bind_ok a1).trans b1
    · cases y with
      | zero =>
        rw [List.getElem?_cons_zero, Option.some.injEq] at hr'
        subst hr'
        rw [Nat.add_zero, b4 _ _ (by rw [Nat.mul_add, Nat.mul_one]; omega)]
        exact a3 i (by omega)
      | succ y =>
        rw [List.getElem?_cons_succ] at hr'
        rw [b3 y r' hr' i hi, show y0 + 1 + y = y0 + (y + 1) by omega]
    · rw [b4 b i (by intro h; refine hn ⟨h.1, ?_⟩; have := h.2; rw [Nat.mul_add, Nat.mul_one] at this; omega), a4 b i (by intro h; exact hn ⟨h.1, h.2.1⟩)]

/-- Whatever the height is, no line is stored behind the first 4 GiB. -/
theorem jpegLines_low {img : Image} : ∀ (rs : List (List UInt8)) (y0 : Nat) (m : BMem), img.data ≠ 0 → (∀ r ∈ rs, r.length = img.rowSize) →
    4294967296 + img.rowSize ≤ m.size img.data → ∃ m', jpegLines img y0 rs m = .ok () m' ∧ m'.size = m.size ∧
      ∀ b i, ¬ (b = img.data ∧ i < 4294967296 + img.rowSize) → m'.byte b i = m.byte b i := by
  intro rs
  induction rs with
  | nil =>
    intro y0 m _ _ _
    exact ⟨m, rfl, rfl, fun _ _ _ => rfl⟩
  | cons r rs ih =>
    intro y0 m hb hl hm
    have hr := hl r (List.mem_cons_self ..)
    have hu : u32 (img.rowSize * y0) < 4294967296 := Nat.mod_lt _ (by decide)
    obtain ⟨m1, a1, a2, a3, a4⟩ := store_ok hb r (u32 (img.rowSize * y0)) m (by omega)
    obtain ⟨m2, b1, b2, b3⟩ := ih (y0 + 1) m1 hb (fun r hr => hl r (List.mem_cons_of_mem _ hr)) (by rwa [a2])
    refine ⟨m2, ?_, by rw [b2, a2], fun b i hn => ?_⟩
    · rw [jpegLines]
      exact (bind_ok a1).trans b1
    · rw [b3 b i hn, a4 b i (by intro h; exact hn ⟨h.1, by omega⟩)]

end PV.Props
