import Verif.PropsBmp
/-
  Lemmas about loading any file as a bitmap: the conversion of 256-colour images and the pixels read.
-/
namespace PV.Bmp
open PV PV.Raw PV.Props

theorem ptr_nat {μ α : Type} {p : Int} (n : Nat) (h : p = n) (f : Nat → M μ α) : ptr p f = f n := by
  rw [ptr, h, if_neg (by omega), Int.toNat_natCast]

/-- Byte `c` of colour `v` of a pallete. Not in the code: for statements and proofs. -/
def colour (pal : List UInt8) (v : UInt8) (c : Nat) : UInt8 := pal.getD (4 * v.toNat + c) 0

theorem pallete_get {μ : Type} {pal : List UInt8} (hp : pal.length = 1024) (v : UInt8) {c : Nat} (hc : c < 4) (m : μ) :
    orUb pal[v.toNat * 4 + c]? m = .ok (colour pal v c) m := by
  have hv := v.toNat_lt
  have hlt : v.toNat * 4 + c < pal.length := by omega
  rw [colour, List.getD_eq_getElem?_getD, show 4 * v.toNat + c = v.toNat * 4 + c by omega, List.getElem?_eq_getElem hlt]
  rfl

theorem convertPixel_ok {b I O : Nat} {pal : List UInt8} {m : BMem} (hb : b ≠ 0) (hp : pal.length = 1024) (hI : I < m.size b) (hO : O + 3 ≤ m.size b) :
    ∃ m', convertPixel b pal (I : Int) (O : Int) m = .ok () m' ∧ m'.size = m.size ∧
      (∀ c, c < 3 → m'.byte b (O + c) = colour pal (m.byte b I) c) ∧ ∀ b' i, ¬ (b' = b ∧ O ≤ i ∧ i < O + 3) → m'.byte b' i = m.byte b' i := by
  have g0 := pallete_get (μ := BMem) hp (m.byte b I) (c := 0) (by omega)
  have g1 := pallete_get (μ := BMem) hp (m.byte b I) (c := 1) (by omega)
  have g2 := pallete_get (μ := BMem) hp (m.byte b I) (c := 2) (by omega)
  refine ⟨((m.set b O (colour pal (m.byte b I) 0)).set b (O + 1) (colour pal (m.byte b I) 1)).set b (O + 2) (colour pal (m.byte b I) 2), ?_, ?_, fun c hc => ?_,
    fun b' i hn => ?_⟩
  · rw [convertPixel, ptr_nat I rfl, bind_ok (readC_ok ⟨hb, hI⟩)]
    refine (bind_ok (g0 _)).trans ?_
    rw [ptr_nat O rfl]
    refine (bind_ok (writeC_ok _ ⟨hb, by omega⟩)).trans ?_
    refine (bind_ok (g1 _)).trans ?_
    rw [ptr_nat (O + 1) (by omega)]
    refine (bind_ok (writeC_ok _ ⟨hb, by rw [Mem.set_size]; omega⟩)).trans ?_
    refine (bind_ok (g2 _)).trans ?_
    rw [ptr_nat (O + 2) (by omega)]
    exact writeC_ok _ ⟨hb, by rw [Mem.set_size, Mem.set_size]; omega⟩
  · rw [Mem.set_size, Mem.set_size, Mem.set_size]
  · have h3 : c = 0 ∨ c = 1 ∨ c = 2 := by omega
    rcases h3 with rfl | rfl | rfl
    · rw [Mem.set_other _ _ (by omega), Mem.set_other _ _ (by omega)]
      exact Mem.set_same ..
    · rw [Mem.set_other _ _ (by omega)]
      exact Mem.set_same ..
    · exact Mem.set_same ..
  · rw [Mem.set_other _ _ (by omega), Mem.set_other _ _ (by omega), Mem.set_other _ _ (by omega)]

theorem convertRow_ok {b w I O : Nat} {pal : List UInt8} {m : BMem} (hb : b ≠ 0) (hp : pal.length = 1024) (hw : 0 < w) (hw3 : 3 * w < 4294967296)
    (hIO : I ≤ O) (hO : O + 3 * w ≤ m.size b) :
    ∃ m', convertRow b w pal (I : Int) (O : Int) m = .ok () m' ∧ m'.size = m.size ∧
      (∀ x c, x < w → c < 3 → m'.byte b (O + 3 * x + c) = colour pal (m.byte b (I + x)) c) ∧
      ∀ b' i, ¬ (b' = b ∧ O ≤ i ∧ i < O + 3 * w) → m'.byte b' i = m.byte b' i := by
  have e1 : u32 (w + 4294967295) = w - 1 := by rw [u32]; omega
  have e2 : u32 (3 * (w - 1)) = 3 * (w - 1) := u32_of_lt (by omega)
  rw [convertRow, e1, e2]
  obtain ⟨q, _, m', h1, ⟨k, g1, g2, g3, g4, g5⟩, h3⟩ := loop_inv (μ := BMem) (cond := fun q : Int × Int × Bool => !q.2.2)
    (next := fun q => (q.1 - 1, q.2.1 - 3, decide (q.1 = (I : Int)))) (body := fun q _ => convertPixel b pal q.1 q.2.1)
    (fun q (_ : Unit) m1 => ∃ k : Nat, q = ((I : Int) + k - 1, (O : Int) + 3 * k - 3, decide (k = 0)) ∧ k ≤ w ∧ m1.size = m.size ∧
      (∀ x c, k ≤ x → x < w → c < 3 → m1.byte b (O + 3 * x + c) = colour pal (m.byte b (I + x)) c) ∧
      ∀ b' i, ¬ (b' = b ∧ O + 3 * k ≤ i ∧ i < O + 3 * w) → m1.byte b' i = m.byte b' i)
    (fun q => (q.1 - I + 1).toNat) (by
      rintro q _ m1 ⟨k, rfl, hk, g1, g2, g3⟩ hc
      have hk0 : k ≠ 0 := by simpa using hc
      dsimp only
      obtain ⟨k, rfl⟩ : ∃ j, k = j + 1 := ⟨k - 1, by omega⟩
      obtain ⟨m2, a1, a2, a3, a4⟩ := convertPixel_ok (I := I + k) (O := O + 3 * k) (pal := pal) (m := m1) hb hp (by rw [g1]; omega) (by rw [g1]; omega)
      refine ⟨(), m2, ?_, ⟨k, ?_, by omega, a2.trans g1, fun x c hx hxw hc3 => ?_, fun b' i hn => ?_⟩, by omega⟩
      · rw [show (I : Int) + ((k + 1 : Nat) : Int) - 1 = ((I + k : Nat) : Int) by omega, show (O : Int) + 3 * ((k + 1 : Nat) : Int) - 3 = ((O + 3 * k : Nat) : Int) by omega]
        exact a1
      · rw [show (I : Int) + ((k + 1 : Nat) : Int) - 1 - 1 = (I : Int) + k - 1 by omega, show (O : Int) + 3 * ((k + 1 : Nat) : Int) - 3 - 3 = (O : Int) + 3 * k - 3 by omega]
        have : decide ((I : Int) + ((k + 1 : Nat) : Int) - 1 = (I : Int)) = decide (k = 0) := by
          rw [decide_eq_decide]
          omega
        rw [this]
      · by_cases hxk : x = k
        · rw [hxk, a3 c hc3, g3 b (I + k) (by omega)]
        · rw [a4 b _ (by omega), g2 x c (by omega) hxw hc3]
      · rw [a4 b' i (by omega), g3 b' i (by omega)])
    fuelMax ((I : Int) + ((w - 1 : Nat) : Int), (O : Int) + ((3 * (w - 1) : Nat) : Int), false) () m (by
      rw [fuelMax]
      dsimp only
      omega)
    ⟨w, by
      rw [show (I : Int) + ((w - 1 : Nat) : Int) = (I : Int) + w - 1 by omega, show (O : Int) + ((3 * (w - 1) : Nat) : Int) = (O : Int) + 3 * w - 3 by omega,
        show decide (w = 0) = false by rw [decide_eq_false_iff_not]; omega], by omega, rfl, fun x c h1 h2 => by omega, fun _ _ _ => rfl⟩
  have hk : k = 0 := by
    rw [g1] at h3
    simpa using h3
  subst hk
  exact ⟨m', h1, g3, fun x c hx hc => g4 x c (by omega) hx hc, fun b' i hn => g5 b' i (by omega)⟩

theorem convert256_ok {img : Image} {rs : Nat} {pal : List UInt8} {m : BMem} (hb : img.data ≠ 0) (hp : pal.length = 1024) (hw : 0 < img.width)
    (hh : 0 < img.height) (h1 : img.width ≤ rs) (h2 : rs ≤ img.rowSize) (h3 : 3 * img.width ≤ img.rowSize) (hs : img.rowSize * img.height < 4294967296)
    (hsz : img.rowSize * img.height ≤ m.size img.data) :
    ∃ m', convert256 img rs pal m = .ok () m' ∧ m'.size = m.size ∧
      (∀ y x c, 0 < y → y < img.height → x < img.width → c < 3 →
        m'.byte img.data (y * img.rowSize + 3 * x + c) = colour pal (m.byte img.data (y * rs + x)) c) ∧
      (∀ i, i < img.rowSize → m'.byte img.data i = m.byte img.data i) ∧ ∀ b' i, b' ≠ img.data → m'.byte b' i = m.byte b' i := by
  obtain ⟨b, w, h, cc, R⟩ := img
  dsimp only at hb hw hh h1 h2 h3 hs hsz ⊢
  have hR : R * (h - 1) + R = R * h := by
    have : h = (h - 1) + 1 := by omega
    conv_rhs => rw [this, Nat.mul_add, Nat.mul_one]
  have hrs : rs * (h - 1) ≤ R * (h - 1) := Nat.mul_le_mul_right _ h2
  rw [convert256]
  dsimp only
  rw [u32_of_lt (n := rs * (h - 1)) (by omega), u32_of_lt (n := R * (h - 1)) (by omega)]
  obtain ⟨q, _, m', e1, ⟨k, g1, g2, g3, g4, g5, g6⟩, e3⟩ := loop_inv (μ := BMem) (cond := fun q : Int × Int => decide (q.1 ≠ 0))
    (next := fun q => (q.1 - (rs : Int), q.2 - (R : Int))) (body := fun q _ => convertRow b w pal q.1 q.2)
    (fun q (_ : Unit) m1 => ∃ k : Nat, q = (((k * rs : Nat) : Int), ((k * R : Nat) : Int)) ∧ k ≤ h - 1 ∧ m1.size = m.size ∧
      (∀ y x c, k < y → y < h → x < w → c < 3 → m1.byte b (y * R + 3 * x + c) = colour pal (m.byte b (y * rs + x)) c) ∧
      (∀ i, i < (k + 1) * R → m1.byte b i = m.byte b i) ∧ ∀ b' i, b' ≠ b → m1.byte b' i = m.byte b' i)
    (fun q => q.1.toNat) (by
      rintro q _ m1 ⟨k, rfl, hk, g1, g2, g3, g4⟩ hc
      dsimp only at hc ⊢
      have hk0 : k ≠ 0 := by
        rintro rfl
        simp at hc
      obtain ⟨k, rfl⟩ : ∃ j, k = j + 1 := ⟨k - 1, by omega⟩
      have l0 : (k + 1) * rs ≤ (k + 1) * R := Nat.mul_le_mul_left _ h2
      have l1 : (k + 1 + 1) * R ≤ h * R := Nat.mul_le_mul_right _ (by omega)
      have l2 : (k + 1 + 1) * R = (k + 1) * R + R := by rw [Nat.add_mul (k + 1), Nat.one_mul]
      have l3 : (k + 1) * rs = k * rs + rs := by rw [Nat.add_mul, Nat.one_mul]
      have l4 : (k + 1) * R = k * R + R := by rw [Nat.add_mul, Nat.one_mul]
      have l5 : h * R = R * h := Nat.mul_comm _ _
      obtain ⟨m2, a1, a2, a3, a4⟩ := convertRow_ok (b := b) (w := w) (I := (k + 1) * rs) (O := (k + 1) * R) (pal := pal) (m := m1) hb hp hw (by omega) l0
        (by rw [g1]; omega)
      refine ⟨(), m2, a1, ⟨k, ?_, by omega, a2.trans g1, fun y x c hy hyh hx hc3 => ?_, fun i hi => ?_, fun b' i hn => ?_⟩, by omega⟩
      · rw [show (((k + 1) * rs : Nat) : Int) - (rs : Int) = ((k * rs : Nat) : Int) by omega, show (((k + 1) * R : Nat) : Int) - (R : Int) = ((k * R : Nat) : Int) by omega]
      · by_cases hyk : y = k + 1
        · rw [hyk, a3 x c hx hc3, g3 _ (by omega)]
        · have : (k + 1 + 1) * R ≤ y * R := Nat.mul_le_mul_right _ (by omega)
          rw [a4 b _ (by omega), g2 y x c (by omega) hyh hx hc3]
      · rw [a4 b i (by omega), g3 i (by omega)]
      · rw [a4 b' i (by omega), g4 b' i hn])
    fuelMax (((rs * (h - 1) : Nat) : Int), ((R * (h - 1) : Nat) : Int)) () m (by
      rw [fuelMax]
      dsimp only
      omega)
    ⟨h - 1, by rw [Nat.mul_comm rs, Nat.mul_comm R], by omega, rfl, fun y x c h1 h2 => by omega, fun _ _ => rfl, fun _ _ _ => rfl⟩
  have hk : k = 0 := by
    rw [g1] at e3
    have : (k * rs : Nat) = 0 := by
      by_contra hne
      have := of_decide_eq_false e3
      dsimp only at this
      omega
    rcases Nat.mul_eq_zero.1 this with h | h
    · exact h
    · omega
  subst hk
  exact ⟨m', e1, g3, g4, fun i hi => g5 i (by omega), g6⟩

/-- Where the pixels of an image come from: byte `i` of row `y` of the file rows, or a colour of the pallete.
    Not in the code: for statements and proofs. -/
def pixelOf (bytes : List UInt8) (off rs H cc : Nat) (byPal up : Bool) (pal : List UInt8) (x y c : Nat) : UInt8 :=
  let r := if up then H - 1 - y else y
  if byPal then colour pal (bytes.getD (off + r * rs + x) 0) c else bytes.getD (off + r * rs + x * cc + c) 0

theorem finish_ok {img : Image} {rs : Nat} {pal : List UInt8} {m : BMem} (conv up : Bool) (hb : img.data ≠ 0) (hw : 0 < img.width) (hh : 0 < img.height) (hR : 0 < img.rowSize)
    (hp : conv = true → pal.length = 1024 ∧ img.width ≤ rs ∧ rs ≤ img.rowSize ∧ 3 * img.width ≤ img.rowSize)
    (hs : img.rowSize * img.height < 4294967296) (hsz : img.rowSize * img.height ≤ m.size img.data) :
    ∃ m', finish img rs pal conv up m = .ok () m' ∧ m'.size = m.size ∧
      (conv = true → ∀ y x c, y < img.height → (if up then img.height - 1 - y else y) ≠ 0 → x < img.width → c < 3 →
        m'.byte img.data (y * img.rowSize + 3 * x + c) = colour pal (m.byte img.data ((if up then img.height - 1 - y else y) * rs + x)) c) ∧
      (conv = false → ∀ y i, y < img.height → i < img.rowSize →
        m'.byte img.data (y * img.rowSize + i) = m.byte img.data ((if up then img.height - 1 - y else y) * img.rowSize + i)) ∧
      (conv = true → ∀ i, i < img.rowSize →
        m'.byte img.data ((if up then img.height - 1 else 0) * img.rowSize + i) = m.byte img.data i) ∧
      ∀ b' i, b' ≠ img.data → m'.byte b' i = m.byte b' i := by
  have hh32 : img.height < 4294967296 := by
    have : 1 * img.height ≤ img.rowSize * img.height := Nat.mul_le_mul_right _ hR
    omega
  obtain ⟨m1, a1, a2, a3, a4, a5, a6⟩ : ∃ m1, convertIf conv img rs pal m = .ok () m1 ∧ m1.size = m.size ∧
      (conv = true → ∀ y x c, 0 < y → y < img.height → x < img.width → c < 3 →
        m1.byte img.data (y * img.rowSize + 3 * x + c) = colour pal (m.byte img.data (y * rs + x)) c) ∧
      (conv = false → m1 = m) ∧ (∀ i, i < img.rowSize → m1.byte img.data i = m.byte img.data i) ∧
      ∀ b' i, b' ≠ img.data → m1.byte b' i = m.byte b' i := by
    cases conv with
    | false => exact ⟨m, by rw [convertIf, if_neg (by decide)]; rfl, rfl, fun h => absurd h (by decide), fun _ => rfl, fun _ _ => rfl, fun _ _ _ => rfl⟩
    | true =>
      obtain ⟨p1, p2, p3, p4⟩ := hp rfl
      obtain ⟨m1, a1, a2, a3, a4, a5⟩ := convert256_ok (m := m) hb p1 hw hh p2 p3 p4 hs hsz
      exact ⟨m1, by rw [convertIf, if_pos rfl]; exact a1, a2, fun _ => a3, fun h => absurd h (by decide), a4, a5⟩
  rw [finish]
  cases up with
  | false =>
    rw [if_neg (by decide)]
    refine ⟨m1, (bind_ok a1).trans rfl, a2, fun hc y x c hy hy0 hx hc3 => ?_, fun hc y i hy hi => ?_, fun hc i hi => ?_, a6⟩
    · rw [if_neg (by decide)] at hy0 ⊢
      exact a3 hc y x c (Nat.pos_of_ne_zero hy0) hy hx hc3
    · rw [a4 hc, if_neg (by decide)]
    · rw [if_neg (by decide), Nat.zero_mul, Nat.zero_add]
      exact a5 i hi
  | true =>
    rw [if_pos rfl]
    · obtain ⟨m2, b1, b2, b3, b4⟩ := flipData_ok (img := img) (m := m1) hb (by rw [a2]; exact hsz) hs hh32
      refine ⟨m2, (bind_ok a1).trans b1, b2.trans a2, fun hc y x c hy hy0 hx hc3 => ?_, fun hc y i hy hi => ?_, fun hc i hi => ?_, fun b' i hn => ?_⟩
      · have h3 := (hp hc).2.2.2
        rw [if_pos rfl] at hy0 ⊢
        rw [Nat.add_assoc, b3 y _ hy (by omega), ← Nat.add_assoc]
        exact a3 hc _ x c (Nat.pos_of_ne_zero hy0) (by omega) hx hc3
      · rw [b3 y i hy hi, a4 hc, if_pos rfl]
      · rw [if_pos rfl, b3 _ i (by omega) hi, Nat.sub_self, Nat.zero_mul, Nat.zero_add]
        exact a5 i hi
      · rw [b4 b' i (by intro h; exact hn h.1), a6 b' i hn]

end PV.Bmp
