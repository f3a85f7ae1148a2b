import Verif.BmpAny
/-
  C89: loading any file as bitmap is safe.  C90: the pixels loaded are those of the file.
-/
namespace PV.Props
open PV PV.Raw PV.Bmp

/-! ### What a file says -/

/-- The size of the second header: 12 or 40 -/
def bmpDib (l : List UInt8) : Nat := field 4 14 l

/-- The position of the pixels -/
def bmpStart (l : List UInt8) : Nat := field 4 10 l

def bmpW (l : List UInt8) : Nat := if bmpDib l = 12 then field 2 18 l else field 4 18 l

/-- The height is stored with a sign in the second header of 40 bytes. -/
def bmpH (l : List UInt8) : Nat :=
  if bmpDib l = 12 then field 2 20 l else if field 4 22 l < 2147483648 then field 4 22 l else 4294967296 - field 4 22 l

def bmpPlanes (l : List UInt8) : Nat := if bmpDib l = 12 then field 2 22 l else field 2 26 l

def bmpBits (l : List UInt8) : Nat := if bmpDib l = 12 then field 2 24 l else field 2 28 l

/-- The first row of the file is the lowest one. -/
def bmpUp (l : List UInt8) : Bool := bmpDib l == 12 || decide (field 4 22 l < 2147483648)

/-- The bytes between the headers and the pixels -/
def bmpPal (l : List UInt8) : List UInt8 := (l.drop (14 + bmpDib l)).take (bmpStart l - bmpDib l - 14)

/-- The pixels are numbers of colours: there are 256 colours and colour `i` is not gray of the value `i` for some `i`. -/
def bmpByPal (l : List UInt8) : Bool :=
  bmpBits l == 8 && (bmpPal l).length == 1024 && bmpPal l != (List.range 1024).map fun k => if k % 4 = 3 then 0 else UInt8.ofNat (k / 4)

/-- The number of colour values of a pixel of the image -/
def bmpColours (l : List UInt8) : Nat := if bmpByPal l then 3 else bmpBits l / 8

/-- A bitmap file of the supported kinds -/
structure BmpValid (l : List UInt8) : Prop where
  long : 76 ≤ l.length
  type : field 2 0 l = 0x4D42
  dib : bmpDib l = 12 ∨ bmpDib l = 40
  bits : bmpBits l = 8 ∨ bmpBits l = 24 ∨ bmpBits l = 32
  width : 0 < bmpW l ∧ (bmpDib l = 40 → bmpW l < 2147483648)
  height : 0 < bmpH l
  planes : bmpPlanes l = 1
  start : 14 + bmpDib l ≤ bmpStart l
  size : bmpDib l = 40 → field 4 34 l = 0 ∨ field 4 34 l = bmpLine (bmpW l) (bmpBits l / 8) * bmpH l
  length : l.length = bmpStart l + bmpLine (bmpW l) (bmpBits l / 8) * bmpH l

/-- The height has a negation, the file and rows of four bytes per pixel have less than 4 GiB each. -/
structure BmpTame (l : List UInt8) : Prop where
  sign : bmpDib l = 40 → field 4 22 l ≠ 2147483648
  file : l.length < 4294967296
  small : bmpLine (bmpW l) 4 * bmpH l < 4294967296

/-- The value the file gives to colour `c` of pixel (x, y) -/
def bmpValue (l : List UInt8) (x y c : Nat) : UInt8 :=
  let r := if bmpUp l then bmpH l - 1 - y else y
  if bmpByPal l then (bmpPal l).getD (4 * (l.getD (bmpStart l + r * bmpLine (bmpW l) 1 + x) 0).toNat + c) 0
  else l.getD (bmpStart l + r * bmpLine (bmpW l) (bmpBits l / 8) + x * (bmpBits l / 8) + c) 0

/-! ### Lemmas -/

theorem grayPallete_eq : grayPallete = (List.range 1024).map fun k => if k % 4 = 3 then 0 else UInt8.ofNat (k / 4) := by decide +kernel

/-- The second header as Load sees it -/
def bmpInfo (l : List UInt8) : Dib :=
  if bmpDib l = 12 then .core (coreOf (l.drop 14))
  else if field 4 22 l < 2147483648 then .info { infoOf (l.drop 14) with flipped := true }
  else .info { infoOf (l.drop 14) with biHeight := -(infoOf (l.drop 14)).biHeight, flipped := false }

theorem field_of_take {n o k : Nat} {l : List UInt8} (h : o + n ≤ k) (hk : k ≤ l.length) : field n o (l.take k) = field n o l := by
  have := field_prefix [] h hk
  rwa [List.append_nil] at this

theorem coreOf_take {l : List UInt8} (h : 12 ≤ l.length) : coreOf (l.take 12) = coreOf l := by
  rw [coreOf, coreOf, field_of_take (by omega) h, field_of_take (by omega) h, field_of_take (by omega) h, field_of_take (by omega) h, field_of_take (by omega) h]

theorem infoOf_take {l : List UInt8} (h : 40 ≤ l.length) : infoOf (l.take 40) = infoOf l := by
  rw [infoOf, infoOf, field_of_take (by omega) h, field_of_take (by omega) h, field_of_take (by omega) h, field_of_take (by omega) h, field_of_take (by omega) h,
    field_of_take (by omega) h, field_of_take (by omega) h, field_of_take (by omega) h, field_of_take (by omega) h, field_of_take (by omega) h,
    field_of_take (by omega) h]

theorem toI32_neg_iff {n : Nat} (h : n < 4294967296) : toI32 n < 0 ↔ ¬ n < 2147483648 := by
  rw [toI32]
  split <;> omega

theorem dib_set {l : List UInt8} (hl : 76 ≤ l.length) (hd : bmpDib l = 12 ∨ bmpDib l = 40) (hs : bmpDib l = 40 → field 4 22 l ≠ 2147483648) (d : Disk) :
    Dib.set (bmpDib l) ((l.drop 14).take (bmpDib l)) d = .ok (bmpInfo l) d := by
  have hdl : (l.drop 14).length = l.length - 14 := List.length_drop
  rcases hd with hd | hd
  · rw [bmpInfo, if_pos hd, hd, Dib.set, if_pos rfl]
    refine (bind_ok (coreHeader_set (by rw [List.length_take]; omega) d)).trans ?_
    rw [coreOf_take (by omega)]
    rfl
  · have hn : ¬ bmpDib l = 12 := by omega
    have hs := hs hd
    have h22 : (infoOf (l.drop 14)).biHeight = toI32 (field 4 22 l) := by
      rw [infoOf]
      dsimp only
      rw [field_drop]
    have hlt : field 4 22 l < 4294967296 := field_lt 4 22 l
    rw [bmpInfo, if_neg hn, hd, Dib.set, if_neg (by decide)]
    by_cases h3 : field 4 22 l < 2147483648
    · refine (bind_ok (a := { infoOf (l.drop 14) with flipped := true }) (m' := d) ?_).trans (by rw [if_pos h3]; rfl)
      rw [infoHeader_set (by rw [List.length_take]; omega) d, infoOf_take (by omega), InfoHeader.orient, if_neg (by rw [h22, toI32_neg_iff hlt]; omega)]
      rfl
    · refine (bind_ok (a := { infoOf (l.drop 14) with biHeight := -(infoOf (l.drop 14)).biHeight, flipped := false }) (m' := d) ?_).trans (by rw [if_neg h3]; rfl)
      rw [infoHeader_set (by rw [List.length_take]; omega) d, infoOf_take (by omega), InfoHeader.orient, if_pos (by rw [h22, toI32_neg_iff hlt]; omega), if_neg]
      · rfl
      · rw [h22, toI32, if_neg h3]
        omega

theorem bmpInfo_facts {l : List UInt8} (hd : bmpDib l = 12 ∨ bmpDib l = 40) :
    (bmpInfo l).width = bmpW l ∧ (bmpInfo l).height = bmpH l ∧ (bmpInfo l).colorCount = bmpBits l / 8 % 256 ∧ (bmpInfo l).isFlipped = bmpUp l ∧
    (bmpInfo l).size = bmpDib l ∧ ((bmpInfo l).setColorCount 3).width = bmpW l ∧ ((bmpInfo l).setColorCount 3).height = bmpH l ∧
    ((bmpInfo l).setColorCount 3).colorCount = 3 ∧ ((bmpInfo l).setColorCount 3).isFlipped = bmpUp l := by
  have h18 : field 4 18 l < 4294967296 := field_lt 4 18 l
  have h22 : field 4 22 l < 4294967296 := field_lt 4 22 l
  rcases hd with hd | hd
  · rw [bmpInfo, if_pos hd, bmpW, if_pos hd, bmpH, if_pos hd, bmpBits, if_pos hd, bmpUp, hd]
    simp only [Dib.width, Dib.height, Dib.colorCount, Dib.isFlipped, Dib.size, Dib.setColorCount, coreOf, field_drop]
    refine ⟨trivial, trivial, trivial, rfl, trivial, trivial, trivial, ?_, rfl⟩
    decide
  · have hn : ¬ bmpDib l = 12 := by omega
    have e1 : ofI32 (toI32 (field 4 18 l)) = field 4 18 l := by
      rw [toI32, ofI32]
      split <;> omega
    rw [bmpInfo, if_neg hn, bmpW, if_neg hn, bmpH, if_neg hn, bmpBits, if_neg hn, bmpUp, hd]
    by_cases h3 : field 4 22 l < 2147483648
    · have e2 : ofI32 (toI32 (field 4 22 l)) = field 4 22 l := by
        rw [toI32, ofI32]
        split <;> omega
      rw [if_pos h3, if_pos h3]
      simp only [Dib.width, Dib.height, Dib.colorCount, Dib.isFlipped, Dib.size, Dib.setColorCount, infoOf, field_drop, e1, e2, h3]
      refine ⟨trivial, trivial, trivial, rfl, trivial, trivial, trivial, ?_, rfl⟩
      decide
    · have e2 : ofI32 (-toI32 (field 4 22 l)) = 4294967296 - field 4 22 l := by
        rw [toI32, ofI32]
        split <;> omega
      rw [if_neg h3, if_neg h3]
      simp only [Dib.width, Dib.height, Dib.colorCount, Dib.isFlipped, Dib.size, Dib.setColorCount, infoOf, field_drop, e1, e2, h3]
      refine ⟨trivial, trivial, trivial, rfl, trivial, trivial, trivial, ?_, rfl⟩
      decide

/-- The parts of `BmpValid` besides sizes -/
structure Basics (l : List UInt8) : Prop where
  bits : bmpBits l = 8 ∨ bmpBits l = 24 ∨ bmpBits l = 32
  width : 0 < bmpW l ∧ (bmpDib l = 40 → bmpW l < 2147483648)
  height : 0 < bmpH l
  planes : bmpPlanes l = 1
  start : 14 + bmpDib l ≤ bmpStart l

theorem validate_core {l : List UInt8} (hd : bmpDib l = 12) : (bmpInfo l).validate (fileOf l) = false ↔ Basics l := by
  have e0 : (coreOf (l.drop 14)).bcSize = 12 := by
    rw [coreOf]
    dsimp only
    rw [field_drop]
    exact hd
  have e1 : (coreOf (l.drop 14)).bcWidth = bmpW l := by
    rw [bmpW, if_pos hd, coreOf]
    dsimp only
    rw [field_drop]
  have e2 : (coreOf (l.drop 14)).bcHeight = bmpH l := by
    rw [bmpH, if_pos hd, coreOf]
    dsimp only
    rw [field_drop]
  have e3 : (coreOf (l.drop 14)).bcPlanes = bmpPlanes l := by
    rw [bmpPlanes, if_pos hd, coreOf]
    dsimp only
    rw [field_drop]
  have e4 : (coreOf (l.drop 14)).bcBitCount = bmpBits l := by
    rw [bmpBits, if_pos hd, coreOf]
    dsimp only
    rw [field_drop]
  have e5 : (fileOf l).bfOffBits = bmpStart l := rfl
  rw [bmpInfo, if_pos hd, Dib.validate, e0, e1, e2, e3, e4, e5]
  simp only [Bool.or_eq_false_iff, Bool.not_eq_false', Bool.or_eq_true, beq_iff_eq, beq_eq_false_iff_ne, bne_eq_false_iff_eq, decide_eq_false_iff_not]
  constructor
  · rintro ⟨⟨⟨⟨⟨a1, a2⟩, a3⟩, a4⟩, a5⟩, a6⟩
    exact ⟨by omega, ⟨by omega, fun h => by omega⟩, by omega, a5, by omega⟩
  · rintro ⟨a1, ⟨a2, a3⟩, a4, a5, a6⟩
    exact ⟨⟨⟨⟨⟨by omega, by omega⟩, by omega⟩, trivial⟩, a5⟩, by omega⟩

theorem validate_info {l : List UInt8} (hd : bmpDib l = 40) :
    (bmpInfo l).validate (fileOf l) = false ↔ Basics l ∧ (field 4 34 l = 0 ∨ field 4 34 l = u32 (aligned (u32 (bmpW l * (bmpBits l / 8 % 256))) * bmpH l)) := by
  have hn : ¬ bmpDib l = 12 := by omega
  have h18 : field 4 18 l < 4294967296 := field_lt 4 18 l
  have h22 : field 4 22 l < 4294967296 := field_lt 4 22 l
  have e0 : (infoOf (l.drop 14)).biSize = 40 := by
    rw [infoOf]
    dsimp only
    rw [field_drop]
    exact hd
  have e1 : (infoOf (l.drop 14)).biWidth = toI32 (bmpW l) := by
    rw [bmpW, if_neg hn, infoOf]
    dsimp only
    rw [field_drop]
  have e2 : (infoOf (l.drop 14)).biHeight = toI32 (field 4 22 l) := by
    rw [infoOf]
    dsimp only
    rw [field_drop]
  have e3 : (infoOf (l.drop 14)).biPlanes = bmpPlanes l := by
    rw [bmpPlanes, if_neg hn, infoOf]
    dsimp only
    rw [field_drop]
  have e4 : (infoOf (l.drop 14)).biBitCount = bmpBits l := by
    rw [bmpBits, if_neg hn, infoOf]
    dsimp only
    rw [field_drop]
  have e5 : (fileOf l).bfOffBits = bmpStart l := rfl
  have e6 : (infoOf (l.drop 14)).biSizeImage = field 4 34 l := by
    rw [infoOf]
    dsimp only
    rw [field_drop]
  have w1 : ofI32 (toI32 (bmpW l)) = bmpW l := by
    rw [bmpW, if_neg hn, toI32, ofI32]
    split <;> omega
  have w2 : toI32 (bmpW l) ≤ 0 ↔ ¬ (0 < bmpW l ∧ bmpW l < 2147483648) := by
    rw [bmpW, if_neg hn, toI32]
    split <;> omega
  rw [bmpInfo, if_neg hn]
  have fin : ∀ z : Int, ofI32 z = bmpH l → (z ≤ 0 ↔ ¬ 0 < bmpH l) →
      ((!(bmpBits l == 8 || bmpBits l == 24 || bmpBits l == 32) || decide (toI32 (bmpW l) ≤ 0) || decide (z ≤ 0) || 40 != 40
      || (field 4 34 l != u32 (aligned (u32 (ofI32 (toI32 (bmpW l)) * (bmpBits l / 8 % 256))) * ofI32 z) && field 4 34 l != 0)
      || bmpPlanes l != 1 || decide (bmpStart l < 54)) = false ↔
      Basics l ∧ (field 4 34 l = 0 ∨ field 4 34 l = u32 (aligned (u32 (bmpW l * (bmpBits l / 8 % 256))) * bmpH l))) := by
    intro z hz hz0
    rw [hz, w1]
    simp only [Bool.or_eq_false_iff, Bool.not_eq_false', Bool.or_eq_true, Bool.and_eq_false_iff, beq_iff_eq, bne_eq_false_iff_eq, decide_eq_false_iff_not, w2, hz0]
    constructor
    · rintro ⟨⟨⟨⟨⟨⟨a1, a2⟩, a3⟩, a4⟩, a5⟩, a6⟩, a7⟩
      exact ⟨⟨by omega, ⟨by omega, fun h => by omega⟩, by omega, a6, by omega⟩, a5.symm⟩
    · rintro ⟨⟨a1, ⟨a2, a3⟩, a4, a5, a6⟩, a7⟩
      have a3 := a3 hd
      exact ⟨⟨⟨⟨⟨⟨by omega, by omega⟩, by omega⟩, trivial⟩, a7.symm⟩, a5⟩, by omega⟩
  by_cases h3 : field 4 22 l < 2147483648
  · rw [if_pos h3, Dib.validate]
    dsimp only
    rw [e0, e1, e2, e3, e4, e5, e6]
    apply fin
    · rw [bmpH, if_neg hn, if_pos h3, toI32, if_pos h3, ofI32]
      omega
    · rw [bmpH, if_neg hn, if_pos h3, toI32, if_pos h3]
      omega
  · rw [if_neg h3, Dib.validate]
    dsimp only
    rw [e0, e1, e2, e3, e4, e5, e6]
    apply fin
    · rw [bmpH, if_neg hn, if_neg h3, toI32, if_neg h3, ofI32]
      omega
    · rw [bmpH, if_neg hn, if_neg h3, toI32, if_neg h3]
      omega

theorem bmpLine_mono (w : Nat) {c : Nat} (hc : c ≤ 4) : bmpLine w c ≤ bmpLine w 4 := by
  have : w * c ≤ w * 4 := Nat.mul_le_mul_left w hc
  rw [bmpLine, bmpLine]
  omega

/-- Sizes of rows and of all pixels -/
theorem line_facts {l : List UInt8} (t : BmpTame l) (hH : 0 < bmpH l) {c : Nat} (hc : c ≤ 4) :
    aligned (u32 (bmpW l * c)) = bmpLine (bmpW l) c ∧ bmpLine (bmpW l) c * bmpH l < 4294967296 := by
  have h1 := bmpLine_mono (bmpW l) hc
  have h2 : bmpLine (bmpW l) c * bmpH l ≤ bmpLine (bmpW l) 4 * bmpH l := Nat.mul_le_mul_right _ h1
  have h3 := t.small
  have h4 : bmpLine (bmpW l) c * 1 ≤ bmpLine (bmpW l) c * bmpH l := Nat.mul_le_mul_left _ hH
  exact ⟨aligned_eq (by omega), by omega⟩

theorem valid_iff {l : List UInt8} (hl : 76 ≤ l.length) (ht : field 2 0 l = 0x4D42) (ho : bmpStart l < l.length) (hd : bmpDib l = 12 ∨ bmpDib l = 40) (t : BmpTame l) :
    ((bmpInfo l).validate (fileOf l) || l.length != u32 (bmpStart l + u32 (aligned (u32 (bmpW l * (bmpBits l / 8 % 256))) * bmpH l))) = false ↔ BmpValid l := by
  have key : Basics l → bmpBits l / 8 % 256 = bmpBits l / 8 ∧
      u32 (aligned (u32 (bmpW l * (bmpBits l / 8))) * bmpH l) = bmpLine (bmpW l) (bmpBits l / 8) * bmpH l ∧
      bmpLine (bmpW l) (bmpBits l / 8) * bmpH l < 4294967296 := by
    intro b
    have hb := b.bits
    obtain ⟨k1, k2⟩ := line_facts t b.height (c := bmpBits l / 8) (by omega)
    rw [k1, u32_of_lt k2]
    exact ⟨by omega, rfl, k2⟩
  have hlen : ∀ n, n < 4294967296 → (l.length = u32 (bmpStart l + n) ↔ l.length = bmpStart l + n) := by
    intro n hn
    have := t.file
    rw [u32]
    omega
  rw [Bool.or_eq_false_iff, bne_eq_false_iff_eq]
  constructor
  · rintro ⟨h1, h2⟩
    have hb : Basics l := by
      rcases hd with hd | hd
      · exact (validate_core hd).1 h1
      · exact ((validate_info hd).1 h1).1
    obtain ⟨k0, k1, k2⟩ := key hb
    rw [k0, k1, hlen _ k2] at h2
    refine ⟨hl, ht, hd, hb.bits, hb.width, hb.height, hb.planes, hb.start, fun h40 => ?_, h2⟩
    have := ((validate_info h40).1 h1).2
    rwa [k0, k1] at this
  · intro v
    have hb : Basics l := ⟨v.bits, v.width, v.height, v.planes, v.start⟩
    obtain ⟨k0, k1, k2⟩ := key hb
    rw [k0, k1, hlen _ k2]
    refine ⟨?_, v.length⟩
    rcases hd with hd | hd
    · exact (validate_core hd).2 hb
    · refine (validate_info hd).2 ⟨hb, ?_⟩
      rw [k0, k1]
      exact v.size hd

theorem row_in {r H L i : Nat} (hr : r < H) (hi : i < L) : r * L + i < L * H := by
  have : (r + 1) * L ≤ H * L := Nat.mul_le_mul_right _ hr
  rw [Nat.add_mul, Nat.one_mul, Nat.mul_comm H] at this
  omega

theorem load_valid {l : List UInt8} {d : Disk} (v : BmpValid l) (t : BmpTame l) (hn : d.next ≠ 0) :
    ∃ d', loadBytes l d = .ok ⟨d.next, bmpW l, bmpH l, bmpColours l, bmpLine (bmpW l) (bmpColours l)⟩ d' ∧ d'.file = d.file ∧ d'.next = d.next + 1 ∧
      d'.mem.size = (fun b => if b = d.next then bmpH l * bmpLine (bmpW l) (bmpColours l) else d.mem.size b) ∧
      (∀ x y c, x < bmpW l → y < bmpH l → c < bmpColours l → (bmpByPal l = true → (if bmpUp l then bmpH l - 1 - y else y) ≠ 0) →
        d'.mem.byte d.next (y * bmpLine (bmpW l) (bmpColours l) + (x * bmpColours l + c)) = bmpValue l x y c) ∧
      (bmpByPal l = true → ∀ i, i < bmpLine (bmpW l) 1 →
        d'.mem.byte d.next ((if bmpUp l then bmpH l - 1 else 0) * bmpLine (bmpW l) 3 + i) = l.getD (bmpStart l + i) 0) ∧
      ∀ b i, b ≠ d.next → d'.mem.byte b i = d.mem.byte b i := by
  obtain ⟨i1, i2, i3, i4, i5, j1, j2, j3, j4⟩ := bmpInfo_facts v.dib
  have hbits := v.bits
  have hccb : bmpBits l / 8 % 256 = bmpBits l / 8 := by omega
  rw [hccb] at i3
  have hcc : bmpBits l / 8 ≤ 4 ∧ 0 < bmpBits l / 8 := by omega
  obtain ⟨k1, k2⟩ := line_facts t v.height hcc.1
  have hlen := v.length
  have hst := v.start
  have hpl : readPallete l (14 + bmpDib l) (bmpStart l - bmpDib l - 14) d = .ok (bmpPal l) d := by
    rw [readPallete_ok (by omega) (by have := t.file; rw [fuelMax]; omega), bmpPal]
  have hpallen : (bmpPal l).length = bmpStart l - bmpDib l - 14 := by
    rw [bmpPal, List.length_take, List.length_drop]
    omega
  have h256 : is256 (bmpInfo l) (bmpPal l) = bmpByPal l := by
    rw [is256, bmpByPal, i3, grayPallete_eq]
    have : (bmpBits l / 8 == 1) = (bmpBits l == 8) := by
      rw [Bool.eq_iff_iff, beq_iff_eq, beq_iff_eq]
      omega
    rw [this, Bool.and_comm (bmpBits l == 8)]
  have hC : bmpColours l ≤ 4 ∧ 0 < bmpColours l := by
    rw [bmpColours]
    split <;> omega
  obtain ⟨c1, c2⟩ := line_facts t v.height hC.1
  have hge := bmpLine_ge (bmpW l) (bmpColours l)
  have hWC : 1 * bmpColours l ≤ bmpW l * bmpColours l := Nat.mul_le_mul_right _ v.width.1
  have hpal8 : bmpByPal l = true → bmpBits l / 8 = 1 ∧ (bmpPal l).length = 1024 := by
    intro h
    rw [bmpByPal, Bool.and_eq_true, Bool.and_eq_true, beq_iff_eq, beq_iff_eq] at h
    exact ⟨by rw [h.1.1], h.1.2⟩
  have hrs : bmpLine (bmpW l) (bmpBits l / 8) ≤ bmpLine (bmpW l) (bmpColours l) := by
    by_cases h : bmpByPal l = true
    · rw [bmpColours, if_pos h, (hpal8 h).1, bmpLine, bmpLine]
      omega
    · rw [bmpColours, if_neg h]
  have htot : bmpLine (bmpW l) (bmpBits l / 8) * bmpH l ≤ bmpLine (bmpW l) (bmpColours l) * bmpH l := Nat.mul_le_mul_right _ hrs
  have hu64 : u64 (bmpLine (bmpW l) (bmpBits l / 8) * bmpH l) = bmpLine (bmpW l) (bmpBits l / 8) * bmpH l := u64_of_lt (by omega)
  have hfm : fuelMax = 18446744073709551616 := rfl
  obtain ⟨d1, p1, p2, p3, p4, p5, p6⟩ := readPixels_ok (b := d.next) (pos := bmpStart l) (total := bmpLine (bmpW l) (bmpBits l / 8) * bmpH l) hn l
    { d with mem := { d.mem with size := fun b => if b = d.next then bmpH l * bmpLine (bmpW l) (bmpColours l) else d.mem.size b }, next := d.next + 1 }
    (by dsimp only; rw [if_pos rfl, Nat.mul_comm (bmpH l)]; exact htot) (by omega)
  have hsz : d1.mem.size d.next = bmpLine (bmpW l) (bmpColours l) * bmpH l := by
    rw [p4]
    dsimp only
    rw [if_pos rfl, Nat.mul_comm (bmpH l)]
  have hbyte : ∀ i, i < bmpLine (bmpW l) (bmpBits l / 8) * bmpH l → d1.mem.byte d.next i = l.getD (bmpStart l + i) 0 := by
    intro i hi
    apply p5 i hi
    rw [List.getD_eq_getElem?_getD, List.getElem?_eq_getElem (by omega)]
    rfl
  obtain ⟨m2, q1, q2, q3, q4, q5, q6⟩ := finish_ok (img := ⟨d.next, bmpW l, bmpH l, bmpColours l, bmpLine (bmpW l) (bmpColours l)⟩)
    (rs := bmpLine (bmpW l) (bmpBits l / 8)) (pal := bmpPal l) (m := d1.mem) (bmpByPal l) (bmpUp l) hn v.width.1 v.height
    (by dsimp only; omega) (by
      intro h
      have h1 := (hpal8 h).1
      refine ⟨(hpal8 h).2, ?_, hrs, ?_⟩
      · dsimp only
        rw [h1, bmpLine]
        omega
      · dsimp only
        rw [bmpColours, if_pos h, bmpLine]
        omega)
    (by dsimp only; exact c2) (by dsimp only; rw [hsz])
  dsimp only at q1 q2 q3 q4 q5 q6
  refine ⟨{ d1 with mem := m2 }, ?_, p2, p3, ?_, fun x y c hx hy hc hr => ?_, fun h i hi => ?_, fun b i hb => ?_⟩
  · rw [loadBytes_eq v.long, if_neg (by
      rintro (h | h | h)
      · exact h v.type
      · have h4 : 0 < bmpLine (bmpW l) (bmpBits l / 8) * bmpH l := by
          have h5 := bmpLine_ge (bmpW l) (bmpBits l / 8)
          have h6 : 1 * (bmpBits l / 8) ≤ bmpW l * (bmpBits l / 8) := Nat.mul_le_mul_right _ v.width.1
          exact Nat.mul_pos (by omega) v.height
        have : l.length ≤ bmpStart l := h
        omega
      · have := v.dib
        rw [bmpDib] at this
        omega)]
    refine (bind_ok (dib_set v.long v.dib t.sign d)).trans ?_
    have hv := (valid_iff v.long v.type (by
      have h5 := bmpLine_ge (bmpW l) (bmpBits l / 8)
      have h6 : 1 * (bmpBits l / 8) ≤ bmpW l * (bmpBits l / 8) := Nat.mul_le_mul_right _ v.width.1
      have := Nat.mul_pos (show 0 < bmpLine (bmpW l) (bmpBits l / 8) by omega) v.height
      omega) v.dib t).2 v
    rw [hccb] at hv
    have e0 : (fileOf l).bfOffBits = bmpStart l := rfl
    rw [decide2, e0, i1, i2, i3, hv, if_neg (by decide), loadPixels, e0, i1, i3, i5, k1]
    refine (bind_ok hpl).trans ?_
    rw [h256]
    have f1 : (if bmpByPal l = true then (bmpInfo l).setColorCount 3 else bmpInfo l).width = bmpW l := by split <;> assumption
    have f2 : (if bmpByPal l = true then (bmpInfo l).setColorCount 3 else bmpInfo l).height = bmpH l := by split <;> assumption
    have f3 : (if bmpByPal l = true then (bmpInfo l).setColorCount 3 else bmpInfo l).colorCount = bmpColours l := by
      rw [bmpColours]
      split <;> assumption
    have f4 : (if bmpByPal l = true then (bmpInfo l).setColorCount 3 else bmpInfo l).isFlipped = bmpUp l := by split <;> assumption
    rw [f1, f2, f3, f4]
    refine (bind_ok (show newImage4 (bmpW l) (bmpH l) (bmpColours l) d = _ from rfl)).trans ?_
    rw [c1]
    dsimp only
    rw [hu64]
    refine (bind_ok p1).trans ?_
    exact (bind_ok (onMem_ok (m := m2) (a := ()) q1)).trans rfl
  · dsimp only
    rw [q2, p4]
  · dsimp only
    have hrow : (if bmpUp l = true then bmpH l - 1 - y else y) < bmpH l := by split <;> omega
    rw [bmpValue]
    obtain ⟨r, hrr⟩ : ∃ r, (if bmpUp l = true then bmpH l - 1 - y else y) = r := ⟨_, rfl⟩
    rw [hrr] at hrow hr ⊢
    by_cases h : bmpByPal l = true
    · have h1 := (hpal8 h).1
      have hC3 : bmpColours l = 3 := by rw [bmpColours, if_pos h]
      have g := q3 h y x c hy (by rw [hrr]; exact hr h) hx (by omega)
      rw [hrr] at g
      rw [if_pos h, show x * bmpColours l + c = 3 * x + c by rw [hC3]; omega, ← Nat.add_assoc, g, colour, hbyte, h1, Nat.add_assoc (bmpStart l)]
      apply row_in hrow
      rw [h1, bmpLine]
      omega
    · have h0 : bmpByPal l = false := by simpa using h
      have hCb : bmpColours l = bmpBits l / 8 := by rw [bmpColours, if_neg h]
      have hi : x * bmpColours l + c < bmpW l * bmpColours l := mul_add_lt hx hc
      have g := q4 h0 y (x * bmpColours l + c) hy (by omega)
      rw [hrr] at g
      rw [if_neg h, g, hbyte, hCb]
      · congr 1
        omega
      · rw [hCb] at hi hge ⊢
        exact row_in hrow (by omega)
  · dsimp only
    have h1 := (hpal8 h).1
    have hC3 : bmpColours l = 3 := by rw [bmpColours, if_pos h]
    have g := q5 h i (by rw [h1] at hrs; omega)
    rw [hC3] at g
    rw [g, hbyte]
    have := row_in (r := 0) v.height hi
    rw [h1]
    omega
  · dsimp only
    rw [q6 b i hb, p6 b i hb]

theorem load_invalid {l : List UInt8} {d : Disk} (v : ¬ BmpValid l) (t : BmpTame l) : loadBytes l d = .ok noImage d := by
  by_cases hl : l.length < 76
  · rw [loadBytes, if_pos hl]
    rfl
  · rw [loadBytes_eq (by omega)]
    by_cases h : field 2 0 l ≠ 0x4D42 ∨ l.length ≤ field 4 10 l ∨ (field 4 14 l ≠ 12 ∧ field 4 14 l ≠ 40)
    · rw [if_pos h]
    · rw [if_neg h]
      have hd : bmpDib l = 12 ∨ bmpDib l = 40 := by
        rw [bmpDib]
        omega
      have ht : field 2 0 l = 0x4D42 := by omega
      have ho : bmpStart l < l.length := by
        rw [bmpStart]
        omega
      obtain ⟨i1, i2, i3, _⟩ := bmpInfo_facts hd
      have hv : ¬ ((bmpInfo l).validate (fileOf l) || l.length != u32 (bmpStart l + u32 (aligned (u32 (bmpW l * (bmpBits l / 8 % 256))) * bmpH l))) = false := by
        rw [valid_iff (by omega) ht ho hd t]
        exact v
      refine (bind_ok (dib_set (by omega) hd t.sign d)).trans ?_
      have e0 : (fileOf l).bfOffBits = bmpStart l := rfl
      rw [decide2, e0, i1, i2, i3, if_pos (Bool.not_eq_false _ ▸ hv)]
      rfl

theorem load_file {path : String} {l : List UInt8} {d : Disk} (hp : path ≠ "") (hf : d.file path = some l) : Bmp.Load path d = loadBytes l d := by
  rw [Bmp.Load, show (path == "") = false by simpa using hp, throwIf_false, pure_bind']
  refine (bind_ok (show getFile path d = .ok (d.file path) d from rfl)).trans ?_
  rw [hf]

/-! ### C89 -/

/-- C89: whatever a file contains, Load returns an image without pixels and changes nothing if the file is not a bitmap, and otherwise an image of the
    size the file says in a new block of this size; no other memory and no file changes.  Missing: files of 4 GiB, sizes whose number of bytes is 2^32 or
    more, and a height without negation. -/
theorem C89_partial {path : String} {l : List UInt8} {d : Disk} (hp : path ≠ "") (hf : d.file path = some l) (hn : d.next ≠ 0) (t : BmpTame l) :
    (¬ BmpValid l → Bmp.Load path d = .ok noImage d) ∧
    (BmpValid l → ∃ img d', Bmp.Load path d = .ok img d' ∧ img.data = d.next ∧ img.width = bmpW l ∧ img.height = bmpH l ∧ img.cc = bmpColours l ∧ img.WF d'.mem ∧
      d'.mem.size d.next = img.rowSize * img.height ∧ d'.next = d.next + 1 ∧ d'.file = d.file ∧
      (∀ b, b ≠ d.next → d'.mem.size b = d.mem.size b) ∧ ∀ b i, b ≠ d.next → d'.mem.byte b i = d.mem.byte b i) := by
  rw [load_file hp hf]
  refine ⟨fun v => load_invalid v t, fun v => ?_⟩
  obtain ⟨d', h1, h2, h3, h4, h5, h6, h7⟩ := load_valid (d := d) v t hn
  have hC : bmpColours l ≤ 4 := by
    have := v.bits
    rw [bmpColours]
    split <;> omega
  have hsz : d'.mem.size d.next = bmpLine (bmpW l) (bmpColours l) * bmpH l := by
    rw [h4]
    dsimp only
    rw [if_pos rfl, Nat.mul_comm]
  refine ⟨_, d', h1, rfl, rfl, rfl, rfl, ⟨(bmpLine_ge _ _).1, by dsimp only; rw [hsz], ?_⟩, hsz, h3, h2, fun b hb => ?_, h7⟩
  · dsimp only
    exact (line_facts t v.height hC).2
  · rw [h4]
    dsimp only
    rw [if_neg hb]

/-! ### C90 -/

/-- C90: colour `c` of pixel (x, y) of the image loaded is what the file says: a byte of the file or, for 256-colour images, a byte of the pallete.  Missing:
    the first row in the file of a 256-colour image, see C90_wrong. -/
theorem C90_partial {path : String} {l : List UInt8} {d : Disk} (hp : path ≠ "") (hf : d.file path = some l) (hn : d.next ≠ 0) (t : BmpTame l) (v : BmpValid l) :
    ∃ img d', Bmp.Load path d = .ok img d' ∧ img.width = bmpW l ∧ img.height = bmpH l ∧ img.cc = bmpColours l ∧
      ∀ x y c, x < bmpW l → y < bmpH l → c < bmpColours l → (bmpByPal l = true → (if bmpUp l then bmpH l - 1 - y else y) ≠ 0) →
        View.get ⟨img, 0, 0⟩ d'.mem x y c = bmpValue l x y c := by
  rw [load_file hp hf]
  obtain ⟨d', h1, h2, h3, h4, h5, h6, h7⟩ := load_valid (d := d) v t hn
  refine ⟨_, d', h1, rfl, rfl, rfl, fun x y c hx hy hc hr => ?_⟩
  rw [← h5 x y c hx hy hc hr, View.get, View.cell]
  dsimp only
  rw [Nat.zero_add, Nat.zero_add, Nat.add_assoc]

/-- C90 is false for the first row in the file of every 256-colour image: its bytes, the numbers of the colours, become colours of the first pixels of the row. -/
theorem C90_wrong {path : String} {l : List UInt8} {d : Disk} (hp : path ≠ "") (hf : d.file path = some l) (hn : d.next ≠ 0) (t : BmpTame l) (v : BmpValid l)
    (h : bmpByPal l = true) :
    ∃ img d', Bmp.Load path d = .ok img d' ∧
      ∀ x c, c < 3 → 3 * x + c < bmpW l →
        View.get ⟨img, 0, 0⟩ d'.mem x (if bmpUp l then bmpH l - 1 else 0) c = l.getD (bmpStart l + (3 * x + c)) 0 := by
  rw [load_file hp hf]
  obtain ⟨d', h1, h2, h3, h4, h5, h6, h7⟩ := load_valid (d := d) v t hn
  have hC3 : bmpColours l = 3 := by rw [bmpColours, if_pos h]
  refine ⟨_, d', h1, fun x c hc hx => ?_⟩
  rw [← h6 h (3 * x + c) (by rw [bmpLine]; omega), View.get, View.cell]
  dsimp only
  rw [Nat.zero_add, Nat.zero_add, hC3, Nat.mul_comm x 3, Nat.add_assoc]

/-! ### Examples -/

/-- The headers of a file: height as stored, bits, position of the pixels -/
def bmpHeaders (w h bits start : Nat) : List UInt8 :=
  le 2 0x4D42 ++ le 4 0 ++ le 4 0 ++ le 4 start ++ le 4 40 ++ le 4 w ++ le 4 h ++ le 2 1 ++ le 2 bits ++ List.replicate 24 0

/-- Three colours, 2 x 3 pixels, first row first -/
def bmpDown : List UInt8 := bmpHeaders 2 4294967293 24 54 ++ (List.range 24).map UInt8.ofNat

instance (l : List UInt8) : Decidable (BmpValid l) :=
  decidable_of_iff (76 ≤ l.length ∧ field 2 0 l = 0x4D42 ∧ (bmpDib l = 12 ∨ bmpDib l = 40) ∧ (bmpBits l = 8 ∨ bmpBits l = 24 ∨ bmpBits l = 32) ∧
    (0 < bmpW l ∧ (bmpDib l = 40 → bmpW l < 2147483648)) ∧ 0 < bmpH l ∧ bmpPlanes l = 1 ∧ 14 + bmpDib l ≤ bmpStart l ∧
    (bmpDib l = 40 → field 4 34 l = 0 ∨ field 4 34 l = bmpLine (bmpW l) (bmpBits l / 8) * bmpH l) ∧
    l.length = bmpStart l + bmpLine (bmpW l) (bmpBits l / 8) * bmpH l)
    ⟨fun ⟨a, b, c, d, e, f, g, h, i, j⟩ => ⟨a, b, c, d, e, f, g, h, i, j⟩, fun ⟨a, b, c, d, e, f, g, h, i, j⟩ => ⟨a, b, c, d, e, f, g, h, i, j⟩⟩

instance (l : List UInt8) : Decidable (BmpTame l) :=
  decidable_of_iff ((bmpDib l = 40 → field 4 22 l ≠ 2147483648) ∧ l.length < 4294967296 ∧ bmpLine (bmpW l) 4 * bmpH l < 4294967296)
    ⟨fun ⟨a, b, c⟩ => ⟨a, b, c⟩, fun ⟨a, b, c⟩ => ⟨a, b, c⟩⟩

theorem bmpDown_valid : BmpValid bmpDown ∧ BmpTame bmpDown ∧ bmpUp bmpDown = false ∧ bmpW bmpDown = 2 ∧ bmpH bmpDown = 3 ∧ bmpValue bmpDown 1 2 0 = 19 := by
  decide +kernel

/-- 256 colours, 4 x 2 pixels: colour `k` is (k, 255 - k, 7) -/
def bmp256 : List UInt8 :=
  bmpHeaders 4 2 8 1078 ++ (List.range 256).flatMap (fun k => [UInt8.ofNat k, UInt8.ofNat (255 - k), 7, 0]) ++ [10, 11, 12, 13, 20, 21, 22, 23]

theorem bmp256_valid : BmpValid bmp256 ∧ BmpTame bmp256 ∧ bmpByPal bmp256 = true ∧ bmpUp bmp256 = true ∧
    (List.range 3).map (bmpValue bmp256 1 0) = [21, 234, 7] ∧ (List.range 3).map (bmpValue bmp256 1 1) = [11, 244, 7] := by
  decide +kernel

/-- A file and what Load makes of it: the image and its first bytes; `none` is undefined behaviour. -/
def bmpLoaded (l : List UInt8) (n : Nat) : Option (Image × List UInt8) :=
  match Bmp.Load "a" ⟨bmpMem, 3, fun p => if p = "a" then some l else none⟩ with
  | .ok i d => some (i, bytesOf d.mem 3 n)
  | _ => none

/-- The first row of the image is right, the second one (the first of the file) are the numbers of the colours. -/
theorem bmp256_loaded : bmpLoaded bmp256 24
    = some (⟨3, 4, 2, 3, 12⟩, [20, 235, 7, 21, 234, 7, 22, 233, 7, 23, 232, 7, 10, 11, 12, 13, 20, 21, 22, 23, 18, 19, 20, 21]) := by
  decide +kernel

/-- A file whose height is -2^31 -/
def bmpMin : List UInt8 := bmpHeaders 1 2147483648 32 54 ++ List.replicate 30 0

/-- A file of 78 bytes whose number of pixels is above 2^30 -/
def bmpHuge : List UInt8 := bmpHeaders 1 1073741830 32 54 ++ List.replicate 24 0

/-- C89 is false: the negation of a height is undefined, and the number of bytes is computed with 32 bits, so that a file of 78 bytes is taken for an image
    of 4 GiB and turned upside down outside of its block. -/
theorem C89_wrong_min : isUb (Bmp.Load "a" ⟨bmpMem, 3, fun p => if p = "a" then some bmpMin else none⟩) = true := by
  decide +kernel

theorem C89_wrong_huge : isUb (Bmp.Load "a" ⟨bmpMem, 3, fun p => if p = "a" then some bmpHuge else none⟩) = true := by
  decide +kernel

end PV.Props
