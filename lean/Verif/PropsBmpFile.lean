import Verif.PropsBmpAny
/-
  C186: the bytes of saved bitmap files.
-/
namespace PV.Props
open PV PV.Raw PV.Bmp

/-! ### What a file has to contain -/

/-- The number in `n` bytes from place `o` on, the lowest byte first -/
def numberAt (l : List UInt8) : Nat → Nat → Nat
  | _, 0 => 0
  | o, n + 1 => (l.getD o 0).toNat + 256 * numberAt l (o + 1) n

/-- Bytes before the pixels: 14 and 40 bytes of headers and, for gray-scale images, 256 colours of four bytes -/
def startOf (cc : Nat) : Nat := if cc = 1 then 14 + 40 + 4 * 256 else 14 + 40

/-- A row takes the next multiple of four bytes. -/
def IsLine (w cc line : Nat) : Prop := w * cc ≤ line ∧ line < w * cc + 4 ∧ line % 4 = 0

/-- The file is a bitmap of the rectangle, row by row from below. -/
structure BitmapOf (m : BMem) (v : View) (w h : Nat) (l : List UInt8) (line : Nat) : Prop where
  isLine : IsLine w v.img.cc line
  length : l.length = startOf v.img.cc + line * h
  signature : l.take 2 = [0x42, 0x4D]
  fileSize : numberAt l 2 4 = l.length
  reserved : numberAt l 6 4 = 0
  start : numberAt l 10 4 = startOf v.img.cc
  headerSize : numberAt l 14 4 = 40
  width : numberAt l 18 4 = w
  height : numberAt l 22 4 = h
  planes : numberAt l 26 2 = 1
  bits : numberAt l 28 2 = 8 * v.img.cc
  compression : numberAt l 30 4 = 0
  imageSize : numberAt l 34 4 = line * h
  colours : v.img.cc = 1 → ∀ i j, i < 256 → j < 4 → l[54 + 4 * i + j]? = some (if j = 3 then 0 else UInt8.ofNat i)
  pixels : ∀ x y c, x < w → y < h → c < v.img.cc → l[startOf v.img.cc + (h - 1 - y) * line + x * v.img.cc + c]? = some (v.get m x y c)
  padding : ∀ y i, y < h → w * v.img.cc ≤ i → i < line → l[startOf v.img.cc + y * line + i]? = some 0

/-! ### Lemmas -/

theorem numberAt_eq (l : List UInt8) : ∀ n o, o + n ≤ l.length → numberAt l o n = field n o l := by
  intro n
  induction n with
  | zero => intro o _; simp [numberAt, field, word]
  | succ n ih =>
    intro o ho
    rw [numberAt, ih (o + 1) (by omega), field, field, List.drop_eq_getElem_cons (i := o) (l := l) (by omega), List.take_succ_cons, word,
      List.getD, List.getElem?_eq_getElem (by omega), Option.getD_some]

theorem numberAt_zero {l : List UInt8} : ∀ n o, (∀ i, o ≤ i → i < o + n → l.getD i 0 = 0) → numberAt l o n = 0
  | 0, _, _ => rfl
  | n + 1, o, h => by
    rw [numberAt, h o (by omega) (by omega), numberAt_zero n (o + 1) fun i h1 h2 => h i (by omega) (by omega)]
    rfl

theorem startOf_eq (cc : Nat) : startOf cc = bmpOffset cc := rfl

theorem colours_gray : ∀ i j, i < 256 → j < 4 → grayPallete[4 * i + j]? = some (if j = 3 then 0 else UInt8.ofNat i) := by
  have : (List.range 256).all (fun i => (List.range 4).all fun j => grayPallete[4 * i + j]? == some (if j = 3 then 0 else UInt8.ofNat i)) = true := by
    decide +kernel
  intro i j hi hj
  have h1 := List.all_eq_true.1 this i (List.mem_range.2 hi)
  have h2 := List.all_eq_true.1 h1 j (List.mem_range.2 hj)
  exact eq_of_beq h2

theorem rowsBytes_pad {m : BMem} {v : View} {w h diff k i : Nat} : ∀ n, k < n → w * v.img.cc ≤ i → i < w * v.img.cc + diff →
    (rowsBytes m v w h diff n)[k * (w * v.img.cc + diff) + i]? = some 0 := by
  intro n
  induction n with
  | zero => intro hk; exact absurd hk (Nat.not_lt_zero _)
  | succ n ih =>
    intro hk hi hi2
    rw [rowsBytes_succ]
    by_cases e : k = n
    · subst e
      rw [List.getElem?_append_right (by rw [length_rowsBytes]; omega), length_rowsBytes, Nat.add_sub_cancel_left,
        List.getElem?_append_right (by rw [length_rowBytes]; exact hi), length_rowBytes, List.getElem?_replicate, if_pos (by omega)]
    · rw [List.getElem?_append_left, ih (by omega) hi hi2]
      rw [length_rowsBytes]
      have : (k + 1) * (w * v.img.cc + diff) ≤ n * (w * v.img.cc + diff) := Nat.mul_le_mul_right _ (by omega)
      rw [Nat.add_mul, Nat.one_mul] at this
      omega

theorem bmp_tail {m : BMem} {v : View} {w h i : Nat} :
    (bmpBytes m v w h)[54 + i]? = (palleteOf v.img.cc ++ rowsBytes m v w h (bmpLine w v.img.cc - w * v.img.cc) h)[i]? := by
  have e1 : (fileHeaderBytes (fileHeader (palleteOf v.img.cc).length (bmpLine w v.img.cc) h)).length = 14 := length_fileHeaderBytes _
  have e2 : (infoHeaderBytes (infoHeader w h v.img.cc (bmpLine w v.img.cc))).length = 40 := length_infoHeaderBytes _
  rw [bmpBytes, List.getElem?_append_right (by omega), List.getElem?_append_right (by omega), e1, e2]
  congr 1
  omega

theorem bmp_rows {m : BMem} {v : View} {w h i : Nat} :
    (bmpBytes m v w h)[startOf v.img.cc + i]? = (rowsBytes m v w h (bmpLine w v.img.cc - w * v.img.cc) h)[i]? := by
  have hp := length_palleteOf v.img.cc
  rw [startOf_eq, show bmpOffset v.img.cc + i = 54 + (bmpOffset v.img.cc - 54 + i) by omega, bmp_tail, List.getElem?_append_right (by omega)]
  congr 1
  omega

theorem field_info {m : BMem} {v : View} {w h n o : Nat} : field n (14 + o) (bmpBytes m v w h) =
    field n o (infoHeaderBytes (infoHeader w h v.img.cc (bmpLine w v.img.cc)) ++
      (palleteOf v.img.cc ++ rowsBytes m v w h (bmpLine w v.img.cc - w * v.img.cc) h)) := by
  have e : (fileHeaderBytes (fileHeader (palleteOf v.img.cc).length (bmpLine w v.img.cc) h)).length = 14 := length_fileHeaderBytes _
  rw [bmpBytes, field, field, ← List.drop_drop, ← e, List.drop_left]

theorem bitmap_bytes {v : View} {w h : Nat} {d : Disk} (s : Storable v w h d) (hw : w < 2147483648) :
    BitmapOf d.mem v w h (bmpBytes d.mem v w h) (bmpLine w v.img.cc) := by
  obtain ⟨l1, l2, l3⟩ := bmpLine_lt s
  have hge := bmpLine_ge w v.img.cc
  have hlen := length_bmpBytes d.mem v w h
  have hsm := s.small
  have hcc : 1 ≤ v.img.cc ∧ v.img.cc ≤ 4 := by rcases s.fits.colors with h | h | h <;> omega
  have hof : 54 ≤ bmpOffset v.img.cc := by rw [← length_palleteOf]; omega
  obtain ⟨f1, f2, f3⟩ := fields_bmp (m := d.mem) (v := v) (w := w) (h := h)
  have lineEq : w * v.img.cc + (bmpLine w v.img.cc - w * v.img.cc) = bmpLine w v.img.cc := by omega
  have hfs : u32 (u32 (14 + 40 + (palleteOf v.img.cc).length) + u32 (bmpLine w v.img.cc * h)) = bmpOffset v.img.cc + bmpLine w v.img.cc * h := by
    have hp := length_palleteOf v.img.cc
    rw [u32_of_lt (n := bmpLine w v.img.cc * h) (by omega), u32_of_lt (n := 14 + 40 + _) (by omega), u32_of_lt] <;> omega
  refine ⟨⟨hge.1, hge.2, ?_⟩, hlen, ?_, ?_, ?_, ?_, ?_, ?_, ?_, ?_, ?_, ?_, ?_, ?_, ?_, ?_⟩
  · rw [bmpLine]; omega
  · rw [bmpBytes, fileHeaderBytes, List.append_assoc, List.take_left' (length_le 2 _)]
    show le 2 0x4D42 = _
    decide
  · rw [numberAt_eq _ _ _ (by omega), hlen, bmpBytes, fileHeaderBytes, fileHeader, hfs]
    simp only [List.append_assoc]
    rw [field_skip (by decide)]
    exact field_here4 hsm
  · rw [show (4 : Nat) = 2 + 2 from rfl]
    refine numberAt_zero _ _ fun i h1 h2 => ?_
    obtain rfl | rfl | rfl | rfl : i = 6 ∨ i = 7 ∨ i = 8 ∨ i = 9 := by omega
    all_goals
      rw [bmpBytes, fileHeaderBytes, fileHeader]
      simp [le, List.getD]
  · rw [numberAt_eq _ _ _ (by omega), f2]
    rfl
  · rw [numberAt_eq _ _ _ (by omega), f3]
  · rw [numberAt_eq _ _ _ (by omega)]
    refine (field_info (o := 4)).trans ?_
    rw [infoHeaderBytes, infoHeader]
    simp only [List.append_assoc]
    rw [field_skip (by decide)]
    rw [toI32_of_lt hw, ofI32_natCast (by omega), Nat.sub_self]
    exact field_here4 (by omega)
  · rw [numberAt_eq _ _ _ (by omega)]
    refine (field_info (o := 8)).trans ?_
    rw [infoHeaderBytes, infoHeader]
    simp only [List.append_assoc]
    rw [field_skip (by decide), field_skip (by decide)]
    rw [if_pos trivial, toI32_of_lt (n := h) (by omega), ofI32_natCast (by omega)]
    exact field_here4 (by omega)
  · rw [numberAt_eq _ _ _ (by omega)]
    refine (field_info (o := 12)).trans ?_
    rw [infoHeaderBytes, infoHeader]
    simp only [List.append_assoc]
    rw [field_skip (by decide), field_skip (by decide), field_skip (by decide)]
    exact field_here2 (v := 1) (by decide)
  · rw [numberAt_eq _ _ _ (by omega)]
    refine (field_info (o := 14)).trans ?_
    rw [infoHeaderBytes, infoHeader]
    simp only [List.append_assoc]
    rw [field_skip (by decide), field_skip (by decide), field_skip (by decide), field_skip (by decide)]
    rw [show v.img.cc * 8 % 65536 = 8 * v.img.cc by omega]
    exact field_here2 (by omega)
  · rw [numberAt_eq _ _ _ (by omega)]
    refine (field_info (o := 16)).trans ?_
    rw [infoHeaderBytes, infoHeader]
    simp only [List.append_assoc]
    rw [field_skip (by decide), field_skip (by decide), field_skip (by decide), field_skip (by decide), field_skip (by decide)]
    exact field_here4 (v := 0) (by decide)
  · rw [numberAt_eq _ _ _ (by omega)]
    refine (field_info (o := 20)).trans ?_
    rw [infoHeaderBytes, infoHeader]
    simp only [List.append_assoc]
    rw [field_skip (by decide), field_skip (by decide), field_skip (by decide), field_skip (by decide), field_skip (by decide), field_skip (by decide)]
    rw [u32_of_lt (by omega)]
    exact field_here4 (by omega)
  · intro hc i j hi hj
    rw [Nat.add_assoc, bmp_tail, palleteOf, if_pos hc, List.getElem?_append_left (by rw [length_grayPallete]; omega)]
    exact colours_gray i j hi hj
  · intro x y c hx hy hc
    have hi : x * v.img.cc + c < w * v.img.cc := mul_add_lt hx hc
    rw [Nat.add_assoc (_ + _), Nat.add_assoc, bmp_rows]
    have g := rowsBytes_get (m := d.mem) (v := v) (w := w) (h := h) (diff := bmpLine w v.img.cc - w * v.img.cc) (k := h - 1 - y) (i := x * v.img.cc + c)
      h (by omega) hi
    rw [lineEq] at g
    rw [g, show h - 1 - (h - 1 - y) = y by omega, View.get, View.cell, View.cell]
    refine congrArg (fun i => some (d.mem.byte v.img.data i)) ?_
    simp only [Nat.add_zero, Nat.add_mul]
    omega
  · intro y i hy h1 h2
    have g := rowsBytes_pad (m := d.mem) (v := v) (w := w) (h := h) (diff := bmpLine w v.img.cc - w * v.img.cc) (k := y) (i := i) h hy h1 (by omega)
    rw [lineEq] at g
    rw [Nat.add_assoc, bmp_rows, g]

/-- **C186.** Save of a rectangle writes a bitmap file of the rectangle and nothing else, or throws because the file could not be created or has
    no room. Partial: for files below 4 GiB and rectangles narrower than 2^31 pixels (the width is stored with a sign). -/
theorem C186_file_partial {E : Env} {path : String} {v : View} {w h : Nat} {d : Disk} (s : Storable v w h d) (hw : w < 2147483648) :
    (∃ d', Bmp.Save E path v w h d = .throw d' ∧ OnlyFile path d d' ∧
      ∃ line, IsLine w v.img.cc line ∧ (E.creates path = false ∨ E.room path < startOf v.img.cc + line * h)) ∨
    ∃ d' l line, Bmp.Save E path v w h d = .ok () d' ∧ OnlyFile path d d' ∧ d'.file path = some l ∧ BitmapOf d.mem v w h l line := by
  rcases save_bmp (E := E) (path := path) s with ⟨d', a1, a2, a3⟩ | ⟨d', a1, a2, a3⟩
  · exact Or.inr ⟨d', _, _, a1, a2, a3, bitmap_bytes s hw⟩
  · exact Or.inl ⟨d', a1, a2, _, (bitmap_bytes s hw).isLine, a3⟩

/-- **C186.** Wrong rectangles are not saved: the file is not touched. -/
theorem C186_rejects (E : Env) (path : String) {v : View} {w h : Nat} (d : Disk) (hu : v.U32) (hw : w < 4294967296) (hh : h < 4294967296)
    (hf : ¬ v.Fits w h) : Bmp.Save E path v w h d = .throw d := (C58_rejects E path v w h d).1 hu hw hh hf

/-! ### Concrete cases -/

/-- The file which is saved -/
def bmpSaved (v : View) (w h : Nat) : Option (List UInt8) :=
  match Bmp.Save ⟨fun _ => true, fun _ => 5000⟩ "a" v w h bmpDisk with
  | .ok _ d => d.file "a"
  | _ => none

/-- Three colours: 2 x 3 pixels of a wider image -/
example : (∃ d', Bmp.Save ⟨fun _ => true, fun _ => 5000⟩ "a" bmpImg 2 3 bmpDisk = .throw d' ∧ OnlyFile "a" bmpDisk d' ∧
      ∃ line, IsLine 2 3 line ∧ (true = false ∨ 5000 < startOf 3 + line * 3)) ∨
    ∃ d' l line, Bmp.Save ⟨fun _ => true, fun _ => 5000⟩ "a" bmpImg 2 3 bmpDisk = .ok () d' ∧ OnlyFile "a" bmpDisk d' ∧ d'.file "a" = some l ∧
      BitmapOf bmpMem bmpImg 2 3 l line :=
  C186_file_partial (E := ⟨fun _ => true, fun _ => 5000⟩) (path := "a") (v := bmpImg) (d := bmpDisk)
    ⟨⟨by decide, by decide, by decide, by decide, by decide, by decide⟩, ⟨by decide, by decide, by decide⟩, by decide⟩ (by decide)

theorem bmpImg_saved : bmpSaved bmpImg 2 3 = some [66, 77, 78, 0, 0, 0, 0, 0, 0, 0, 54, 0, 0, 0, 40, 0, 0, 0, 2, 0, 0, 0, 3, 0, 0, 0, 1, 0, 24, 0, 0, 0, 0, 0,
    24, 0, 0, 0, 0, 0, 0, 0, 0, 0, 0, 0, 0, 0, 0, 0, 0, 0, 0, 0, 37, 38, 39, 40, 41, 42, 0, 0, 25, 26, 27, 28, 29, 30, 0, 0, 13, 14, 15, 16, 17, 18, 0, 0] := by
  decide +kernel

end PV.Props
