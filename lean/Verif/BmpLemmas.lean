import Verif.Bmp
import Verif.PropsRaw
/-
  Lemmas about the model of bitmap files: numbers as bytes, headers, reading.
-/
namespace PV.Bmp
open PV PV.Raw PV.Props

variable {μ : Type}

/-! ### Numbers as bytes -/

theorem length_le : ∀ (n v : Nat), (le n v).length = n := by
  intro n
  induction n with
  | zero => intro v; rfl
  | succ n ih => intro v; rw [le, List.length_cons, ih]

theorem word_le : ∀ (n v : Nat), v < 256 ^ n → word (le n v) = v := by
  intro n
  induction n with
  | zero =>
    intro v hv
    have : v = 0 := by simpa using hv
    rw [this]
    rfl
  | succ n ih =>
    intro v hv
    have h1 : v / 256 < 256 ^ n := by
      rw [Nat.div_lt_iff_lt_mul (by decide), ← Nat.pow_succ]
      exact hv
    rw [le, word, ih _ h1]
    have h2 : (UInt8.ofNat (v % 256)).toNat = v % 256 := by
      rw [UInt8.toNat_ofNat']
      omega
    rw [h2]
    omega

theorem word_lt : ∀ l : List UInt8, word l < 256 ^ l.length := by
  intro l
  induction l with
  | nil => decide
  | cons b l ih =>
    rw [word, List.length_cons, Nat.pow_succ]
    have := b.toNat_lt
    omega

/-- The number of `n` bytes at position `o` -/
def field (n o : Nat) (l : List UInt8) : Nat := word ((l.drop o).take n)

theorem field_lt (n o : Nat) (l : List UInt8) : field n o l < 256 ^ n := by
  have h := word_lt ((l.drop o).take n)
  have h2 : ((l.drop o).take n).length ≤ n := by
    rw [List.length_take]
    omega
  exact Nat.lt_of_lt_of_le h (Nat.pow_le_pow_right (by decide) h2)

theorem field_at {n o v : Nat} {pre rest : List UInt8} (ho : pre.length = o) (hv : v < 256 ^ n) : field n o (pre ++ (le n v ++ rest)) = v := by
  rw [field, ← ho, List.drop_left, List.take_left' (length_le n v), word_le n v hv]

/-- A field inside the first bytes of a longer list -/
theorem field_prefix {n o k : Nat} {l : List UInt8} (r : List UInt8) (h : o + n ≤ k) (hk : k ≤ l.length) : field n o (l.take k ++ r) = field n o l := by
  rw [field, field, List.drop_append_of_le_length (by rw [List.length_take]; omega), List.take_append_of_le_length (by rw [List.length_drop, List.length_take]; omega),
    List.drop_take, List.take_take, Nat.min_eq_left (by omega)]

theorem field_drop {n o k : Nat} {l : List UInt8} : field n o (l.drop k) = field n (k + o) l := by
  rw [field, field, List.drop_drop]

theorem getValue_ok {n o : Nat} {data : List UInt8} (h : o + n ≤ data.length) (m : μ) : getValue n data o m = .ok (field n o data, o + n) m := by
  rw [getValue, if_pos h]
  rfl

theorem setValue_ok {n v : Nat} {pre rest : List UInt8} (o : Nat) (ho : pre.length = o) (hr : n ≤ rest.length) (m : μ) :
    setValue n (pre ++ rest) o v m = .ok ((pre ++ le n v) ++ rest.drop n, o + n) m := by
  have hl := length_le n v
  rw [setValue, putAt, if_pos (by rw [hl, List.length_append]; omega), pure_bind', hl, ← ho, List.take_left, ← List.drop_drop, List.drop_left]
  rfl

theorem putAt_ok {data l : List UInt8} {o : Nat} (h : o + l.length ≤ data.length) (m : μ) :
    putAt data o l m = .ok (data.take o ++ l ++ data.drop (o + l.length)) m := by
  rw [putAt, if_pos h]
  rfl

/-! ### Headers -/

/-- The bytes of the first header -/
def fileHeaderBytes (h : FileHeader) : List UInt8 :=
  le 2 h.bfType ++ (le 4 h.bfSize ++ (le 2 h.bfReserved1 ++ (le 2 h.bfReserved2 ++ le 4 h.bfOffBits)))

theorem length_fileHeaderBytes (h : FileHeader) : (fileHeaderBytes h).length = 14 := by
  simp only [fileHeaderBytes, List.length_append, length_le]

theorem fileHeader_get (h : FileHeader) {data : List UInt8} (hl : 14 ≤ data.length) (m : μ) :
    h.get data m = .ok (fileHeaderBytes h ++ data.drop 14) m := by
  have h0 : ([] : List UInt8) ++ data = data := rfl
  rw [FileHeader.get, ← h0, bind_ok (setValue_ok 0 rfl (by omega) m)]
  refine (bind_ok (setValue_ok _ (by simp only [List.length_append, length_le, List.length_nil]) (by rw [List.length_drop]; omega) m)).trans ?_
  refine (bind_ok (setValue_ok _ (by simp only [List.length_append, length_le, List.length_nil]) (by simp only [List.length_drop]; omega) m)).trans ?_
  refine (bind_ok (setValue_ok _ (by simp only [List.length_append, length_le, List.length_nil]) (by simp only [List.length_drop]; omega) m)).trans ?_
  refine (bind_ok (setValue_ok _ (by simp only [List.length_append, length_le, List.length_nil]) (by simp only [List.length_drop]; omega) m)).trans ?_
  show Res.ok _ m = _
  rw [fileHeaderBytes]
  simp only [List.drop_drop, List.append_assoc, List.nil_append]

/-- The bytes of the second header -/
def infoHeaderBytes (h : InfoHeader) : List UInt8 :=
  le 4 h.biSize ++ (le 4 (ofI32 h.biWidth) ++ (le 4 (ofI32 (if h.flipped then h.biHeight else -h.biHeight)) ++ (le 2 h.biPlanes ++ (le 2 h.biBitCount ++
    (le 4 h.biCompress ++ (le 4 h.biSizeImage ++ (le 4 h.biXPelsPerMeter ++ (le 4 h.biYPelsPerMeter ++ (le 4 h.biClrUsed ++ le 4 h.biClrImportant)))))))))

theorem length_infoHeaderBytes (h : InfoHeader) : (infoHeaderBytes h).length = 40 := by
  simp only [infoHeaderBytes, List.length_append, length_le]

theorem infoHeader_get (h : InfoHeader) {data : List UInt8} (hl : 40 ≤ data.length) (m : μ) :
    h.get data m = .ok (infoHeaderBytes h ++ data.drop 40) m := by
  have h0 : ([] : List UInt8) ++ data = data := rfl
  rw [InfoHeader.get, ← h0, bind_ok (setValue_ok 0 rfl (by omega) m)]
  refine (bind_ok (setValue_ok _ (by simp only [List.length_append, length_le, List.length_nil]) (by rw [List.length_drop]; omega) m)).trans ?_
  refine (bind_ok (setValue_ok _ (by simp only [List.length_append, length_le, List.length_nil]) (by simp only [List.length_drop]; omega) m)).trans ?_
  refine (bind_ok (setValue_ok _ (by simp only [List.length_append, length_le, List.length_nil]) (by simp only [List.length_drop]; omega) m)).trans ?_
  refine (bind_ok (setValue_ok _ (by simp only [List.length_append, length_le, List.length_nil]) (by simp only [List.length_drop]; omega) m)).trans ?_
  refine (bind_ok (setValue_ok _ (by simp only [List.length_append, length_le, List.length_nil]) (by simp only [List.length_drop]; omega) m)).trans ?_
  refine (bind_ok (setValue_ok _ (by simp only [List.length_append, length_le, List.length_nil]) (by simp only [List.length_drop]; omega) m)).trans ?_
  refine (bind_ok (setValue_ok _ (by simp only [List.length_append, length_le, List.length_nil]) (by simp only [List.length_drop]; omega) m)).trans ?_
  refine (bind_ok (setValue_ok _ (by simp only [List.length_append, length_le, List.length_nil]) (by simp only [List.length_drop]; omega) m)).trans ?_
  refine (bind_ok (setValue_ok _ (by simp only [List.length_append, length_le, List.length_nil]) (by simp only [List.length_drop]; omega) m)).trans ?_
  refine (bind_ok (setValue_ok _ (by simp only [List.length_append, length_le, List.length_nil]) (by simp only [List.length_drop]; omega) m)).trans ?_
  show Res.ok _ m = _
  rw [infoHeaderBytes]
  simp only [List.drop_drop, List.append_assoc, List.nil_append]

/-- The first header of a file -/
def fileOf (l : List UInt8) : FileHeader := ⟨field 2 0 l, field 4 2 l, field 2 6 l, field 2 8 l, field 4 10 l⟩

theorem fileHeader_set {data : List UInt8} (h : 14 ≤ data.length) (m : μ) : FileHeader.set data m = .ok (fileOf data) m := by
  rw [FileHeader.set]
  refine (bind_ok (getValue_ok (by omega) m)).trans ((bind_ok (getValue_ok (by omega) m)).trans ((bind_ok (getValue_ok (by omega) m)).trans
    ((bind_ok (getValue_ok (by omega) m)).trans ((bind_ok (getValue_ok (by omega) m)).trans rfl))))

/-- The second header with the size 12 -/
def coreOf (l : List UInt8) : CoreHeader := ⟨field 4 0 l, field 2 4 l, field 2 6 l, field 2 8 l, field 2 10 l⟩

theorem coreHeader_set {data : List UInt8} (h : 12 ≤ data.length) (m : μ) : CoreHeader.set data m = .ok (coreOf data) m := by
  rw [CoreHeader.set]
  refine (bind_ok (getValue_ok (by omega) m)).trans ((bind_ok (getValue_ok (by omega) m)).trans ((bind_ok (getValue_ok (by omega) m)).trans
    ((bind_ok (getValue_ok (by omega) m)).trans ((bind_ok (getValue_ok (by omega) m)).trans rfl))))

/-- The second header with the size 40 before the height is made positive -/
def infoOf (l : List UInt8) : InfoHeader :=
  ⟨field 4 0 l, toI32 (field 4 4 l), toI32 (field 4 8 l), field 2 12 l, field 2 14 l, field 4 16 l, field 4 20 l, field 4 24 l, field 4 28 l, field 4 32 l,
    field 4 36 l, true⟩

theorem infoHeader_set {data : List UInt8} (h : 40 ≤ data.length) (m : μ) : InfoHeader.set data m = (infoOf data).orient m := by
  rw [InfoHeader.set]
  refine (bind_ok (getValue_ok (by omega) m)).trans ((bind_ok (getValue_ok (by omega) m)).trans ((bind_ok (getValue_ok (by omega) m)).trans
    ((bind_ok (getValue_ok (by omega) m)).trans ((bind_ok (getValue_ok (by omega) m)).trans ((bind_ok (getValue_ok (by omega) m)).trans
    ((bind_ok (getValue_ok (by omega) m)).trans ((bind_ok (getValue_ok (by omega) m)).trans ((bind_ok (getValue_ok (by omega) m)).trans
    ((bind_ok (getValue_ok (by omega) m)).trans ((bind_ok (getValue_ok (by omega) m)).trans rfl))))))))))

/-! ### Reading the headers -/

/-- What Load does with the second header once its bytes are known -/
def decide2 (bytes : List UInt8) (header : FileHeader) (info : Dib) : M Disk Image :=
  if info.validate header || bytes.length != u32 (header.bfOffBits + u32 (aligned (u32 (info.width * info.colorCount)) * info.height)) then pure noImage
  else loadPixels bytes header info

theorem fileOf_congr {a b : List UInt8} (h : ∀ n o, o + n ≤ 14 → field n o a = field n o b) : fileOf a = fileOf b := by
  rw [fileOf, fileOf, h 2 0 (by omega), h 4 2 (by omega), h 2 6 (by omega), h 2 8 (by omega), h 4 10 (by omega)]

/-- Load of a file with at least 76 bytes in terms of its fields -/
theorem loadBytes_eq {bytes : List UInt8} (hl : 76 ≤ bytes.length) (d : Disk) :
    loadBytes bytes d =
      if field 2 0 bytes ≠ 0x4D42 ∨ bytes.length ≤ field 4 10 bytes ∨ (field 4 14 bytes ≠ 12 ∧ field 4 14 bytes ≠ 40) then .ok noImage d
      else (Dib.set (field 4 14 bytes) ((bytes.drop 14).take (field 4 14 bytes)) >>= decide2 bytes (fileOf bytes)) d := by
  have e1 : readInto (List.replicate 20 0) 0 bytes 0 14 d = .ok (bytes.take 14 ++ List.replicate 6 0) d := by
    rw [readInto, putAt_ok (by rw [List.length_take, List.length_drop, List.length_replicate]; omega)]
    have : (List.take 14 (List.drop 0 bytes)).length = 14 := by rw [List.length_take, List.length_drop]; omega
    rw [this]
    rfl
  have e2 : fileOf (bytes.take 14 ++ List.replicate 6 0) = fileOf bytes := fileOf_congr fun n o h => field_prefix _ h (by omega)
  have e3 := fileHeader_set (data := bytes.take 14 ++ List.replicate 6 0) (by rw [List.length_append, List.length_take]; omega) d
  rw [e2] at e3
  rw [loadBytes, if_neg (by omega), bind_ok e1, bind_ok e3]
  by_cases h1 : (fileOf bytes).bfType ≠ 0x4D42 ∨ bytes.length ≤ (fileOf bytes).bfOffBits
  · rw [if_pos h1, if_pos]
    · rfl
    · rcases h1 with h1 | h1
      · exact Or.inl h1
      · exact Or.inr (Or.inl h1)
  · rw [if_neg h1]
    have e4 : resize (bytes.take 14 ++ List.replicate 6 0) 4 = bytes.take 4 := by
      rw [resize, List.take_append_of_le_length (by rw [List.length_take]; omega), List.take_take, Nat.min_eq_left (by omega)]
      have : 4 - (bytes.take 14 ++ List.replicate 6 (0 : UInt8)).length = 0 := by
        rw [List.length_append, List.length_take]
        omega
      rw [this]
      simp
    have e5 : readInto (bytes.take 4) 0 bytes 14 4 d = .ok ((bytes.drop 14).take 4) d := by
      have hl4 : ((bytes.drop 14).take 4).length = 4 := by rw [List.length_take, List.length_drop]; omega
      rw [readInto, putAt_ok (by rw [hl4, List.length_take]; omega), hl4]
      congr 1
      rw [List.drop_of_length_le (l := bytes.take 4) (by rw [List.length_take]; omega)]
      simp
    have e6 : field 4 0 ((bytes.drop 14).take 4) = field 4 14 bytes := by
      have := field_prefix (n := 4) (o := 0) (k := 4) (l := bytes.drop 14) [] (by omega) (by rw [List.length_drop]; omega)
      rw [List.append_nil, field_drop] at this
      exact this
    have e7 := getValue_ok (n := 4) (o := 0) (data := (bytes.drop 14).take 4) (by rw [List.length_take, List.length_drop]; omega) d
    rw [e6] at e7
    rw [loadDib, e4, bind_ok e5, bind_ok e7]
    dsimp only
    by_cases h2 : field 4 14 bytes ≠ 12 ∧ field 4 14 bytes ≠ 40
    · rw [if_pos h2, if_pos (Or.inr (Or.inr h2))]
      rfl
    · rw [if_neg h2, if_neg]
      · obtain ⟨k, hk⟩ : ∃ k, field 4 14 bytes = k := ⟨_, rfl⟩
        rw [hk] at h2 ⊢
        have hk40 : 4 ≤ k ∧ k ≤ 40 := by omega
        have hl4 : ((bytes.drop 14).take 4).length = 4 := by rw [List.length_take, List.length_drop]; omega
        have hl5 : ((bytes.drop 18).take (k - 4)).length = k - 4 := by rw [List.length_take, List.length_drop]; omega
        have e8 : readInto (resize ((bytes.drop 14).take 4) k) 4 bytes 18 (k - 4) d = .ok ((bytes.drop 14).take k) d := by
          have er : resize ((bytes.drop 14).take 4) k = (bytes.drop 14).take 4 ++ List.replicate (k - 4) 0 := by
            rw [resize, hl4, List.take_of_length_le (by omega)]
          have hlr : (resize ((bytes.drop 14).take 4) k).length = k := by
            rw [er, List.length_append, hl4, List.length_replicate]
            omega
          rw [readInto, putAt_ok (by rw [hl5, hlr]; omega), hl5, List.drop_of_length_le (l := resize _ _) (by rw [hlr]; omega), List.append_nil, er,
            List.take_left' hl4]
          congr 1
          have : k = 4 + (k - 4) := by omega
          conv_rhs => rw [this, List.take_add, List.drop_drop]
        rw [loadInfo, bind_ok e8]
        rfl
      · rintro (h | h | h)
        · exact h1 (Or.inl h)
        · exact h1 (Or.inr h)
        · exact h2 h

/-! ### Reading the pallete and the pixels -/

theorem readPallete_ok {bytes : List UInt8} {pos size : Nat} (h : pos + size ≤ bytes.length) (hf : size < fuelMax) (m : μ) :
    readPallete bytes pos size m = .ok ((bytes.drop pos).take size) m := by
  obtain ⟨q, p, m', h1, ⟨g1, g2, g3, g4⟩, h3⟩ := loop_inv (μ := μ) (cond := fun q : Nat × Nat => decide (0 < q.1))
    (next := fun q => (q.1 - part q.1, q.2 + part q.1)) (body := fun q p => readInto p q.2 bytes (pos + q.2) (part q.1))
    (fun q p m1 => q.1 + q.2 = size ∧ m1 = m ∧ p.length = size ∧ p.take q.2 = (bytes.drop pos).take q.2)
    (fun q => q.1) (by
      rintro ⟨t, o⟩ p m1 ⟨g1, rfl, g3, g4⟩ hc
      have htp : 0 < t := by simpa using hc
      have p1 := part_le t
      have p2 := part_pos htp
      dsimp only at g1 g4 ⊢
      have hl : ((bytes.drop (pos + o)).take (part t)).length = part t := by
        rw [List.length_take, List.length_drop]
        omega
      refine ⟨_, m1, putAt_ok (by rw [hl, g3]; omega) m1, ⟨by omega, rfl, ?_, ?_⟩, by omega⟩
      · rw [List.length_append, List.length_append, hl, List.length_take, List.length_drop, g3]
        omega
      · have hl2 : (p.take o ++ (bytes.drop (pos + o)).take (part t)).length = o + part t := by
          rw [List.length_append, hl, List.length_take, g3]
          omega
        rw [List.take_left' hl2, g4, List.take_add, List.drop_drop])
    fuelMax (size, 0) (List.replicate size 0) m hf ⟨rfl, rfl, List.length_replicate, rfl⟩
  have hq : q.1 = 0 := by simpa using h3
  have hq2 : q.2 = size := by omega
  rw [readPallete, h1, g2]
  rw [hq2, List.take_of_length_le (by omega)] at g4
  rw [g4]

theorem readPixels_ok {b pos total : Nat} (hb : b ≠ 0) (bytes : List UInt8) (d0 : Disk) (ht : total ≤ d0.mem.size b) (hf : total < fuelMax) :
    ∃ d', readPixels b bytes pos total d0 = .ok () d' ∧ d'.file = d0.file ∧ d'.next = d0.next ∧ d'.mem.size = d0.mem.size ∧
      (∀ i, i < total → ∀ v, bytes[pos + i]? = some v → d'.mem.byte b i = v) ∧ ∀ b' i, b' ≠ b → d'.mem.byte b' i = d0.mem.byte b' i := by
  obtain ⟨q, _, d', h1, ⟨g1, g2, g3, g4, g5, g6⟩, h3⟩ := loop_inv (μ := Disk) (cond := fun q : Nat × Nat => decide (0 < q.1))
    (next := fun q => (q.1 - part q.1, q.2 + part q.1)) (body := fun q _ => onMem (store b q.2 ((bytes.drop (pos + q.2)).take (part q.1))))
    (fun q (_ : Unit) d => q.1 + q.2 = total ∧ d.file = d0.file ∧ d.next = d0.next ∧ d.mem.size = d0.mem.size ∧
      (∀ i, i < q.2 → ∀ v, bytes[pos + i]? = some v → d.mem.byte b i = v) ∧ ∀ b' i, b' ≠ b → d.mem.byte b' i = d0.mem.byte b' i)
    (fun q => q.1) (by
      rintro ⟨t, o⟩ _ d ⟨g1, g2, g3, g4, g5, g6⟩ hc
      have htp : 0 < t := by simpa using hc
      have p1 := part_le t
      have p2 := part_pos htp
      dsimp only at g1 g5 ⊢
      have hl : ((bytes.drop (pos + o)).take (part t)).length ≤ part t := by
        rw [List.length_take]
        omega
      obtain ⟨m', s1, s2, s3, s4⟩ := store_ok hb ((bytes.drop (pos + o)).take (part t)) o d.mem (by rw [g4]; omega)
      refine ⟨(), { d with mem := m' }, onMem_ok s1, ⟨by omega, g2, g3, s2.trans g4, fun i hi v hv => ?_, fun b' i hn => ?_⟩, by omega⟩
      · by_cases hip : i < o
        · dsimp only
          rw [s4 b i (by omega)]
          exact g5 i hip v hv
        · have hlt : pos + i < bytes.length := (List.getElem?_eq_some_iff.1 hv).1
          have := s3 (i - o) (by rw [List.length_take, List.length_drop]; omega)
          rw [show o + (i - o) = i by omega, List.getElem?_take_of_lt (by omega), List.getElem?_drop, show pos + o + (i - o) = pos + i by omega, hv] at this
          exact (Option.some.inj this).symm
      · dsimp only
        rw [s4 b' i (by intro h; exact hn h.1)]
        exact g6 b' i hn)
    fuelMax (total, 0) () d0 hf ⟨rfl, rfl, rfl, rfl, fun i hi => absurd hi (Nat.not_lt_zero _), fun _ _ _ => rfl⟩
  have hq : q.1 = 0 := by simpa using h3
  exact ⟨d', h1, g2, g3, g4, fun i hi => g5 i (by omega), g6⟩

/-! ### Turning the image upside down -/

/-- The rows of an image in reverse order; nothing else changes. -/
def Flipped (b n h : Nat) (m m' : BMem) : Prop :=
  m'.size = m.size ∧ (∀ y i, y < h → i < n → m'.byte b (y * n + i) = m.byte b ((h - 1 - y) * n + i)) ∧
  ∀ b' i, ¬ (b' = b ∧ i < h * n) → m'.byte b' i = m.byte b' i

theorem memcpyC_ok {b s e n : Nat} (hb : b ≠ 0) (hd : s + n ≤ e ∨ e + n ≤ s) : ∀ {m : BMem}, s + n ≤ m.size b → e + n ≤ m.size b →
    ∃ m', memcpyC b s b e n m = .ok () m' ∧ m'.size = m.size ∧ (∀ i, i < n → m'.byte b (s + i) = m.byte b (e + i)) ∧
      ∀ b' i, ¬ (b' = b ∧ s ≤ i ∧ i < s + n) → m'.byte b' i = m.byte b' i := by
  intro m hs he
  rw [memcpyC]
  rw [if_neg (by omega)]
  suffices H : ∀ k, k ≤ n → ∃ m', fold (fun j _ => do
      let v ← readC b (e + j)
      writeC b (s + j) v) (List.range k) () m = .ok () m' ∧ m'.size = m.size ∧ (∀ i, i < k → m'.byte b (s + i) = m.byte b (e + i)) ∧
      ∀ b' i, ¬ (b' = b ∧ s ≤ i ∧ i < s + k) → m'.byte b' i = m.byte b' i from H n (Nat.le_refl _)
  intro k
  induction k with
  | zero =>
    intro _
    exact ⟨m, rfl, rfl, fun i hi => absurd hi (Nat.not_lt_zero _), fun _ _ _ => rfl⟩
  | succ k ih =>
    intro hk
    obtain ⟨m1, h1, h2, h3, h4⟩ := ih (by omega)
    refine ⟨m1.set b (s + k) (m1.byte b (e + k)), ?_, by rw [Mem.set_size, h2], fun i hi => ?_, fun b' i hn => ?_⟩
    · rw [List.range_succ, fold_append, bind_ok h1, fold_cons]
      refine (bind_ok (a := ()) (m' := m1.set b (s + k) (m1.byte b (e + k))) ?_).trans rfl
      exact (bind_ok (readC_ok ⟨hb, by rw [h2]; omega⟩)).trans (writeC_ok _ ⟨hb, by rw [h2]; omega⟩)
    · by_cases e1 : i = k
      · rw [e1, Mem.set_same, h4 b _ (by omega)]
      · rw [Mem.set_other _ _ (by omega), h3 i (by omega)]
    · rw [Mem.set_other _ _ (by intro h; exact hn ⟨h.1, by omega, by omega⟩)]
      exact h4 b' i (by intro h; exact hn ⟨h.1, by omega, by omega⟩)

theorem swapRows_ok {b n s e : Nat} (hb : b ≠ 0) (hd : s + n ≤ e) {m : BMem} (he : e + n ≤ m.size b) :
    ∃ m', swapRows b n (s : Int) (e : Int) m = .ok () m' ∧ m'.size = m.size ∧ (∀ i, i < n → m'.byte b (s + i) = m.byte b (e + i)) ∧
      (∀ i, i < n → m'.byte b (e + i) = m.byte b (s + i)) ∧
      ∀ b' i, ¬ (b' = b ∧ ((s ≤ i ∧ i < s + n) ∨ (e ≤ i ∧ i < e + n))) → m'.byte b' i = m.byte b' i := by
  have hfetch := fetch_ok (m := m) hb n s (by omega)
  obtain ⟨m1, a1, a2, a3, a4⟩ := memcpyC_ok (m := m) hb (Or.inl hd) (by omega) he
  have hl : ((List.range' s n).map (m.byte b)).length = n := by rw [List.length_map, List.length_range']
  obtain ⟨m2, c1, c2, c3, c4⟩ := store_ok hb ((List.range' s n).map (m.byte b)) e m1 (by rw [hl, a2]; omega)
  rw [hl] at c3 c4
  refine ⟨m2, ?_, c2.trans a2, fun i hi => ?_, fun i hi => ?_, fun b' i hn => ?_⟩
  · rw [swapRows, ptr, if_neg (by omega), ptr, if_neg (by omega), Int.toNat_natCast, Int.toNat_natCast, bind_ok hfetch]
    exact (bind_ok a1).trans c1
  · rw [c4 b _ (by omega), a3 i hi]
  · have := c3 i hi
    rw [List.getElem?_map, List.getElem?_range' (by omega), Option.map_some, Nat.one_mul] at this
    exact (Option.some.inj this).symm
  · rw [c4 b' i (by intro h; exact hn ⟨h.1, Or.inr ⟨by omega, by omega⟩⟩), a4 b' i (by intro h; exact hn ⟨h.1, Or.inl ⟨by omega, by omega⟩⟩)]

theorem flipData_ok {img : Image} {m : BMem} (hd : img.data ≠ 0) (hb : img.rowSize * img.height ≤ m.size img.data)
    (hs : img.rowSize * img.height < 4294967296) (hh : img.height < 4294967296) :
    ∃ m', flipData img m = .ok () m' ∧ Flipped img.data img.rowSize img.height m m' := by
  obtain ⟨n, hn⟩ : ∃ n, img.rowSize = n := ⟨_, rfl⟩
  obtain ⟨h, hhh⟩ : ∃ h, img.height = h := ⟨_, rfl⟩
  rw [flipData]
  rw [hn, hhh] at hb hs ⊢
  rw [hhh] at hh
  by_cases h2 : h < 2
  · rw [if_pos (by simp [h2])]
    refine ⟨m, rfl, rfl, fun y i hy hi => ?_, fun _ _ _ => rfl⟩
    have e1 : h - 1 - y = y := by omega
    rw [e1]
  · have e0 : (img.empty || decide (h < 2)) = false := by
      simp [Image.empty, hd, h2]
    have hle : n * (h - 1) + n = n * h := by
      have : h = (h - 1) + 1 := by omega
      conv_rhs => rw [this, Nat.mul_add, Nat.mul_one]
    rw [if_neg (by rw [e0]; decide), u32_of_lt (by omega)]
    obtain ⟨q, _, m', h1, ⟨k, g1, g2, g3, g4, g5, g6⟩, h3⟩ := loop_inv (μ := BMem) (cond := fun q : Nat × Int × Int => decide (q.1 < h / 2))
      (next := fun q => (q.1 + 1, q.2.1 + (n : Int), q.2.2 - (n : Int)))
      (body := fun q _ => swapRows img.data n q.2.1 q.2.2)
      (fun q (_ : Unit) m1 => ∃ k, q = (k, ((k * n : Nat) : Int), (((h - 1) * n : Nat) : Int) - ((k * n : Nat) : Int)) ∧ k ≤ h / 2 ∧ m1.size = m.size ∧
        (∀ y i, y < h → i < n → (y < k ∨ h - 1 - y < k) → m1.byte img.data (y * n + i) = m.byte img.data ((h - 1 - y) * n + i)) ∧
        (∀ y i, y < h → i < n → ¬ (y < k ∨ h - 1 - y < k) → m1.byte img.data (y * n + i) = m.byte img.data (y * n + i)) ∧
        ∀ b' i, ¬ (b' = img.data ∧ i < h * n) → m1.byte b' i = m.byte b' i)
      (fun q => h / 2 - q.1) (by
        rintro q _ m1 ⟨k, rfl, hk, g1, g2, g3, g4⟩ hc
        have hk2 : k < h / 2 := by simpa using hc
        dsimp only
        have hkh : k + 1 ≤ h - 1 - k := by omega
        have l1 : (k + 1) * n ≤ (h - 1 - k) * n := Nat.mul_le_mul_right n hkh
        have l2 : (h - 1 - k) * n + n ≤ h * n := by
          have : (h - 1 - k + 1) * n ≤ h * n := Nat.mul_le_mul_right n (by omega)
          rw [Nat.add_mul] at this
          omega
        rw [Nat.add_mul, Nat.one_mul] at l1
        have hnh : n * h = h * n := Nat.mul_comm _ _
        have e2 : (((h - 1) * n : Nat) : Int) - ((k * n : Nat) : Int) = (((h - 1 - k) * n : Nat) : Int) := by
          have : (h - 1) * n = (h - 1 - k) * n + k * n := by
            rw [← Nat.add_mul]
            congr 1
            omega
          omega
        rw [e2]
        obtain ⟨m2, b1, b2, b3, b4, b5⟩ := swapRows_ok (b := img.data) (n := n) (s := k * n) (e := (h - 1 - k) * n) hd l1 (m := m1) (by rw [g1]; omega)
        have other : ∀ y i, y < h → i < n → y ≠ k → y ≠ h - 1 - k → m2.byte img.data (y * n + i) = m1.byte img.data (y * n + i) := by
          intro y i hy hi n1 n2
          apply b5
          rintro ⟨-, ⟨u1, u2⟩ | ⟨u1, u2⟩⟩
          · rcases Nat.lt_or_gt_of_ne n1 with hlt | hlt
            · have := Nat.mul_le_mul_right n (show y + 1 ≤ k by omega)
              rw [Nat.add_mul] at this
              omega
            · have := Nat.mul_le_mul_right n (show k + 1 ≤ y by omega)
              rw [Nat.add_mul] at this
              omega
          · rcases Nat.lt_or_gt_of_ne n2 with hlt | hlt
            · have := Nat.mul_le_mul_right n (show y + 1 ≤ h - 1 - k by omega)
              rw [Nat.add_mul] at this
              omega
            · have := Nat.mul_le_mul_right n (show h - 1 - k + 1 ≤ y by omega)
              rw [Nat.add_mul] at this
              omega
        refine ⟨(), m2, b1, ⟨k + 1, ?_, by omega, b2.trans g1, fun y i hy hi hyk => ?_, fun y i hy hi hyk => ?_, fun b' i hn' => ?_⟩, by omega⟩
        · have e3 : (k + 1) * n = k * n + n := by rw [Nat.add_mul, Nat.one_mul]
          rw [e3]
          refine Prod.ext rfl (Prod.ext ?_ ?_)
          · dsimp only; omega
          · dsimp only; omega
        · by_cases y1 : y = k
          · rw [y1, b3 i hi, g3 (h - 1 - k) i (by omega) hi (by omega)]
          · by_cases y2 : y = h - 1 - k
            · rw [y2, b4 i hi, g3 k i (by omega) hi (by omega)]
              congr 3
              omega
            · rw [other y i hy hi y1 y2]
              exact g2 y i hy hi (by omega)
        · rw [other y i hy hi (by omega) (by omega)]
          exact g3 y i hy hi (by omega)
        · rw [b5 b' i (by rintro ⟨u0, u1⟩; exact hn' ⟨u0, by omega⟩)]
          exact g4 b' i hn')
      fuelMax (0, 0, ((n * (h - 1) : Nat) : Int)) () m (by
        have hfm : fuelMax = 18446744073709551616 := rfl
        dsimp only
        omega) ⟨0, by rw [Nat.mul_comm n]; simp, by omega, rfl, fun y i _ _ h => absurd h (by omega), fun _ _ _ _ _ => rfl, fun _ _ _ => rfl⟩
    refine ⟨m', h1, g3, fun y i hy hi => ?_, g6⟩
    have hq : ¬ q.1 < h / 2 := by simpa using h3
    rw [g1] at hq
    dsimp only at hq
    by_cases hyk : y < k ∨ h - 1 - y < k
    · exact g4 y i hy hi hyk
    · have : h - 1 - y = y := by omega
      rw [g5 y i hy hi hyk, this]

end PV.Bmp
