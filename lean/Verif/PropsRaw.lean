import Verif.Raw
import Verif.LoopInv
import Verif.PropsReduce
/-
  C60: LittleEndianToBigEndian reverses the bytes of each element; twice it restores the image.
  C59: an image saved as raw file and loaded again is the same image.
-/
namespace PV.Props
open PV PV.Raw

/-! ### C60 -/

/-- The image owns its elements of `s` bytes. -/
structure RawImage (s : Nat) (img : Image) (m : BMem) : Prop where
  colors : img.cc = 1 ∨ img.cc = 3 ∨ img.cc = 4
  data : img.data ≠ 0
  block : img.rowSize * img.height * s ≤ m.size img.data
  small : img.rowSize * img.height < 4294967296
  spos : 1 ≤ s
  ssmall : s < 4294967296

/-- The memory with the bytes of the first `n` elements of block `b` reversed. -/
def Reversed (s n b : Nat) (m m' : BMem) : Prop :=
  m'.size = m.size ∧
  (∀ k j, k < n → j < s → m'.byte b (k * s + j) = m.byte b (k * s + (s - 1 - j))) ∧
  ∀ b' i, ¬ (b' = b ∧ i < n * s) → m'.byte b' i = m.byte b' i

theorem validateImage_run {μ : Type} {img : Image} (hc : img.cc = 1 ∨ img.cc = 3 ∨ img.cc = 4) (hd : img.data ≠ 0) (m : μ) :
    validateImage img m = .ok () m := by
  have e : (img.empty || !isCorrectColorCount img) = false := by
    rcases hc with h | h | h <;> simp [Image.empty, isCorrectColorCount, h, hd]
  rw [validateImage, e]
  rfl

theorem swapElement_ok {b l r : Nat} (hb : b ≠ 0) {m0 : BMem} (hr : r < m0.size b) (hf : r < fuelMax) :
    ∃ m', swapElement b l r m0 = .ok () m' ∧ m'.size = m0.size ∧
      (∀ i, l ≤ i → i ≤ r → m'.byte b i = m0.byte b (l + r - i)) ∧
      ∀ b' i, ¬ (b' = b ∧ l ≤ i ∧ i ≤ r) → m'.byte b' i = m0.byte b' i := by
  obtain ⟨q, _, m', h1, h2, h3⟩ := loop_inv (μ := BMem) (cond := fun q : Nat × Nat => decide (q.1 < q.2)) (next := fun q => (q.1 + 1, q.2 - 1))
    (body := fun q _ => do
      let t ← readC b q.1
      let v ← readC b q.2
      writeC b q.1 v
      writeC b q.2 t)
    (fun q (_ : Unit) m => m.size = m0.size ∧ q.1 + q.2 = l + r ∧ l ≤ q.1 ∧ q.2 ≤ r ∧ q.1 ≤ q.2 + 1 + (l - r) ∧
      (∀ i, l ≤ i → i ≤ r → (i < q.1 ∨ q.2 < i) → m.byte b i = m0.byte b (l + r - i)) ∧
      ∀ b' i, ¬ (b' = b ∧ l ≤ i ∧ i ≤ r ∧ (i < q.1 ∨ q.2 < i)) → m.byte b' i = m0.byte b' i)
    (fun q => q.2) (by
      rintro ⟨x, y⟩ _ m ⟨g1, g2, g3, g4, g5, g6, g7⟩ hc
      have hxy : x < y := by simpa using hc
      dsimp only at g2 g3 g4 g5 g6 g7 ⊢
      have v1 : m.Valid b x := ⟨hb, by rw [g1]; omega⟩
      have v2 : m.Valid b y := ⟨hb, by rw [g1]; omega⟩
      have v3 : (m.set b x (m.byte b y)).Valid b y := ⟨hb, by rw [Mem.set_size, g1]; omega⟩
      refine ⟨(), (m.set b x (m.byte b y)).set b y (m.byte b x),
        (bind_ok (readC_ok v1)).trans ((bind_ok (readC_ok v2)).trans ((bind_ok (writeC_ok _ v1)).trans (writeC_ok _ v3))),
        ⟨by rw [Mem.set_size, Mem.set_size, g1], by omega, by omega, by omega, by omega, fun i hi1 hi2 hi3 => ?_, fun b' i hn => ?_⟩, by omega⟩
      · by_cases e1 : i = y
        · subst e1
          rw [Mem.set_same, g7 b x (by omega)]
          congr 1
          omega
        · rw [Mem.set_other _ _ (by omega)]
          by_cases e2 : i = x
          · subst e2
            rw [Mem.set_same, g7 b y (by omega)]
            congr 1
            omega
          · rw [Mem.set_other _ _ (by omega)]
            exact g6 i hi1 hi2 (by omega)
      · rw [Mem.set_other _ _ (by intro h; exact hn ⟨h.1, by omega, by omega, by omega⟩),
          Mem.set_other _ _ (by intro h; exact hn ⟨h.1, by omega, by omega, by omega⟩)]
        exact g7 b' i (by intro h; exact hn ⟨h.1, h.2.1, h.2.2.1, by omega⟩))
    fuelMax (l, r) () m0 hf ⟨rfl, rfl, Nat.le_refl _, Nat.le_refl _, by dsimp only; omega, fun i h1 h2 h3 => by dsimp only at h3; omega, fun _ _ _ => rfl⟩
  obtain ⟨g1, g2, g3, g4, g5, g6, g7⟩ := h2
  have hxy : q.2 ≤ q.1 := by simpa using h3
  refine ⟨m', h1, g1, fun i hi1 hi2 => ?_, fun b' i hn => g7 b' i fun h => hn ⟨h.1, h.2.1, h.2.2.1⟩⟩
  by_cases e : i < q.1 ∨ q.2 < i
  · exact g6 i hi1 hi2 e
  · rw [g7 b i (by intro h; exact e h.2.2.2)]
    congr 1
    omega

/-- C60: the bytes of every element (padding of the rows included) are reversed, nothing else changes. -/
theorem C60_reverses {s : Nat} {img : Image} {m : BMem} (h : RawImage s img m) :
    ∃ m', LittleEndianToBigEndian s img m = .ok () m' ∧ Reversed s (img.rowSize * img.height) img.data m m' := by
  have hs1 := h.spos
  have hs2 := h.ssmall
  have hsm := h.small
  obtain ⟨n, hn⟩ : ∃ n, img.rowSize * img.height = n := ⟨_, rfl⟩
  have hbl := h.block
  rw [hn] at hsm hbl ⊢
  have hns : n * s < fuelMax := by
    rw [fuelMax]
    have : n * s ≤ 4294967295 * 4294967295 := Nat.mul_le_mul (by omega) (by omega)
    omega
  rw [LittleEndianToBigEndian, bind_ok (validateImage_run h.colors h.data m)]
  by_cases hs : s < 2
  · rw [if_pos hs]
    refine ⟨m, rfl, rfl, fun k j hk hj => ?_, fun _ _ _ => rfl⟩
    have : j = 0 := by omega
    have h1 : s - 1 - j = 0 := by omega
    rw [h1, this]
  · rw [if_neg hs, hn, u32_of_lt hsm]
    obtain ⟨p, _, m', h1, ⟨k, g1, g2, g3, g4, g5⟩, h3⟩ := loop_inv (μ := BMem) (cond := fun p => p != n * s) (next := fun p => p + s)
      (body := fun p _ => swapElement img.data p (p + s - 1))
      (fun p (_ : Unit) m1 => ∃ k, p = k * s ∧ k ≤ n ∧ Reversed s k img.data m m1)
      (fun p => n * s - p) (by
        rintro p _ m1 ⟨k, rfl, hk, g1, g2, g3⟩ hc
        have hc' : k ≠ n := by
          intro e
          rw [e] at hc
          simp at hc
        have hlt : k + 1 ≤ n := by omega
        have hmul : k * s + s ≤ n * s := by
          have := Nat.mul_le_mul_right s hlt
          rw [Nat.add_mul] at this
          omega
        obtain ⟨m2, e1, e2, e3, e4⟩ := swapElement_ok (b := img.data) (l := k * s) (r := k * s + s - 1) h.data (m0 := m1) (by rw [g1]; omega) (by omega)
        refine ⟨(), m2, e1, ⟨k + 1, by rw [Nat.add_mul]; omega, hlt, e2.trans g1, fun k' j hk' hj => ?_, fun b' i hn' => ?_⟩, by omega⟩
        · by_cases ek : k' = k
          · subst ek
            rw [e3 _ (by omega) (by omega), g3 _ _ (by intro hh; omega)]
            congr 1
            omega
          · have : (k' + 1) * s ≤ k * s := Nat.mul_le_mul_right s (by omega)
            rw [Nat.add_mul] at this
            rw [e4 _ _ (by intro hh; omega)]
            exact g2 k' j (by omega) hj
        · have hh2 : (k + 1) * s = k * s + s := by rw [Nat.add_mul]; omega
          rw [e4 _ _ (by intro hh; exact hn' ⟨hh.1, by omega⟩)]
          exact g3 b' i (by intro hh; exact hn' ⟨hh.1, by omega⟩))
      fuelMax 0 () m (by omega) ⟨0, by omega, by omega, rfl, fun k j hk => absurd hk (by omega), fun _ _ _ => rfl⟩
    refine ⟨m', h1, ?_⟩
    have hp : p = n * s := by simpa using h3
    rw [hp] at g1
    have : n = k := Nat.eq_of_mul_eq_mul_right (by omega) g1
    rw [this]
    exact ⟨g3, g4, g5⟩

/-- C60: applied twice the memory is as before. -/
theorem C60_twice {s : Nat} {img : Image} {m : BMem} (h : RawImage s img m) :
    ∃ m1, LittleEndianToBigEndian s img m = .ok () m1 ∧ LittleEndianToBigEndian s img m1 = .ok () m := by
  obtain ⟨m1, h1, a1, a2, a3⟩ := C60_reverses h
  have hs1 := h.spos
  obtain ⟨m2, h2, b1, b2, b3⟩ := C60_reverses (m := m1) ⟨h.colors, h.data, by rw [a1]; exact h.block, h.small, h.spos, h.ssmall⟩
  refine ⟨m1, h1, ?_⟩
  have : m2 = m := by
    have hb : m2.byte = m.byte := by
      funext b i
      by_cases hi : b = img.data ∧ i < img.rowSize * img.height * s
      · obtain ⟨rfl, hi⟩ := hi
        have hk : i / s < img.rowSize * img.height := (Nat.div_lt_iff_lt_mul (by omega)).2 hi
        have hj : i % s < s := Nat.mod_lt _ (by omega)
        have e : i = i / s * s + i % s := by rw [Nat.mul_comm]; exact (Nat.div_add_mod i s).symm
        rw [e, b2 _ _ hk hj, a2 _ _ hk (by omega)]
        congr 2
        omega
      · rw [b3 b i hi, a3 b i hi]
    have hz : m2.size = m.size := b1.trans a1
    cases m2
    cases m
    simp only at hb hz
    rw [hb, hz]
  rw [← this]
  exact h2

/-- C60: an image without pixels or with a wrong number of colours is refused. -/
theorem C60_rejects {s : Nat} {img : Image} (m : BMem) (h : img.data = 0 ∨ ¬ (img.cc = 1 ∨ img.cc = 3 ∨ img.cc = 4)) :
    LittleEndianToBigEndian s img m = .throw m := by
  have e : (img.empty || !isCorrectColorCount img) = true := by
    rcases h with h | h
    · simp [Image.empty, h]
    · simp only [isCorrectColorCount, Bool.or_eq_true, beq_iff_eq, Bool.not_eq_true', Bool.or_eq_false_iff, beq_eq_false_iff_ne]
      exact Or.inr (by omega)
  rw [LittleEndianToBigEndian, validateImage, e]
  exact bind_throw rfl

/-- A 3 x 2 image of two-byte elements with one element of padding in each row. -/
def rawImg : Image := ⟨1, 3, 2, 1, 4⟩

def rawMem : BMem := ⟨fun b => if b = 0 then 0 else 20, fun _ i => UInt8.ofNat (10 + i)⟩

example : RawImage 2 rawImg rawMem := ⟨by decide, by decide, by decide, by decide, by decide, by decide⟩

/-- Bytes of the block 1 after a call. -/
def firstBytes (n : Nat) (r : Res BMem Unit) : Option (List UInt8) :=
  match r with
  | .ok _ m => some ((List.range n).map fun i => m.byte 1 i)
  | _ => none

theorem rawImg_swapped : firstBytes 20 (LittleEndianToBigEndian 2 rawImg rawMem)
    = some [11, 10, 13, 12, 15, 14, 17, 16, 19, 18, 21, 20, 23, 22, 25, 24, 26, 27, 28, 29] := by
  decide +kernel

/-! ### C59 -/

/-- The image of elements of `s` bytes, stored without padding, of less than 4 GiB. -/
structure Tight (s : Nat) (img : Image) (d : Disk) : Prop where
  colors : img.cc = 1 ∨ img.cc = 3 ∨ img.cc = 4
  data : img.data ≠ 0
  row : img.rowSize = img.width * img.cc
  wpos : 0 < img.width
  hpos : 0 < img.height
  spos : 1 ≤ s
  small : img.rowSize * img.height * s < 4294967296
  block : img.rowSize * img.height * s ≤ d.mem.size img.data
  fresh : img.data < d.next

theorem fetch_ok {b : Nat} (hb : b ≠ 0) {m : BMem} : ∀ (n p : Nat), p + n ≤ m.size b →
    fetch b p n m = .ok ((List.range' p n).map (m.byte b)) m := by
  intro n
  induction n with
  | zero =>
    intro p _
    rfl
  | succ n ih =>
    intro p hp
    rw [fetch, bind_ok (readC_ok ⟨hb, by omega⟩), bind_ok (ih (p + 1) (by omega)), List.range'_succ, List.map_cons]
    rfl

theorem store_ok {b : Nat} (hb : b ≠ 0) : ∀ (l : List UInt8) (p : Nat) (m : BMem), p + l.length ≤ m.size b →
    ∃ m', store b p l m = .ok () m' ∧ m'.size = m.size ∧ (∀ i, i < l.length → l[i]? = some (m'.byte b (p + i))) ∧
      ∀ b' i, ¬ (b' = b ∧ p ≤ i ∧ i < p + l.length) → m'.byte b' i = m.byte b' i := by
  intro l
  induction l with
  | nil =>
    intro p m _
    exact ⟨m, rfl, rfl, fun i hi => absurd hi (Nat.not_lt_zero _), fun _ _ _ => rfl⟩
  | cons v l ih =>
    intro p m hp
    rw [List.length_cons] at hp
    obtain ⟨m', h1, h2, h3, h4⟩ := ih (p + 1) (m.set b p v) (by rw [Mem.set_size]; omega)
    refine ⟨m', ?_, by rw [h2, Mem.set_size], fun i hi => ?_, fun b' i hn => ?_⟩
    · rw [store, bind_ok (writeC_ok v ⟨hb, by omega⟩)]
      exact h1
    · rw [List.length_cons] at hi
      cases i with
      | zero =>
        rw [List.getElem?_cons_zero, h4 b _ (by omega), Nat.add_zero, Mem.set_same]
      | succ i =>
        rw [List.getElem?_cons_succ, h3 i (by omega), show p + 1 + i = p + (i + 1) by omega]
    · rw [List.length_cons] at hn
      rw [h4 b' i (by intro h; exact hn ⟨h.1, by omega, by omega⟩), Mem.set_other _ _ (by intro h; exact hn ⟨h.1, by omega, by omega⟩)]

theorem part_le (t : Nat) : part t ≤ t := by
  rw [part]
  split <;> omega

theorem part_pos {t : Nat} (h : 0 < t) : 0 < part t := by
  rw [part, blockSize]
  split <;> omega

theorem onMem_ok {α : Type} {x : M BMem α} {d : Disk} {a : α} {m : BMem} (h : x d.mem = .ok a m) : onMem x d = .ok a { d with mem := m } := by
  rw [onMem, h]

/-- Everything but the file `path` is the same. -/
def OnlyFile (path : String) (d d' : Disk) : Prop :=
  d'.mem = d.mem ∧ d'.next = d.next ∧ ∀ q, q ≠ path → d'.file q = d.file q

/-- The bytes of the image. -/
def bytesOf (m : BMem) (b n : Nat) : List UInt8 := (List.range n).map (m.byte b)

theorem bytesOf_part {m : BMem} {b pos n : Nat} : bytesOf m b pos ++ (List.range' pos n).map (m.byte b) = bytesOf m b (pos + n) := by
  rw [bytesOf, bytesOf, ← List.map_append, List.range_eq_range', List.range_eq_range', ← List.range'_append_1 (s := 0), Nat.zero_add]

/-- The writing loop. -/
theorem save_loop {E : Env} {path : String} {b total : Nat} (hb : b ≠ 0) (d0 : Disk) (ht : total ≤ d0.mem.size b) (hf : total < fuelMax)
    (d1 : Disk) (hd : OnlyFile path d0 d1) (h0 : d1.file path = some []) :
    ∃ good d', loop (fun q : Nat × Nat => decide (0 < q.1)) (fun q => (q.1 - part q.1, q.2 + part q.1))
      (fun q good => writePart E path b q.2 (part q.1) good) fuelMax (total, 0) true d1 = .ok good d' ∧ OnlyFile path d0 d' ∧
      (good = true → d'.file path = some (bytesOf d0.mem b total)) ∧ (total ≤ E.room path → good = true) := by
  obtain ⟨q, good, d', h1, ⟨g1, g2, g3, g4⟩, h3⟩ := loop_inv (μ := Disk) (cond := fun q : Nat × Nat => decide (0 < q.1))
    (next := fun q => (q.1 - part q.1, q.2 + part q.1)) (body := fun q good => writePart E path b q.2 (part q.1) good)
    (fun q good d => q.1 + q.2 = total ∧ OnlyFile path d0 d ∧ (good = true → d.file path = some (bytesOf d0.mem b q.2)) ∧
      (total ≤ E.room path → good = true))
    (fun q => q.1) (by
      rintro ⟨t, pos⟩ good d ⟨g1, g2, g3, g4⟩ hc
      have htp : 0 < t := by simpa using hc
      have p1 := part_le t
      have p2 := part_pos htp
      dsimp only at g1 g3 ⊢
      cases good with
      | false =>
        refine ⟨false, d, ?_, ⟨by omega, g2, fun h => absurd h (by decide), g4⟩, by omega⟩
        rw [writePart, if_neg (by decide)]
        rfl
      | true =>
        have hfile := g3 rfl
        have hm : d.mem = d0.mem := g2.1
        have hfetch := fetch_ok (m := d.mem) hb (part t) pos (by rw [hm]; omega)
        have hlen : (bytesOf d0.mem b pos).length = pos := by
          rw [bytesOf, List.length_map, List.length_range]
        refine ⟨decide (pos + part t ≤ E.room path),
          { d with file := fun q => if q = path then some (bytesOf d0.mem b pos ++ ((List.range' pos (part t)).map (d.mem.byte b)).take (E.room path - pos)) else d.file q },
          ?_, ⟨by omega, ⟨g2.1, g2.2.1, fun q hq => ?_⟩, fun hgood => ?_, fun hroom => ?_⟩, by omega⟩
        · rw [writePart, if_pos rfl]
          refine (bind_ok (onMem_ok hfetch)).trans ((bind_ok (show getFile path d = _ from rfl)).trans ?_)
          rw [hfile, Option.getD_some, hlen]
          rfl
        · dsimp only
          rw [if_neg hq]
          exact g2.2.2 q hq
        · have : pos + part t ≤ E.room path := by simpa using hgood
          dsimp only
          rw [if_pos rfl, List.take_of_length_le (by rw [List.length_map, List.length_range']; omega), hm, bytesOf_part]
        · rw [decide_eq_true_eq]
          omega)
    fuelMax (total, 0) true d1 hf ⟨rfl, hd, fun _ => h0, fun _ => rfl⟩
  refine ⟨good, d', h1, g2, fun hg => ?_, g4⟩
  have : q.1 = 0 := by simpa using h3
  rw [g3 hg]
  congr 2
  omega

theorem save_ok {E : Env} {s : Nat} {path : String} {img : Image} {d : Disk} (h : Tight s img d) :
    (∃ d', Save E s path img d = .ok () d' ∧ OnlyFile path d d' ∧ d'.file path = some (bytesOf d.mem img.data (img.rowSize * img.height * s))) ∨
    (∃ d', Save E s path img d = .throw d' ∧ OnlyFile path d d' ∧ (E.creates path = false ∨ E.room path < img.rowSize * img.height * s)) := by
  have hsm := h.small
  have hfm : fuelMax = 18446744073709551616 := rfl
  have e0 : s * img.rowSize * img.height = img.rowSize * img.height * s := by
    rw [Nat.mul_comm s, Nat.mul_assoc, Nat.mul_comm s, ← Nat.mul_assoc]
  have e1 : u64 (u64 (s * img.rowSize) * img.height) = img.rowSize * img.height * s := by
    have : s * img.rowSize ≤ s * img.rowSize * img.height := Nat.le_mul_of_pos_right _ h.hpos
    rw [u64_of_lt (n := s * img.rowSize) (by omega), u64_of_lt (by omega), e0]
  have hv := validateImage_run h.colors h.data d
  cases hc : E.creates path with
  | false =>
    right
    refine ⟨d, ?_, ⟨rfl, rfl, fun _ _ => rfl⟩, Or.inl rfl⟩
    rw [Save, bind_ok hv, hc]
    exact bind_throw rfl
  | true =>
    obtain ⟨good, d', h1, h2, h3, h4⟩ := save_loop (E := E) (path := path) (b := img.data) (total := img.rowSize * img.height * s) h.data d h.block (by omega)
      { d with file := fun q => if q = path then some [] else d.file q } ⟨rfl, rfl, fun q hq => by dsimp only; rw [if_neg hq]⟩ (by dsimp only; rw [if_pos rfl])
    have run : Save E s path img d = throwIf (!good) d' := by
      rw [Save, bind_ok hv, hc, e1]
      exact (bind_ok (show throwIf (!true) d = .ok () d from rfl)).trans ((bind_ok (show setFile path [] d = _ from rfl)).trans (bind_ok h1))
    cases hg : good with
    | true =>
      left
      rw [hg] at run
      exact ⟨d', run, h2, h3 hg⟩
    | false =>
      right
      rw [hg] at run
      refine ⟨d', run, h2, Or.inr ?_⟩
      by_contra hroom
      have := h4 (by omega)
      rw [hg] at this
      exact absurd this (by decide)

/-- The reading loop. -/
theorem load_loop {b : Nat} (hb : b ≠ 0) (bytes : List UInt8) (d0 : Disk) (ht : bytes.length ≤ d0.mem.size b) (hf : bytes.length < fuelMax) :
    ∃ d', loop (fun q : Nat × Nat => decide (0 < q.1)) (fun q => (q.1 - part q.1, q.2 + part q.1))
      (fun q _ => onMem (store b q.2 ((bytes.drop q.2).take (part q.1)))) fuelMax (bytes.length, 0) () d0 = .ok () d' ∧
      d'.file = d0.file ∧ d'.next = d0.next ∧ d'.mem.size = d0.mem.size ∧
      (∀ i, i < bytes.length → bytes[i]? = some (d'.mem.byte b i)) ∧ ∀ b' i, b' ≠ b → d'.mem.byte b' i = d0.mem.byte b' i := by
  obtain ⟨q, _, d', h1, ⟨g1, g2, g3, g4, g5, g6⟩, h3⟩ := loop_inv (μ := Disk) (cond := fun q : Nat × Nat => decide (0 < q.1))
    (next := fun q => (q.1 - part q.1, q.2 + part q.1)) (body := fun q _ => onMem (store b q.2 ((bytes.drop q.2).take (part q.1))))
    (fun q (_ : Unit) d => q.1 + q.2 = bytes.length ∧ d.file = d0.file ∧ d.next = d0.next ∧ d.mem.size = d0.mem.size ∧
      (∀ i, i < q.2 → bytes[i]? = some (d.mem.byte b i)) ∧ ∀ b' i, b' ≠ b → d.mem.byte b' i = d0.mem.byte b' i)
    (fun q => q.1) (by
      rintro ⟨t, pos⟩ _ d ⟨g1, g2, g3, g4, g5, g6⟩ hc
      have htp : 0 < t := by simpa using hc
      have p1 := part_le t
      have p2 := part_pos htp
      dsimp only at g1 g5 ⊢
      have hl : ((bytes.drop pos).take (part t)).length = part t := by
        rw [List.length_take, List.length_drop]
        omega
      obtain ⟨m', s1, s2, s3, s4⟩ := store_ok hb ((bytes.drop pos).take (part t)) pos d.mem (by rw [hl, g4]; omega)
      rw [hl] at s3 s4
      refine ⟨(), { d with mem := m' }, onMem_ok s1, ⟨by omega, g2, g3, s2.trans g4, fun i hi => ?_, fun b' i hn => ?_⟩, by omega⟩
      · by_cases hip : i < pos
        · rw [g5 i hip]
          dsimp only
          rw [s4 b i (by omega)]
        · have := s3 (i - pos) (by omega)
          rw [show pos + (i - pos) = i by omega, List.getElem?_take_of_lt (by omega), List.getElem?_drop, show pos + (i - pos) = i by omega] at this
          exact this
      · dsimp only
        rw [s4 b' i (by intro h; exact hn h.1)]
        exact g6 b' i hn)
    fuelMax (bytes.length, 0) () d0 hf ⟨rfl, rfl, rfl, rfl, fun i hi => absurd hi (Nat.not_lt_zero _), fun _ _ _ => rfl⟩
  have hq : q.1 = 0 := by simpa using h3
  exact ⟨d', h1, g2, g3, g4, fun i hi => g5 i (by omega), g6⟩

/-- C59: Save either stores the image or throws (and then the file could not be created or has no room);
    after storing, Load gives an image of the same size, colours and bytes in new memory and changes nothing else. -/
theorem C59_raw_partial {E : Env} {s : Nat} {path : String} {img : Image} {d : Disk} (h : Tight s img d) (hp : path ≠ "") :
    (∃ d', Save E s path img d = .throw d' ∧ OnlyFile path d d' ∧ (E.creates path = false ∨ E.room path < img.rowSize * img.height * s)) ∨
    ∃ d1 d2, Save E s path img d = .ok () d1 ∧ OnlyFile path d d1 ∧
      Load s path img.width img.height img.cc d1 = .ok { img with data := d.next } d2 ∧
      img.rowSize * img.height * s ≤ d2.mem.size d.next ∧
      (∀ i, i < img.rowSize * img.height * s → d2.mem.byte d.next i = d.mem.byte img.data i) ∧
      (∀ b i, b ≠ d.next → d2.mem.byte b i = d.mem.byte b i) ∧ (∀ b, b ≠ d.next → d2.mem.size b = d.mem.size b) ∧ d2.file = d1.file := by
  rcases save_ok (E := E) (path := path) h with ⟨d1, s1, s2, s3⟩ | h2
  · right
    have hsm := h.small
    have hsp := h.spos
    have hfm : fuelMax = 18446744073709551616 := rfl
    have hccpos : 0 < img.cc := by
      rcases h.colors with hc | hc | hc <;> omega
    have e0 : img.width * img.height * img.cc * s = img.rowSize * img.height * s := by
      rw [h.row]
      ac_rfl
    have e1 : u32 (u32 (u32 (img.width * img.height) * img.cc) * s) = img.rowSize * img.height * s := by
      have l1 : img.width * img.height * img.cc ≤ img.width * img.height * img.cc * s := Nat.le_mul_of_pos_right _ (by omega)
      have l2 : img.width * img.height ≤ img.width * img.height * img.cc := Nat.le_mul_of_pos_right _ hccpos
      rw [u32_of_lt (n := img.width * img.height) (by omega), u32_of_lt (n := img.width * img.height * img.cc) (by omega), u32_of_lt (by omega), e0]
    have e2 : u32 (img.width * img.cc) = img.rowSize := by
      have l1 : img.rowSize ≤ img.rowSize * img.height := Nat.le_mul_of_pos_right _ h.hpos
      have l2 : img.rowSize * img.height ≤ img.rowSize * img.height * s := Nat.le_mul_of_pos_right _ (by omega)
      rw [← h.row, u32_of_lt (by omega)]
    have hlen : (bytesOf d.mem img.data (img.rowSize * img.height * s)).length = img.rowSize * img.height * s := by
      rw [bytesOf, List.length_map, List.length_range]
    obtain ⟨d', l1, l2, l3, l4, l5, l6⟩ := load_loop (b := d1.next) (by have := h.fresh; rw [s2.2.1]; omega) (bytesOf d.mem img.data (img.rowSize * img.height * s))
      { d1 with mem := { d1.mem with size := fun b => if b = d1.next then img.height * img.rowSize * s else d1.mem.size b }, next := d1.next + 1 }
      (by rw [hlen]; dsimp only; rw [if_pos rfl, Nat.mul_comm img.height]) (by rw [hlen]; omega)
    have hload : Load s path img.width img.height img.cc d1 = .ok { img with data := d.next } d' := by
      have e3 : (path == "" || img.width == 0 || img.height == 0 || img.cc == 0) = false := by
        have := h.wpos
        have := h.hpos
        simp only [Bool.or_eq_false_iff, beq_eq_false_iff_ne]
        exact ⟨⟨⟨hp, by omega⟩, by omega⟩, by omega⟩
      rw [Load, e3, throwIf_false, pure_bind']
      refine (bind_ok (show getFile path d1 = .ok (d1.file path) d1 from rfl)).trans ?_
      rw [s3]
      dsimp only
      rw [e1, if_neg (by rw [hlen]; simp)]
      refine (bind_ok (show newImage s img.width img.height img.cc d1 = _ from rfl)).trans ?_
      rw [e2]
      rw [hlen] at l1
      refine (bind_ok l1).trans ?_
      rw [s2.2.1]
      rfl
    refine ⟨d1, d', s1, s2, hload, ?_, fun i hi => ?_, fun b i hb => ?_, fun b hb => ?_, l2⟩
    · rw [← s2.2.1, l4]
      dsimp only
      rw [if_pos rfl, Nat.mul_comm img.height]
    · have := l5 i (by rw [hlen]; exact hi)
      rw [bytesOf, List.getElem?_map, List.getElem?_range hi] at this
      rw [← s2.2.1]
      exact (Option.some.inj this).symm
    · rw [← s2.2.1] at hb
      rw [l6 b i hb, ← s2.1]
    · rw [← s2.2.1] at hb
      rw [l4, ← s2.1]
      dsimp only
      rw [if_neg hb]
  · left
    exact h2

/-- C59: wrong parameters of Load throw, a missing file gives an image without pixels, an image without pixels is not saved. -/
theorem C59_rejects (E : Env) (s : Nat) (path : String) (w h cc : Nat) (d : Disk) :
    ((path = "" ∨ w = 0 ∨ h = 0 ∨ cc = 0) → Load s path w h cc d = .throw d) ∧
    (¬ (path = "" ∨ w = 0 ∨ h = 0 ∨ cc = 0) → d.file path = none → Load s path w h cc d = .ok noImage d) ∧
    ∀ img : Image, img.data = 0 → Save E s path img d = .throw d := by
  refine ⟨fun hb => ?_, fun hg hf => ?_, fun img hi => ?_⟩
  · have e : (path == "" || w == 0 || h == 0 || cc == 0) = true := by
      simp only [Bool.or_eq_true, beq_iff_eq]
      tauto
    rw [Load, e]
    exact bind_throw rfl
  · have e : (path == "" || w == 0 || h == 0 || cc == 0) = false := by
      simp only [Bool.or_eq_false_iff, beq_eq_false_iff_ne]
      tauto
    rw [Load, e, throwIf_false, pure_bind']
    refine (bind_ok (show getFile path d = .ok (d.file path) d from rfl)).trans ?_
    rw [hf]
    rfl
  · have e : (img.empty || !isCorrectColorCount img) = true := by simp [Image.empty, hi]
    rw [Save, validateImage, e]
    exact bind_throw rfl

/-- The storage without files; image 3 x 2 without padding. -/
def rawDisk : Disk := ⟨rawMem, 3, fun _ => none⟩

example : Tight 2 ⟨1, 3, 2, 1, 3⟩ rawDisk :=
  ⟨by decide, by decide, by decide, by decide, by decide, by decide, by decide, by decide, by decide⟩

/-- Save and Load; the image loaded and its bytes. -/
def saveLoad (img : Image) : Option (Image × List UInt8) :=
  match (Save ⟨fun _ => true, fun _ => 100⟩ 2 "a" img >>= fun _ => Load 2 "a" img.width img.height img.cc) rawDisk with
  | .ok i d => some (i, bytesOf d.mem 3 12)
  | _ => none

theorem saveLoad_tight : saveLoad ⟨1, 3, 2, 1, 3⟩ = some (⟨3, 3, 2, 1, 3⟩, [10, 11, 12, 13, 14, 15, 16, 17, 18, 19, 20, 21]) := by
  decide +kernel

/-- C59: a file of another length than the pixels need gives an image without pixels. -/
theorem C59_length (s : Nat) {path : String} {w h cc : Nat} {d : Disk} {bytes : List UInt8} (hg : ¬ (path = "" ∨ w = 0 ∨ h = 0 ∨ cc = 0)) (hf : d.file path = some bytes)
    (hs : w * h * cc * s < 4294967296) (hl : bytes.length ≠ w * h * cc * s) : Load s path w h cc d = .ok noImage d := by
  have e : (path == "" || w == 0 || h == 0 || cc == 0) = false := by
    simp only [Bool.or_eq_false_iff, beq_eq_false_iff_ne]
    tauto
  have h2 : u32 (u32 (u32 (w * h) * cc) * s) = w * h * cc * s := by
    have : u32 (u32 (u32 (w * h) * cc) * s) = w * h * cc * s % 4294967296 := by
      simp only [u32, Nat.mul_mod, Nat.mod_mod]
    rw [this, Nat.mod_eq_of_lt hs]
  rw [Load, e, throwIf_false, pure_bind']
  refine (bind_ok (show getFile path d = .ok (d.file path) d from rfl)).trans ?_
  rw [hf]
  dsimp only
  rw [h2, if_pos hl]
  rfl

example : ∃ w h cc s : Nat, ∃ bytes : List UInt8, w * h * cc * s < 4294967296 ∧ 0 < w * h * cc ∧ bytes.length ≠ w * h * cc * s := ⟨2, 3, 1, 2, [1], by decide, by decide, by decide⟩

/-- **C59.** The image given for files which cannot be loaded has no storage, no rows and no columns. -/
theorem C59_noImage : noImage.empty = true ∧ noImage.data = 0 ∧ noImage.width = 0 ∧ noImage.height = 0 ∧ noImage.rowSize = 0 := by decide

/-- C59 is false for an image with padding at the end of the rows: the image loaded has no pixels. -/
theorem C59_wrong : (saveLoad rawImg).map Prod.fst = some noImage := by
  decide +kernel

end PV.Props
