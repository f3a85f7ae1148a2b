import Verif.BmpLemmas
/-
  C58: an image saved as bitmap file and loaded again is the same image.
-/
namespace PV.Props
open PV PV.Raw PV.Bmp

/-! ### C58 -/

/-- Bytes of a row in the file: a multiple of four -/
def bmpLine (w cc : Nat) : Nat := (w * cc + 3) / 4 * 4

/-- Bytes before the pixels: headers and, for gray-scale images, 256 colours -/
def bmpOffset (cc : Nat) : Nat := if cc = 1 then 1078 else 54

/-- The rectangle is part of the image and the file has less than 4 GiB. -/
structure Storable (v : View) (w h : Nat) (d : Disk) : Prop where
  fits : v.Fits w h
  wf : v.img.WF d.mem
  small : bmpOffset v.img.cc + bmpLine w v.img.cc * h < 4294967296

/-- The rectangle may be saved and loaded: the file has 76 bytes or more and less than 4 GiB. -/
structure Savable (v : View) (w h : Nat) (d : Disk) : Prop extends Storable v w h d where
  fresh : v.img.data < d.next
  narrow : w < 2147483648
  big : 76 ≤ bmpOffset v.img.cc + bmpLine w v.img.cc * h

theorem aligned_eq {w cc : Nat} (h : bmpLine w cc < 4294967296) : aligned (u32 (w * cc)) = bmpLine w cc := by
  rw [bmpLine] at h ⊢
  obtain ⟨n, hn⟩ : ∃ n, w * cc = n := ⟨_, rfl⟩
  rw [hn] at h ⊢
  rw [u32_of_lt (by omega), aligned]
  split
  · rw [u32]
    omega
  · omega

theorem toI32_of_lt {n : Nat} (h : n < 2147483648) : toI32 n = n := by rw [toI32, if_pos h]

theorem ofI32_natCast {n : Nat} (h : n < 4294967296) : ofI32 (n : Int) = n := by
  rw [ofI32]
  omega

/-! #### Writing -/

/-- What was written to the file so far -/
def Wrote (E : Env) (path : String) (d0 : Disk) (l : List UInt8) (good : Bool) (d : Disk) : Prop :=
  OnlyFile path d0 d ∧ (good = true → d.file path = some l) ∧ (l.length ≤ E.room path → good = true)

theorem put_ok {E : Env} {path : String} {d0 d : Disk} {l : List UInt8} {good : Bool} (h : Wrote E path d0 l good d) (vs : List UInt8) :
    ∃ good' d', put E path vs good d = .ok good' d' ∧ Wrote E path d0 (l ++ vs) good' d' := by
  obtain ⟨h1, h2, h3⟩ := h
  cases good with
  | false =>
    refine ⟨false, d, ?_, h1, fun h => absurd h (by decide), fun h => h3 ?_⟩
    · rw [put, if_neg (by decide)]
      rfl
    · rw [List.length_append] at h
      omega
  | true =>
    have hf := h2 rfl
    refine ⟨decide (l.length + vs.length ≤ E.room path), { d with file := fun q => if q = path then some (l ++ vs.take (E.room path - l.length)) else d.file q }, ?_,
      ⟨h1.1, h1.2.1, fun q hq => ?_⟩, fun hg => ?_, fun hl => ?_⟩
    · rw [put, if_pos rfl, bind_ok (show getFile path d = .ok (d.file path) d from rfl), hf]
      rfl
    · dsimp only
      rw [if_neg hq]
      exact h1.2.2 q hq
    · have : l.length + vs.length ≤ E.room path := by simpa using hg
      dsimp only
      rw [if_pos rfl, List.take_of_length_le (by omega)]
    · rw [List.length_append] at hl
      simpa using hl

/-- A row of the rectangle -/
def rowBytes (m : BMem) (v : View) (w k : Nat) : List UInt8 := (List.range' (v.cell 0 k 0) (w * v.img.cc)).map (m.byte v.img.data)

theorem length_rowBytes (m : BMem) (v : View) (w k : Nat) : (rowBytes m v w k).length = w * v.img.cc := by
  rw [rowBytes, List.length_map, List.length_range']

theorem saveRow_ok {E : Env} {path : String} {d0 d : Disk} {l : List UInt8} {good : Bool} (hw : Wrote E path d0 l good d) {v : View} {w k diff : Nat} {p : Int}
    (hd : v.img.data ≠ 0) (hp : p = ((v.cell 0 k 0 : Nat) : Int)) (hin : v.cell 0 k 0 + w * v.img.cc ≤ d0.mem.size v.img.data) (hdiff : diff ≤ 4) :
    ∃ good' d', saveRow E path v.img.data (w * v.img.cc) diff p good d = .ok good' d' ∧
      Wrote E path d0 (l ++ (rowBytes d0.mem v w k ++ List.replicate diff 0)) good' d' := by
  have hm : d.mem = d0.mem := hw.1.1
  have hrow : ∃ g1 d1, putRow E path v.img.data (w * v.img.cc) p good d = .ok g1 d1 ∧ Wrote E path d0 (l ++ rowBytes d0.mem v w k) g1 d1 := by
    obtain ⟨g1, d1, a1, a2⟩ := put_ok hw (rowBytes d0.mem v w k)
    cases good with
    | false =>
      rw [put, if_neg (by decide)] at a1
      rw [putRow, if_neg (by decide)]
      exact ⟨g1, d1, a1, a2⟩
    | true =>
      refine ⟨g1, d1, ?_, a2⟩
      have hfetch := fetch_ok (m := d.mem) hd (w * v.img.cc) (v.cell 0 k 0) (by rw [hm]; exact hin)
      rw [putRow, if_pos rfl, ptr, if_neg (by omega), hp, Int.toNat_natCast, bind_ok (onMem_ok hfetch)]
      show put E path ((List.range' (v.cell 0 k 0) (w * v.img.cc)).map (d.mem.byte v.img.data)) true d = _
      rw [show d.mem.byte = d0.mem.byte by rw [hm]]
      exact a1
  obtain ⟨g1, d1, a1, a2⟩ := hrow
  obtain ⟨g2, d2, b1, b2⟩ := put_ok a2 (List.replicate diff 0)
  refine ⟨g2, d2, ?_, ?_⟩
  · rw [saveRow, bind_ok a1, putZero, if_neg (by omega)]
    exact b1
  · rw [← List.append_assoc]
    exact b2

/-- The rows of the file, the last row of the rectangle first -/
def rowsBytes (m : BMem) (v : View) (w h diff n : Nat) : List UInt8 := (List.range n).flatMap fun k => rowBytes m v w (h - 1 - k) ++ List.replicate diff 0

theorem rowsBytes_succ (m : BMem) (v : View) (w h diff n : Nat) :
    rowsBytes m v w h diff (n + 1) = rowsBytes m v w h diff n ++ (rowBytes m v w (h - 1 - n) ++ List.replicate diff 0) := by
  rw [rowsBytes, rowsBytes, List.range_succ, List.flatMap_append, List.flatMap_singleton]

theorem length_rowsBytes (m : BMem) (v : View) (w h diff : Nat) : ∀ n, (rowsBytes m v w h diff n).length = n * (w * v.img.cc + diff) := by
  intro n
  induction n with
  | zero => rw [Nat.zero_mul]; rfl
  | succ n ih =>
    rw [rowsBytes_succ, List.length_append, ih, List.length_append, length_rowBytes, List.length_replicate, Nat.add_mul, Nat.one_mul]

theorem rowsBytes_get {m : BMem} {v : View} {w h diff k i : Nat} : ∀ n, k < n → i < w * v.img.cc →
    (rowsBytes m v w h diff n)[k * (w * v.img.cc + diff) + i]? = some (m.byte v.img.data (v.cell 0 (h - 1 - k) 0 + i)) := by
  intro n
  induction n with
  | zero => intro hk; exact absurd hk (Nat.not_lt_zero _)
  | succ n ih =>
    intro hk hi
    rw [rowsBytes_succ]
    by_cases e : k = n
    · subst e
      rw [List.getElem?_append_right (by rw [length_rowsBytes]; omega), length_rowsBytes, Nat.add_sub_cancel_left,
        List.getElem?_append_left (by rw [length_rowBytes]; exact hi), rowBytes, List.getElem?_map, List.getElem?_range' (by omega), Nat.one_mul]
      rfl
    · rw [List.getElem?_append_left, ih (by omega) hi]
      rw [length_rowsBytes]
      have : (k + 1) * (w * v.img.cc + diff) ≤ n * (w * v.img.cc + diff) := Nat.mul_le_mul_right _ (by omega)
      rw [Nat.add_mul, Nat.one_mul] at this
      omega

/-- The colours in the file -/
def palleteOf (cc : Nat) : List UInt8 := if cc = 1 then grayPallete else []

theorem length_grayPallete : grayPallete.length = 1024 := by decide +kernel

theorem length_palleteOf (cc : Nat) : 54 + (palleteOf cc).length = bmpOffset cc := by
  rw [palleteOf, bmpOffset]
  split
  · rw [length_grayPallete]
  · rfl

/-- The file -/
def bmpBytes (m : BMem) (v : View) (w h : Nat) : List UInt8 :=
  fileHeaderBytes (fileHeader (palleteOf v.img.cc).length (bmpLine w v.img.cc) h) ++
    (infoHeaderBytes (infoHeader w h v.img.cc (bmpLine w v.img.cc)) ++
      (palleteOf v.img.cc ++ rowsBytes m v w h (bmpLine w v.img.cc - w * v.img.cc) h))

theorem bmpLine_ge (w cc : Nat) : w * cc ≤ bmpLine w cc ∧ bmpLine w cc < w * cc + 4 := by
  rw [bmpLine]
  omega

theorem length_bmpBytes (m : BMem) (v : View) (w h : Nat) : (bmpBytes m v w h).length = bmpOffset v.img.cc + bmpLine w v.img.cc * h := by
  have hl := bmpLine_ge w v.img.cc
  rw [bmpBytes, List.length_append, List.length_append, List.length_append, length_fileHeaderBytes, length_infoHeaderBytes, length_rowsBytes,
    ← length_palleteOf, show w * v.img.cc + (bmpLine w v.img.cc - w * v.img.cc) = bmpLine w v.img.cc by omega, Nat.mul_comm h]
  omega

theorem bmpLine_lt {v : View} {w h : Nat} {d : Disk} (s : Storable v w h d) : bmpLine w v.img.cc < 4294967296 ∧ h < 4294967296 / 4 ∧ 4 ≤ bmpLine w v.img.cc := by
  have h1 := s.small
  have hh := s.fits.hpos
  have hw := s.fits.wpos
  have hcc : 0 < v.img.cc := by rcases s.fits.colors with h | h | h <;> omega
  have hwc : 0 < w * v.img.cc := Nat.mul_pos hw hcc
  have h2 : bmpLine w v.img.cc * 1 ≤ bmpLine w v.img.cc * h := Nat.mul_le_mul_left _ hh
  have h4 : 4 ≤ bmpLine w v.img.cc := by
    rw [bmpLine]
    omega
  have h3 : 4 * h ≤ bmpLine w v.img.cc * h := Nat.mul_le_mul_right _ h4
  refine ⟨?_, ?_, h4⟩
  · omega
  · have : 4294967296 / 4 = 1073741824 := rfl
    rw [this, bmpOffset] at *
    split at h1 <;> omega

theorem cell_in {v : View} {w h k : Nat} {m : BMem} (fits : v.Fits w h) (wf : v.img.WF m) (hk : k < h) :
    v.cell 0 k 0 + w * v.img.cc ≤ m.size v.img.data := by
  have h1 := wf.row
  have h2 := wf.block
  have h3 := fits.inX
  have h4 := fits.inY
  have h5 : (v.x + w) * v.img.cc ≤ v.img.width * v.img.cc := Nat.mul_le_mul_right _ h3
  have h6 : (v.y + k + 1) * v.img.rowSize ≤ v.img.height * v.img.rowSize := Nat.mul_le_mul_right _ (by omega)
  rw [View.cell]
  rw [Nat.add_mul] at h5 h6
  rw [Nat.mul_comm v.img.height] at h6
  rw [Nat.add_zero, Nat.add_zero]
  omega

theorem save_bmp {E : Env} {path : String} {v : View} {w h : Nat} {d : Disk} (s : Storable v w h d) :
    (∃ d', Bmp.Save E path v w h d = .ok () d' ∧ OnlyFile path d d' ∧ d'.file path = some (bmpBytes d.mem v w h)) ∨
    (∃ d', Bmp.Save E path v w h d = .throw d' ∧ OnlyFile path d d' ∧
      (E.creates path = false ∨ E.room path < bmpOffset v.img.cc + bmpLine w v.img.cc * h)) := by
  obtain ⟨hl1, hl2, hl3⟩ := bmpLine_lt s
  have hll := bmpLine_ge w v.img.cc
  have hfacts := View.facts s.wf s.fits
  have hin := s.fits.inY
  have hsm := s.wf.small
  have hv : validateRoi v w h d = .ok () d := validateRoi_ok d s.fits (by omega) (by omega)
  have hal := aligned_eq hl1
  cases hc : E.creates path with
  | false =>
    right
    refine ⟨d, ?_, ⟨rfl, rfl, fun _ _ => rfl⟩, Or.inl rfl⟩
    rw [Bmp.Save, bind_ok hv, hc]
    exact bind_throw rfl
  | true =>
    have w0 : Wrote E path d [] true { d with file := fun q => if q = path then some [] else d.file q } :=
      ⟨⟨rfl, rfl, fun q hq => by dsimp only; rw [if_neg hq]⟩, fun _ => by dsimp only; rw [if_pos rfl], fun _ => rfl⟩
    have eT : bmpLine w v.img.cc = aligned (u32 (w * v.img.cc)) := hal.symm
    obtain ⟨g1, d1, a1, a2⟩ := put_ok w0 (fileHeaderBytes (fileHeader (palleteOf v.img.cc).length (bmpLine w v.img.cc) h))
    obtain ⟨g2, d2, b1, b2⟩ := put_ok a2 (infoHeaderBytes (infoHeader w h v.img.cc (bmpLine w v.img.cc)))
    obtain ⟨g3, d3, c1, c2⟩ := put_ok b2 (palleteOf v.img.cc)
    obtain ⟨l0, hl0⟩ : ∃ l, [] ++ fileHeaderBytes (fileHeader (palleteOf v.img.cc).length (bmpLine w v.img.cc) h) ++
      infoHeaderBytes (infoHeader w h v.img.cc (bmpLine w v.img.cc)) ++ palleteOf v.img.cc = l := ⟨_, rfl⟩
    rw [hl0] at c2
    have hdiff : u64 (bmpLine w v.img.cc + 18446744073709551616 - w * v.img.cc) = bmpLine w v.img.cc - w * v.img.cc := by
      rw [u64]
      omega
    have hstart : (u32 (u32 (u32 (v.y + h) + 4294967295) * v.img.rowSize) + u32 (v.x * v.img.cc) : Nat) = v.cell 0 (h - 1) 0 := by
      obtain ⟨f1, f2, f3, f4, f5, f6, f7, f8, f9, f10⟩ := hfacts
      have hhp := s.fits.hpos
      have e1 : u32 (v.y + h) = v.y + h := u32_of_lt (by omega)
      have e2 : u32 (v.y + h + 4294967295) = v.y + (h - 1) := by
        rw [u32]
        omega
      have hlt : (v.y + (h - 1)) * v.img.rowSize < 4294967296 := by
        have : (v.y + (h - 1)) * v.img.rowSize ≤ v.img.height * v.img.rowSize := Nat.mul_le_mul_right _ (by omega)
        rw [Nat.mul_comm v.img.height] at this
        omega
      rw [e1, e2, u32_of_lt hlt, u32_of_lt f8, View.cell, Nat.add_zero, Nat.add_zero]
    obtain ⟨q, g4, d4, k1, ⟨k, k2, k3, k4⟩, k5⟩ := loop_inv (μ := Disk) (cond := fun q : Nat × Int => decide (q.1 < h))
      (next := fun q => (q.1 + 1, q.2 - (v.img.rowSize : Int)))
      (body := fun q good => saveRow E path v.img.data (w * v.img.cc) (bmpLine w v.img.cc - w * v.img.cc) q.2 good)
      (fun q good d' => ∃ k, q = (k, ((v.cell 0 (h - 1) 0 : Nat) : Int) - ((k * v.img.rowSize : Nat) : Int)) ∧ k ≤ h ∧
        Wrote E path d (l0 ++ rowsBytes d.mem v w h (bmpLine w v.img.cc - w * v.img.cc) k) good d')
      (fun q => h - q.1) (by
        rintro q good d' ⟨k, rfl, hk, hw⟩ hcnd
        have hk2 : k < h := by simpa using hcnd
        dsimp only
        have e1 : ((v.cell 0 (h - 1) 0 : Nat) : Int) - ((k * v.img.rowSize : Nat) : Int) = ((v.cell 0 (h - 1 - k) 0 : Nat) : Int) := by
          rw [View.cell, View.cell]
          have : (v.y + (h - 1)) * v.img.rowSize = (v.y + (h - 1 - k)) * v.img.rowSize + k * v.img.rowSize := by
            rw [← Nat.add_mul]
            congr 1
            omega
          omega
        obtain ⟨g', d'', r1, r2⟩ := saveRow_ok (diff := bmpLine w v.img.cc - w * v.img.cc) (w := w) (k := h - 1 - k) (v := v)
          (p := ((v.cell 0 (h - 1) 0 : Nat) : Int) - ((k * v.img.rowSize : Nat) : Int)) hw s.fits.nonempty e1
          (cell_in s.fits s.wf (by omega)) (by omega)
        refine ⟨g', d'', r1, ⟨k + 1, Prod.ext rfl ?_, by omega, ?_⟩, by omega⟩
        · dsimp only
          rw [Nat.add_mul, Nat.one_mul]
          omega
        · rw [rowsBytes_succ, ← List.append_assoc]
          exact r2)
      fuelMax (0, ((v.cell 0 (h - 1) 0 : Nat) : Int)) g3 d3 (by
        have hfm : fuelMax = 18446744073709551616 := rfl
        dsimp only
        omega) ⟨0, by rw [Nat.zero_mul]; simp, by omega, by
          show Wrote E path d (l0 ++ []) g3 d3
          rw [List.append_nil]
          exact c2⟩
    have hk : k = h := by
      have : ¬ q.1 < h := by simpa using k5
      rw [k2] at this
      dsimp only at this
      omega
    rw [hk, ← hl0] at k4
    have econt : [] ++ fileHeaderBytes (fileHeader (palleteOf v.img.cc).length (bmpLine w v.img.cc) h) ++
        infoHeaderBytes (infoHeader w h v.img.cc (bmpLine w v.img.cc)) ++ palleteOf v.img.cc ++
        rowsBytes d.mem v w h (bmpLine w v.img.cc - w * v.img.cc) h = bmpBytes d.mem v w h := by
      rw [bmpBytes]
      simp only [List.append_assoc, List.nil_append]
    rw [econt] at k4
    have run : Bmp.Save E path v w h d = throwIf (!g4) d4 := by
      rw [Bmp.Save, bind_ok hv, hc]
      refine (bind_ok (show throwIf (!true) d = .ok () d from rfl)).trans ((bind_ok (show setFile path [] d = _ from rfl)).trans ?_)
      rw [hal]
      show saveFile E path v w h (palleteOf v.img.cc) (bmpLine w v.img.cc) _ = _
      rw [saveFile]
      refine (bind_ok (fileHeader_get _ (by rw [List.length_replicate]; omega) _)).trans ?_
      rw [List.take_left' (length_fileHeaderBytes _)]
      refine (bind_ok a1).trans ?_
      refine (bind_ok (infoHeader_get _ (by
        rw [resize, List.length_append, List.length_replicate, List.length_take]
        omega) _)).trans ?_
      rw [List.take_left' (length_infoHeaderBytes _)]
      refine (bind_ok b1).trans ((bind_ok c1).trans ?_)
      rw [hdiff, hstart]
      exact bind_ok k1
    cases hg : g4 with
    | true =>
      left
      rw [hg] at run
      exact ⟨d4, run, k4.1, k4.2.1 hg⟩
    | false =>
      right
      rw [hg] at run
      refine ⟨d4, run, k4.1, Or.inr ?_⟩
      by_contra hroom
      have := k4.2.2 (by rw [length_bmpBytes]; omega)
      rw [hg] at this
      exact absurd this (by decide)

/-! #### Reading -/

theorem field_skip {n o k v : Nat} {rest : List UInt8} (h : k ≤ o) : field n o (le k v ++ rest) = field n (o - k) rest := by
  have : o = (le k v).length + (o - k) := by rw [length_le]; omega
  rw [field, field, this, ← List.drop_drop, List.drop_left, length_le]
  congr 3
  omega

theorem field_here4 {v : Nat} {rest : List UInt8} (h : v < 4294967296) : field 4 0 (le 4 v ++ rest) = v := field_at (pre := []) rfl h

theorem field_here2 {v : Nat} {rest : List UInt8} (h : v < 65536) : field 2 0 (le 2 v ++ rest) = v := field_at (pre := []) rfl h

theorem field_last4 {v : Nat} (h : v < 4294967296) : field 4 0 (le 4 v) = v := by
  rw [← List.append_nil (le 4 v)]
  exact field_here4 h

theorem infoOf_bytes {h : InfoHeader} (h1 : h.biSize < 4294967296) (h2 : 0 ≤ h.biWidth ∧ h.biWidth < 2147483648) (h3 : 0 ≤ h.biHeight ∧ h.biHeight < 2147483648)
    (h4 : h.biPlanes < 65536) (h5 : h.biBitCount < 65536) (h6 : h.biCompress < 4294967296) (h7 : h.biSizeImage < 4294967296)
    (h8 : h.biXPelsPerMeter < 4294967296) (h9 : h.biYPelsPerMeter < 4294967296) (h10 : h.biClrUsed < 4294967296) (h11 : h.biClrImportant < 4294967296)
    (h12 : h.flipped = true) : infoOf (infoHeaderBytes h) = h := by
  have e1 : ofI32 h.biWidth < 4294967296 := by rw [ofI32]; omega
  have e2 : ofI32 h.biHeight < 4294967296 := by rw [ofI32]; omega
  have e3 : toI32 (ofI32 h.biWidth) = h.biWidth := by
    rw [toI32, ofI32, if_pos (by omega)]
    omega
  have e4 : toI32 (ofI32 h.biHeight) = h.biHeight := by
    rw [toI32, ofI32, if_pos (by omega)]
    omega
  rw [infoOf, infoHeaderBytes, h12, if_pos rfl]
  simp [field_skip, field_here4, field_here2, field_last4, h1, h4, h5, h6, h7, h8, h9, h10, h11, e1, e2, e3, e4]
  rw [← h12]

theorem fields_bmp {m : BMem} {v : View} {w h : Nat} :
    field 2 0 (bmpBytes m v w h) = 0x4D42 ∧ field 4 10 (bmpBytes m v w h) = bmpOffset v.img.cc ∧ field 4 14 (bmpBytes m v w h) = 40 := by
  have hp := length_palleteOf v.img.cc
  have ho : bmpOffset v.img.cc < 4294967296 := by
    rw [bmpOffset]
    split <;> decide
  have h1 : u32 (14 + 40 + (palleteOf v.img.cc).length) = bmpOffset v.img.cc := by rw [u32_of_lt] <;> omega
  refine ⟨?_, ?_, ?_⟩
  · rw [bmpBytes, fileHeaderBytes, List.append_assoc, fileHeader]
    exact field_here2 (v := 0x4D42) (by decide)
  · rw [bmpBytes, fileHeaderBytes, fileHeader, h1]
    simp only [List.append_assoc]
    rw [field_skip (by decide), field_skip (by decide), field_skip (by decide), field_skip (by decide)]
    exact field_here4 ho
  · have e : (fileHeaderBytes (fileHeader (palleteOf v.img.cc).length (bmpLine w v.img.cc) h)).length = 14 := length_fileHeaderBytes _
    rw [bmpBytes, field, ← e, List.drop_left, infoHeaderBytes, List.append_assoc]
    exact field_here4 (v := 40) (by decide)

/-- The second header of the file -/
theorem info_bmp {m : BMem} {v : View} {w h : Nat} (hw : w < 2147483648) (hh : h < 2147483648) (hcc : v.img.cc ≤ 4) :
    infoOf (((bmpBytes m v w h).drop 14).take 40) = infoHeader w h v.img.cc (bmpLine w v.img.cc) := by
  have e1 : (fileHeaderBytes (fileHeader (palleteOf v.img.cc).length (bmpLine w v.img.cc) h)).length = 14 := length_fileHeaderBytes _
  rw [bmpBytes, ← e1, List.drop_left, List.take_left' (length_infoHeaderBytes _)]
  have hu := u32_lt (bmpLine w v.img.cc * h)
  refine infoOf_bytes (show 40 < 4294967296 by decide) ?_ ?_ (show 1 < 65536 by decide) ?_ (show 0 < 4294967296 by decide) ?_
    (show 0 < 4294967296 by decide) (show 0 < 4294967296 by decide) (show 0 < 4294967296 by decide) (show 0 < 4294967296 by decide) rfl
  · rw [infoHeader, toI32_of_lt hw]
    dsimp only
    omega
  · rw [infoHeader, toI32_of_lt hh]
    dsimp only
    omega
  · rw [infoHeader]
    dsimp only
    omega
  · rw [infoHeader]
    exact hu

/-- Load of the file: the image and its memory -/
theorem load_bmp {path : String} {v : View} {w h : Nat} {m : BMem} {d : Disk} (hp : path ≠ "") (hf : d.file path = some (bmpBytes m v w h))
    (colors : v.img.cc = 1 ∨ v.img.cc = 3 ∨ v.img.cc = 4) (hw0 : 0 < w) (hh0 : 0 < h) (hw : w < 2147483648)
    (small : bmpOffset v.img.cc + bmpLine w v.img.cc * h < 4294967296) (big : 76 ≤ bmpOffset v.img.cc + bmpLine w v.img.cc * h)
    (hl1 : bmpLine w v.img.cc < 4294967296) (hl2 : h < 1073741824) (hnext : d.next ≠ 0) :
    ∃ d', Bmp.Load path d = .ok ⟨d.next, w, h, v.img.cc, bmpLine w v.img.cc⟩ d' ∧ d'.file = d.file ∧
      bmpLine w v.img.cc * h ≤ d'.mem.size d.next ∧
      (∀ y i, y < h → i < w * v.img.cc → d'.mem.byte d.next (y * bmpLine w v.img.cc + i) = m.byte v.img.data (v.cell 0 y 0 + i)) ∧
      (∀ b i, b ≠ d.next → d'.mem.byte b i = d.mem.byte b i) ∧ ∀ b, b ≠ d.next → d'.mem.size b = d.mem.size b := by
  obtain ⟨f1, f2, f3⟩ := fields_bmp (m := m) (v := v) (w := w) (h := h)
  obtain ⟨L, hL⟩ : ∃ L, bmpLine w v.img.cc = L := ⟨_, rfl⟩
  obtain ⟨O, hO⟩ : ∃ O, bmpOffset v.img.cc = O := ⟨_, rfl⟩
  have hlen := length_bmpBytes m v w h
  have hpal := length_palleteOf v.img.cc
  have hge := bmpLine_ge w v.img.cc
  have hinfo := info_bmp (m := m) (v := v) hw (by omega : h < 2147483648) (by omega : v.img.cc ≤ 4)
  have hal := aligned_eq hl1
  have hLpos : 0 < w * v.img.cc := Nat.mul_pos hw0 (by omega)
  have hLh : 0 < bmpLine w v.img.cc * h := Nat.mul_pos (by omega) hh0
  obtain ⟨info, hinfoD⟩ : ∃ info, infoHeader w h v.img.cc (bmpLine w v.img.cc) = info := ⟨_, rfl⟩
  have hset : Dib.set (μ := Disk) 40 (((bmpBytes m v w h).drop 14).take 40) d = .ok (.info info) d := by
    have hl40 : (((bmpBytes m v w h).drop 14).take 40).length = 40 := by
      rw [List.length_take, List.length_drop, hlen]
      omega
    rw [Dib.set, if_neg (by decide)]
    refine (bind_ok (a := info) (m' := d) ?_).trans rfl
    rw [infoHeader_set (by omega), hinfo, InfoHeader.orient, if_neg, ← hinfoD]
    · rfl
    · rw [infoHeader, toI32_of_lt (n := h) (by omega)]
      dsimp only
      omega
  have i1 : (Dib.info info).width = w := by
    rw [← hinfoD, Dib.width, infoHeader, toI32_of_lt hw]
    exact ofI32_natCast (by omega)
  have i2 : (Dib.info info).height = h := by
    rw [← hinfoD, Dib.height, infoHeader, toI32_of_lt (n := h) (by omega)]
    exact ofI32_natCast (by omega)
  have i3 : (Dib.info info).colorCount = v.img.cc := by
    rw [← hinfoD, Dib.colorCount, infoHeader]
    dsimp only
    omega
  have i4 : (Dib.info info).isFlipped = true := by
    rw [← hinfoD]
    rfl
  have ival : (Dib.info info).validate (fileOf (bmpBytes m v w h)) = false := by
    have hoff : ¬ (fileOf (bmpBytes m v w h)).bfOffBits < 54 := by
      rw [fileOf]
      dsimp only
      rw [f2]
      omega
    have hcc8 : v.img.cc * 8 % 65536 / 8 % 256 = v.img.cc := by omega
    have hbits : v.img.cc * 8 % 65536 = 8 ∨ v.img.cc * 8 % 65536 = 24 ∨ v.img.cc * 8 % 65536 = 32 := by omega
    rw [← hinfoD, infoHeader, Dib.validate, toI32_of_lt hw, toI32_of_lt (n := h) (by omega), ofI32_natCast (by omega), ofI32_natCast (by omega)]
    dsimp only
    rw [hcc8, hal]
    have hw1 : ¬ w = 0 := by omega
    have hh1 : ¬ h = 0 := by omega
    rcases hbits with hb | hb | hb <;> simp [hb, hw1, hh1, hoff]
  have hpl : readPallete (bmpBytes m v w h) (14 + 40) (bmpOffset v.img.cc - 40 - 14) d = .ok (palleteOf v.img.cc) d := by
    rw [readPallete_ok (by rw [hlen]; omega) (by rw [fuelMax]; omega)]
    have e1 : (fileHeaderBytes (fileHeader (palleteOf v.img.cc).length (bmpLine w v.img.cc) h)).length = 14 := length_fileHeaderBytes _
    have e2 : (infoHeaderBytes (infoHeader w h v.img.cc (bmpLine w v.img.cc))).length = 40 := length_infoHeaderBytes _
    have e3 : (palleteOf v.img.cc).length = bmpOffset v.img.cc - 40 - 14 := by omega
    rw [← List.drop_drop, bmpBytes, ← e1, List.drop_left, ← e2, List.drop_left, e2, e1, List.take_left' e3]
  have h256 : is256 (.info info) (palleteOf v.img.cc) = false := by
    rw [is256, i3, palleteOf]
    by_cases hc1 : v.img.cc = 1
    · rw [if_pos hc1]
      simp
    · rw [if_neg hc1]
      simp
  have hLtot : u64 (bmpLine w v.img.cc * h) = bmpLine w v.img.cc * h := u64_of_lt (by omega)
  have hfm : fuelMax = 18446744073709551616 := rfl
  obtain ⟨d1, p1, p2, p3, p4, p5, p6⟩ := readPixels_ok (b := d.next) (pos := bmpOffset v.img.cc) (total := bmpLine w v.img.cc * h) hnext (bmpBytes m v w h)
    { d with mem := { d.mem with size := fun b => if b = d.next then h * bmpLine w v.img.cc else d.mem.size b }, next := d.next + 1 }
    (by dsimp only; rw [if_pos rfl, Nat.mul_comm h]) (by omega)
  have hsz : d1.mem.size d.next = bmpLine w v.img.cc * h := by
    rw [p4]
    dsimp only
    rw [if_pos rfl, Nat.mul_comm h]
  obtain ⟨m2, q1, q2, q3, q4⟩ := flipData_ok (img := ⟨d.next, w, h, v.img.cc, bmpLine w v.img.cc⟩) (m := d1.mem) hnext (by dsimp only; rw [hsz])
    (by dsimp only; omega) (by dsimp only; omega)
  dsimp only at q1 q2 q3 q4
  refine ⟨{ d1 with mem := m2 }, ?_, p2, ?_, fun y i hy hi => ?_, fun b i hb => ?_, fun b hb => ?_⟩
  · rw [Bmp.Load, show (path == "") = false by simpa using hp, throwIf_false, pure_bind']
    refine (bind_ok (show getFile path d = .ok (d.file path) d from rfl)).trans ?_
    rw [hf]
    dsimp only
    rw [loadBytes_eq (by rw [hlen]; exact big), f1, f2, f3, if_neg (by rw [hlen]; omega), bind_ok hset, decide2, ival, i1, i2, i3, hal]
    have e0 : (fileOf (bmpBytes m v w h)).bfOffBits = bmpOffset v.img.cc := f2
    rw [e0, u32_of_lt (n := bmpLine w v.img.cc * h) (by omega), u32_of_lt small, hlen, if_neg (by simp)]
    rw [loadPixels, e0, i1, i3, hal]
    refine (bind_ok hpl).trans ?_
    rw [h256, if_neg (by decide), i1, i2, i3, i4]
    refine (bind_ok (show newImage4 w h v.img.cc d = _ from rfl)).trans ?_
    rw [hal]
    dsimp only
    rw [hLtot]
    refine (bind_ok p1).trans ?_
    refine (bind_ok (onMem_ok (m := m2) (a := ()) ?_)).trans rfl
    rw [finish, if_pos rfl]
    exact (bind_ok (show convertIf false _ _ _ d1.mem = .ok () d1.mem from rfl)).trans q1
  · dsimp only
    rw [q2, hsz]
  · dsimp only
    rw [q3 y i hy (by omega)]
    have hk : h - 1 - (h - 1 - y) = y := by omega
    have hlt : (h - 1 - y) * bmpLine w v.img.cc + i < bmpLine w v.img.cc * h := by
      have : (h - 1 - y + 1) * bmpLine w v.img.cc ≤ h * bmpLine w v.img.cc := Nat.mul_le_mul_right _ (by omega)
      rw [Nat.add_mul, Nat.one_mul, Nat.mul_comm h] at this
      omega
    apply p5 _ hlt
    have g := rowsBytes_get (m := m) (v := v) (w := w) (h := h) (diff := bmpLine w v.img.cc - w * v.img.cc) (k := h - 1 - y) (i := i) h (by omega) hi
    rw [hk, show w * v.img.cc + (bmpLine w v.img.cc - w * v.img.cc) = bmpLine w v.img.cc by omega] at g
    have e1 : (fileHeaderBytes (fileHeader (palleteOf v.img.cc).length (bmpLine w v.img.cc) h)).length = 14 := length_fileHeaderBytes _
    have e2 : (infoHeaderBytes (infoHeader w h v.img.cc (bmpLine w v.img.cc))).length = 40 := length_infoHeaderBytes _
    rw [bmpBytes, List.getElem?_append_right (by omega), List.getElem?_append_right (by omega), List.getElem?_append_right (by omega), e1, e2, ← g]
    congr 1
    omega
  · dsimp only
    rw [q4 b i (by intro hh; exact hb hh.1), p6 b i hb]
  · dsimp only
    rw [q2, p4]
    dsimp only
    rw [if_neg hb]

/-- C58: Save stores the rectangle or throws, and then the file could not be created or has no room; after storing, Load gives an image of
    the same size, colours and pixels in new memory and changes nothing else.  Missing: files below 76 bytes and from 4 GiB on and gray-scale
    rows of 2 GiB. -/
theorem C58_bmp_partial {E : Env} {path : String} {v : View} {w h : Nat} {d : Disk} (s : Savable v w h d) (hp : path ≠ "") :
    (∃ d', Bmp.Save E path v w h d = .throw d' ∧ OnlyFile path d d' ∧
      (E.creates path = false ∨ E.room path < bmpOffset v.img.cc + bmpLine w v.img.cc * h)) ∨
    ∃ d1 d2 img, Bmp.Save E path v w h d = .ok () d1 ∧ OnlyFile path d d1 ∧ Bmp.Load path d1 = .ok img d2 ∧
      img.data = d.next ∧ img.width = w ∧ img.height = h ∧ img.cc = v.img.cc ∧ img.WF d2.mem ∧
      (∀ x y c, x < w → y < h → c < v.img.cc → View.get ⟨img, 0, 0⟩ d2.mem x y c = v.get d.mem x y c) ∧
      (∀ b i, b ≠ d.next → d2.mem.byte b i = d.mem.byte b i) ∧ (∀ b, b ≠ d.next → d2.mem.size b = d.mem.size b) ∧ d2.file = d1.file := by
  rcases save_bmp (E := E) (path := path) s.toStorable with ⟨d1, a1, a2, a3⟩ | hthrow
  · right
    obtain ⟨l1, l2, l3⟩ := bmpLine_lt s.toStorable
    have hge := bmpLine_ge w v.img.cc
    have hsm := s.small
    obtain ⟨d2, b1, b2, b3, b4, b5, b6⟩ := load_bmp (d := d1) hp a3 s.fits.colors s.fits.wpos s.fits.hpos s.narrow s.small s.big l1 l2
      (by have := s.fresh; rw [a2.2.1]; omega)
    rw [a2.2.1] at b1 b3 b4 b5 b6
    refine ⟨d1, d2, _, a1, a2, b1, rfl, rfl, rfl, rfl, ⟨hge.1, b3, ?_⟩, fun x y c hx hy hc => ?_, fun b i hb => ?_, fun b hb => ?_, b2⟩
    · dsimp only
      omega
    · have hi : x * v.img.cc + c < w * v.img.cc := mul_add_lt hx hc
      have := b4 y (x * v.img.cc + c) hy hi
      rw [View.get, View.get, View.cell, View.cell]
      dsimp only
      rw [Nat.zero_add, Nat.zero_add, Nat.add_assoc, this, View.cell]
      congr 1
      rw [Nat.add_zero, Nat.add_zero, Nat.add_mul v.x]
      omega
    · rw [b5 b i hb, a2.1]
    · rw [b6 b hb, a2.1]
  · exact Or.inl hthrow

/-- C58: a wrong rectangle is not saved, no path is not loaded, a missing file gives an image without pixels. -/
theorem C58_rejects (E : Env) (path : String) (v : View) (w h : Nat) (d : Disk) :
    (v.U32 → w < 4294967296 → h < 4294967296 → ¬ v.Fits w h → Bmp.Save E path v w h d = .throw d) ∧ Bmp.Load "" d = .throw d ∧
    (path ≠ "" → d.file path = none → Bmp.Load path d = .ok noImage d) := by
  refine ⟨fun hu hw hh hf => ?_, rfl, fun hp hf => ?_⟩
  · rw [Bmp.Save]
    exact bind_throw (validateRoi_throw d hf hu hw hh)
  · rw [Bmp.Load, show (path == "") = false by simpa using hp, throwIf_false, pure_bind']
    refine (bind_ok (show getFile path d = .ok (d.file path) d from rfl)).trans ?_
    rw [hf]
    rfl

/-- C58 is false for every file below 76 bytes: the image loaded has no pixels. -/
theorem C58_wrong_small {E : Env} {path : String} {v : View} {w h : Nat} {d : Disk} (hf : v.Fits w h) (wf : v.img.WF d.mem) (hp : path ≠ "")
    (small : bmpOffset v.img.cc + bmpLine w v.img.cc * h < 76) (hc : E.creates path = true) (hr : 76 ≤ E.room path) :
    ∃ d1, Bmp.Save E path v w h d = .ok () d1 ∧ Bmp.Load path d1 = .ok noImage d1 := by
  rcases save_bmp (E := E) (path := path) (v := v) (w := w) (h := h) (d := d) ⟨hf, wf, by omega⟩ with ⟨d1, a1, a2, a3⟩ | ⟨d', a1, a2, a3⟩
  · refine ⟨d1, a1, ?_⟩
    rw [Bmp.Load, show (path == "") = false by simpa using hp, throwIf_false, pure_bind']
    refine (bind_ok (show getFile path d1 = .ok (d1.file path) d1 from rfl)).trans ?_
    rw [a3]
    dsimp only
    rw [loadBytes, if_pos (by rw [length_bmpBytes]; exact small)]
    rfl
  · rcases a3 with a3 | a3
    · rw [hc] at a3
      exact absurd a3 (by decide)
    · omega

/-! #### Examples -/

/-- A 3 x 3 image of three colours with three bytes of padding in each row, without its first column -/
def bmpImg : View := ⟨⟨1, 3, 3, 3, 12⟩, 1, 0⟩

def bmpMem : BMem := ⟨fun b => if b = 1 then 36 else 0, fun _ i => UInt8.ofNat (10 + i)⟩

def bmpDisk : Disk := ⟨bmpMem, 3, fun _ => none⟩

example : Savable bmpImg 2 3 bmpDisk :=
  ⟨⟨⟨by decide, by decide, by decide, by decide, by decide, by decide⟩, ⟨by decide, by decide, by decide⟩, by decide⟩, by decide, by decide, by decide⟩

/-- Save and Load; the image loaded and its bytes. -/
def bmpSaveLoad (v : View) (w h n : Nat) : Option (Image × List UInt8) :=
  match (Bmp.Save ⟨fun _ => true, fun _ => 5000⟩ "a" v w h >>= fun _ => Bmp.Load "a") bmpDisk with
  | .ok i d => some (i, bytesOf d.mem 3 n)
  | _ => none

theorem bmpImg_loaded : bmpSaveLoad bmpImg 2 3 24
    = some (⟨3, 2, 3, 3, 8⟩, [13, 14, 15, 16, 17, 18, 0, 0, 25, 26, 27, 28, 29, 30, 0, 0, 37, 38, 39, 40, 41, 42, 0, 0]) := by
  decide +kernel

theorem bmpGray_loaded : bmpSaveLoad ⟨⟨1, 9, 4, 1, 9⟩, 2, 1⟩ 3 2 8 = some (⟨3, 3, 2, 1, 4⟩, [21, 22, 23, 0, 30, 31, 32, 0]) := by
  decide +kernel

/-- C58 is false for a 2 x 2 image of three colours. -/
theorem C58_wrong : (bmpSaveLoad bmpImg 2 2 0).map Prod.fst = some noImage := by
  decide +kernel

end PV.Props
