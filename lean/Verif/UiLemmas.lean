import Verif.Ui
/-
  Lemmas about the pictures of windows.
-/
namespace PV.Ui

open PV

/-- The whole image. -/
abbrev whole (img : Image) : View := ⟨img, 0, 0⟩

theorem whole_cell (img : Image) (x y c : Nat) :
    (whole img).cell x y c = y * img.rowSize + x * img.cc + c := by
  simp only [View.cell, Nat.zero_add]

theorem winScaleRows_eq {bo bi cc rowIn rowOut : Nat} {pos : List Nat} {heightIn heightOut w : Nat}
    (hcc : 0 < cc) (hr : 0 < rowOut) (hfit : heightOut * rowOut < 4294967296) (hn : w * cc < 4294967296) :
    winScaleRows bo bi cc rowIn rowOut pos heightIn heightOut (w * cc) =
      fold (fun p _ => winPixel bo bi cc pos (winRow heightIn heightOut rowIn p.1)
        (0 + p.1 * rowOut + p.2 * cc) p.2) (grid heightOut w) () := by
  rw [fold_grid, winScaleRows, u32_of_lt hfit]
  have := loop_eq_fold (μ := BMem) (A := Unit) (cond := fun s : Nat × Nat => s.1 != 0 + heightOut * rowOut)
    (next := fun s => (s.1 + rowOut, s.2 + 1))
    (body := fun s _ => loop (fun t : Nat × Nat => t.1 != s.1 + w * cc) (fun t => (t.1 + cc, t.2 + 1))
      (fun t _ => winPixel bo bi cc pos (winRow heightIn heightOut rowIn s.2) t.1 t.2) fuelMax (s.1, 0) ())
    (fun k => (0 + k * rowOut, k)) heightOut fuelMax () (count_lt_fuel hr hfit)
    (fun k hk => ptr_ne hk hr) (by simp)
    (fun k _ => Prod.ext (by simp only [Nat.succ_mul]; omega) rfl)
  simp only [Nat.zero_mul, Nat.add_zero] at this
  rw [this]
  refine fold_congr () fun j _ => ?_
  funext a'
  have := loop_eq_fold (μ := BMem) (A := Unit) (cond := fun t : Nat × Nat => t.1 != 0 + j * rowOut + w * cc)
    (next := fun t => (t.1 + cc, t.2 + 1))
    (body := fun t _ => winPixel bo bi cc pos (winRow heightIn heightOut rowIn j) t.1 t.2)
    (fun k => (0 + j * rowOut + k * cc, k)) w fuelMax () (count_lt_fuel hcc hn)
    (fun k hk => ptr_ne hk hcc) (by simp)
    (fun k _ => Prod.ext (by simp only [Nat.succ_mul]; omega) rfl)
  simp only [Nat.zero_mul, Nat.add_zero] at this
  exact this

theorem winRow_eq {hi ho row k : Nat} (hs : sample hi ho k < hi) (hf : hi * row < 4294967296) (hr : 0 < row) :
    winRow hi ho row k = (hi - 1 - sample hi ho k) * row := by
  have h1 : hi * 1 ≤ hi * row := Nat.mul_le_mul_left _ hr
  have e : u32 (hi + 4294967295 + 4294967296 - sample hi ho k) = hi - 1 - sample hi ho k := by
    unfold u32
    omega
  have h2 : (hi - 1 - sample hi ho k) * row ≤ hi * row := Nat.mul_le_mul_right _ (by omega)
  rw [winRow, e, u32_of_lt (by omega)]

/-- The reduced picture. -/
theorem scale_writes {m : BMem} {img oi : Image} (wfi : img.WF m)
    (fiti : (whole img).Fits img.width img.height) (wfo : oi.WF m)
    (fito : (whole oi).Fits oi.width oi.height) (co : oi.cc = img.cc) (hd : img.data ≠ oi.data) :
    ∃ m', winScaleRows oi.data img.data img.cc img.rowSize oi.rowSize
        (positionX img.width oi.width img.cc) img.height oi.height (u32 (oi.width * img.cc)) m = .ok () m' ∧
      WritesRoi m m' (whole oi) oi.width oi.height (fun x y c => (whole img).get m
        (sample img.width oi.width x) (img.height - 1 - sample img.height oi.height y) c) := by
  have wfi' : (whole img).img.WF m := wfi
  have wfo' : (whole oi).img.WF m := wfo
  obtain ⟨hcc, hr, _, _, _, hfit, _, _, hwcc, _⟩ := View.facts wfo' fito
  obtain ⟨_, hri, _, _, _, hfiti, _, _, hwcci, _⟩ := View.facts wfi' fiti
  simp only at hcc hr hfit hwcc hri hfiti hwcci
  rw [co] at hcc hwcc
  rw [u32_of_lt hwcc, winScaleRows_eq hcc hr hfit hwcc]
  have hap : Apart (whole img) img.width img.height (whole oi) oi.width oi.height := apart_of_ne _ _ _ _ hd
  refine pix_fold wfo' fito (cs := List.range img.cc) List.nodup_range
    (fun c => by rw [List.mem_range]; exact ⟨fun h => by show c < oi.cc; omega, fun h => by
      have : c < oi.cc := h
      omega⟩)
    (step := fun x y c => copyC oi.data ((whole oi).cell x y c) img.data
      ((whole img).cell (sample img.width oi.width x) (img.height - 1 - sample img.height oi.height y) c)) ?_ ?_
  · intro x y hx hy
    have s1 := sample_lt hx fiti.wpos
    have s2 := sample_lt hy fiti.hpos
    have b2 : sample img.width oi.width x * img.cc < 4294967296 :=
      Nat.lt_of_le_of_lt (Nat.mul_le_mul_right _ (Nat.le_of_lt s1)) hwcci
    have hpos : (positionX img.width oi.width img.cc)[x]? = some (sample img.width oi.width x * img.cc) := by
      rw [positionX, List.getElem?_map, List.getElem?_range hx, Option.map_some, u32_of_lt b2]
    rw [winPixel, hpos]
    simp only
    rw [winRow_eq s2 hfiti hri, memcpyC_eq (by rintro ⟨h1, _⟩; exact hd h1.symm)]
    refine fold_congr () fun c _ => ?_
    simp only [whole_cell, co, Nat.zero_add]
    rfl
  · intro x y c hx hy hc m' ho
    have s1 := sample_lt hx fiti.wpos
    have s2 := sample_lt hy fiti.hpos
    have s3 : img.height - 1 - sample img.height oi.height y < img.height := by omega
    have hc' : c < (whole img).img.cc := by
      have : c < oi.cc := hc
      show c < img.cc
      omega
    have := copyC_get wfi' fiti wfo' fito ho.size_eq hx hy hc s1 s3 hc'
    refine this.trans ?_
    rw [ho.get_apart hap s1 s3 hc']

/-- The picture in its own size. -/
theorem copy_writes {m : BMem} {img oi : Image} (wfi : img.WF m)
    (fiti : (whole img).Fits img.width img.height) (wfo : oi.WF m)
    (fito : (whole oi).Fits oi.width oi.height) (co : oi.cc = img.cc) (hw : oi.width = img.width)
    (hh : oi.height = img.height) (hd : img.data ≠ oi.data) :
    ∃ m', winCopyRows oi.data img.data img.rowSize oi.rowSize (u32 (img.width * img.cc)) img.height m = .ok () m' ∧
      WritesRoi m m' (whole oi) oi.width oi.height (fun x y c => (whole img).get m x (img.height - 1 - y) c) := by
  have wfi' : (whole img).img.WF m := wfi
  have wfo' : (whole oi).img.WF m := wfo
  obtain ⟨hcc, hr, _, _, _, hfit, _, _, hwcc, _⟩ := View.facts wfo' fito
  obtain ⟨hcci, hri, _, _, _, hfiti, _, _, hwcci, _⟩ := View.facts wfi' fiti
  simp only at hcc hr hfit hwcc hri hfiti hwcci
  have hhp := fiti.hpos
  have hap : Apart (whole img) img.width img.height (whole oi) oi.width oi.height := apart_of_ne _ _ _ _ hd
  have hh32 : img.height < 4294967296 := by
    have : img.height * 1 ≤ img.height * img.rowSize := Nat.mul_le_mul_left _ hri
    omega
  have ep : pred32 img.height = img.height - 1 := by
    unfold pred32 u32
    omega
  have eb : (img.height - 1) * img.rowSize ≤ img.height * img.rowSize := Nat.mul_le_mul_right _ (by omega)
  have e : winCopyRows oi.data img.data img.rowSize oi.rowSize (u32 (img.width * img.cc)) img.height =
      fold (fun y _ => memcpyC oi.data (y * oi.rowSize) img.data ((img.height - 1 - y) * img.rowSize)
        (img.width * img.cc)) (List.range img.height) () := by
    rw [winCopyRows, u32_of_lt hwcci, ep, Nat.mul_comm img.rowSize, u32_of_lt (by omega : (img.height - 1) * img.rowSize < _),
      ← hh, u32_of_lt hfit]
    have := loop_eq_fold (μ := BMem) (A := Unit)
      (cond := fun s : Nat × Int => s.1 != 0 + oi.height * oi.rowSize)
      (next := fun s => (s.1 + oi.rowSize, s.2 - img.rowSize))
      (body := fun s _ => memcpyFromI oi.data s.1 img.data s.2 (img.width * img.cc))
      (fun k => (0 + k * oi.rowSize, (((oi.height - 1) * img.rowSize : Nat) : Int) - k * img.rowSize)) oi.height fuelMax ()
      (count_lt_fuel hr hfit)
      (fun k hk => ptr_ne hk hr) (by simp)
      (fun k _ => by
        simp only [Nat.succ_mul, Prod.mk.injEq]
        refine ⟨by omega, ?_⟩
        rw [Int.natCast_add, Int.add_mul]
        omega)
    simp only [Nat.zero_mul, Nat.add_zero, Int.natCast_zero, Int.zero_mul, Int.sub_zero] at this
    rw [this]
    refine fold_congr () fun y hy => ?_
    funext _
    have hy' := List.mem_range.1 hy
    have e1 : (((oi.height - 1) * img.rowSize : Nat) : Int) - y * img.rowSize
        = (((oi.height - 1 - y) * img.rowSize : Nat) : Int) := by
      have : (oi.height - 1) * img.rowSize = (oi.height - 1 - y) * img.rowSize + y * img.rowSize := by
        rw [← Nat.add_mul, show oi.height - 1 - y + y = oi.height - 1 by omega]
      rw [this, Int.natCast_add, Int.natCast_mul y]
      omega
    simp only [Nat.zero_add]
    rw [e1, memcpyFromI, if_pos (by omega), Int.toNat_natCast]
  rw [e]
  have e2 : fold (fun y _ => memcpyC oi.data (y * oi.rowSize) img.data ((img.height - 1 - y) * img.rowSize)
        (img.width * img.cc)) (List.range img.height) () =
      fold (fun q _ => copyC oi.data (q.1 * oi.rowSize + q.2) img.data ((img.height - 1 - q.1) * img.rowSize + q.2))
        (grid img.height (img.width * img.cc)) () := by
    rw [fold_grid]
    refine fold_congr () fun y _ => ?_
    funext _
    rw [memcpyC_eq (by rintro ⟨h1, _⟩; exact hd h1.symm)]
    rfl
  rw [e2]
  have e3 : fold (fun q _ => copyC oi.data (q.1 * oi.rowSize + q.2) img.data ((img.height - 1 - q.1) * img.rowSize + q.2))
        (grid img.height (img.width * img.cc)) () =
      fold (fun p _ => copyC oi.data ((whole oi).cell p.1 p.2.1 p.2.2) img.data
        ((whole img).cell p.1 (img.height - 1 - p.2.1) p.2.2)) (bytesL img.width img.height img.cc) () := by
    rw [bytesL, fold_map]
    refine fold_congr () fun q _ => ?_
    funext _
    simp only [whole_cell, co]
    have := Nat.div_add_mod' q.2 img.cc
    rw [Nat.add_assoc, Nat.add_assoc, this]
  rw [e3, ← hw, ← hh]
  refine roi_writes wfo' fito nodup_bytesL (fun p => ?_) ?_
  · rw [mem_bytesL]
    · show _ ↔ _ ∧ _ ∧ p.2.2 < oi.cc
      rw [co]
    all_goals exact hcci
  · intro x y c hx hy hc m' ho
    have s3 : oi.height - 1 - y < img.height := by omega
    have hx' : x < img.width := by omega
    have hc' : c < (whole img).img.cc := by
      have : c < oi.cc := hc
      show c < img.cc
      omega
    have := copyC_get wfi' fiti wfo' fito ho.size_eq hx hy hc hx' s3 hc'
    refine this.trans ?_
    rw [ho.get_apart hap hx' s3 hc', hh]


/-! ### The image object -/

/-- The object is empty or owns its pixels. -/
structure OwnOk (m : BMem) (o : Own) : Prop where
  empty : o.img.data = 0 → o.img.width = 0 ∧ o.img.height = 0 ∧ o.img.rowSize = 0
  full : o.img.data ≠ 0 → o.img.WF m ∧ 0 < o.img.width ∧ 0 < o.img.height ∧
    o.img.rowSize = roundUp o.align (o.img.width * o.img.cc)

theorem freeBlock_run (b : Nat) (m : BMem) :
    ∃ m', freeBlock b m = .ok () m' ∧ m'.byte = m.byte ∧ (∀ c, c ≠ b → m'.size c = m.size c) ∧
      (b = 0 → m' = m) ∧ (b ≠ 0 → m'.size b = 0) := by
  refine ⟨_, rfl, ?_, ?_, ?_, fun h => ?_⟩
  · by_cases h : b = 0
    · rw [if_pos h]
    · rw [if_neg h]
  · intro c hc
    by_cases h : b = 0
    · rw [if_pos h]
    · rw [if_neg h]
      exact if_neg hc
  · intro h
    rw [if_pos h]
  · rw [if_neg h]
    exact if_pos rfl

/-- Only the blocks of one object change. -/
structure Keeps (m m' : BMem) (b : Nat) : Prop where
  byte : m'.byte = m.byte
  size : ∀ c, c ≠ b → m'.size c = m.size c

theorem Keeps.refl (m : BMem) (b : Nat) : Keeps m m b := ⟨rfl, fun _ _ => rfl⟩

theorem ownClear_run (o : Own) (m : BMem) :
    ∃ m', ownClear o m = .ok { o with img := ⟨0, 0, 0, o.img.cc, 0⟩ } m' ∧ Keeps m m' o.img.data ∧
      (o.img.data ≠ 0 → m'.size o.img.data = 0) := by
  obtain ⟨m', h1, h2, h3, _, h4⟩ := freeBlock_run o.img.data m
  exact ⟨m', by rw [ownClear, bind_ok h1]; rfl, ⟨h2, h3⟩, h4⟩

/-- After the two setters. -/
theorem setters_run {m : BMem} {o : Own} {cc : Nat} (ok : OwnOk m o) (hcc : 0 < cc) :
    ∃ o' m', (do let o ← ownSetAlignment 4 o; ownSetColorCount cc o : M BMem Own) m = .ok o' m' ∧
      Keeps m m' o.img.data ∧ OwnOk m' o' ∧ o'.align = 4 ∧ o'.img.cc = cc ∧
      (o'.img.data = 0 ∧ (o.img.data ≠ 0 → m'.size o.img.data = 0) ∨ o' = o ∧ m' = m) ∧ (o.align = 4 → o.img.cc = cc → o' = o ∧ m' = m) := by
  by_cases h1 : 4 ≠ o.align
  · obtain ⟨m', e1, k1, f1⟩ := ownClear_run o m
    have s1 : ownSetAlignment 4 o m = .ok { img := ⟨0, 0, 0, o.img.cc, 0⟩, align := 4 } m' := by
      rw [ownSetAlignment, if_pos ⟨by decide, h1⟩, bind_ok e1]
      rfl
    rw [bind_ok s1]
    by_cases h2 : o.img.cc ≠ cc
    · refine ⟨⟨⟨0, 0, 0, cc, 0⟩, 4⟩, m', ?_, k1, ⟨fun _ => ⟨rfl, rfl, rfl⟩, fun h => absurd rfl h⟩, rfl, rfl,
        .inl ⟨rfl, f1⟩, fun h => absurd h.symm h1⟩
      rw [ownSetColorCount, if_pos ⟨hcc, h2⟩]
      rfl
    · refine ⟨⟨⟨0, 0, 0, o.img.cc, 0⟩, 4⟩, m', ?_, k1, ⟨fun _ => ⟨rfl, rfl, rfl⟩, fun h => absurd rfl h⟩, rfl,
        Decidable.byContradiction h2, .inl ⟨rfl, f1⟩, fun h => absurd h.symm h1⟩
      rw [ownSetColorCount, if_neg (by rintro ⟨_, h⟩; exact h2 h)]
      rfl
  · have h1' : 4 = o.align := Decidable.byContradiction h1
    have s1 : ownSetAlignment 4 o m = .ok o m := by
      rw [ownSetAlignment, if_neg (by rintro ⟨_, h⟩; exact h1 h)]
      rfl
    rw [bind_ok s1]
    by_cases h2 : o.img.cc ≠ cc
    · obtain ⟨m', e1, k1, f1⟩ := ownClear_run o m
      refine ⟨⟨⟨0, 0, 0, cc, 0⟩, o.align⟩, m', ?_, k1, ⟨fun _ => ⟨rfl, rfl, rfl⟩, fun h => absurd rfl h⟩, h1'.symm, rfl,
        .inl ⟨rfl, f1⟩, fun _ h => absurd h h2⟩
      rw [ownSetColorCount, if_pos ⟨hcc, h2⟩, bind_ok e1]
      rfl
    · refine ⟨o, m, ?_, Keeps.refl .., ok, h1'.symm, Decidable.byContradiction h2, .inr ⟨rfl, rfl⟩, fun _ _ => ⟨rfl, rfl⟩⟩
      rw [ownSetColorCount, if_neg (by rintro ⟨_, h⟩; exact h2 h)]
      rfl

theorem roundUp_ge {n : Nat} (h : n + 3 < 4294967296) : roundUp 4 n = (n + 3) / 4 * 4 := by
  unfold roundUp u32
  split <;> omega

/-- `resize` to a size greater than zero. -/
theorem ownResize_run {m : BMem} {o : Own} {b w h : Nat} (ok : OwnOk m o) (al : o.align = 4)
    (hw : 0 < w) (hh : 0 < h) (hcc : 0 < o.img.cc) (hb : b ≠ 0)
    (hsmall : (w * o.img.cc + 3) / 4 * 4 * h < 4294967296) :
    ∃ o' m', ownResize b w h o m = .ok o' m' ∧ m'.byte = m.byte ∧
      (∀ c, c ≠ o.img.data → c ≠ b → m'.size c = m.size c) ∧ OwnOk m' o' ∧ o'.align = 4 ∧
      o'.img.width = w ∧ o'.img.height = h ∧ o'.img.cc = o.img.cc ∧
      o'.img.rowSize = (w * o.img.cc + 3) / 4 * 4 ∧ (o'.img.data = b ∨ o'.img.data = o.img.data) ∧ o'.img.data ≠ 0 ∧
      (o.img.data ≠ 0 → o'.img.data ≠ o.img.data → m'.size o.img.data = 0) := by
  have hrow1 : (w * o.img.cc + 3) / 4 * 4 * 1 ≤ (w * o.img.cc + 3) / 4 * 4 * h := Nat.mul_le_mul_left _ hh
  have hn : w * o.img.cc + 3 < 4294967296 ∨ 4294967293 ≤ w * o.img.cc := by omega
  have hn3 : w * o.img.cc + 3 < 4294967296 := by omega
  have hu : u32 (w * o.img.cc) = w * o.img.cc := u32_of_lt (by omega)
  by_cases hc : 0 < w ∧ 0 < h ∧ (w ≠ o.img.width ∨ h ≠ o.img.height)
  · obtain ⟨m₁, e1, k1, f1⟩ := ownClear_run o m
    refine ⟨⟨⟨b, w, h, o.img.cc, (w * o.img.cc + 3) / 4 * 4⟩, o.align⟩,
      { m₁ with size := fun c => if c = b then h * ((w * o.img.cc + 3) / 4 * 4) else m₁.size c }, ?_, k1.byte, ?_, ?_, al, rfl, rfl, rfl, rfl,
      .inl rfl, hb, fun h0 hne => (if_neg fun e => hne e.symm).trans (f1 h0)⟩
    · rw [ownResize, if_pos hc, bind_ok e1]
      simp only
      rw [hu, al, roundUp_ge hn3]
      rfl
    · intro c h1 h2
      show (if c = b then _ else m₁.size c) = m.size c
      rw [if_neg h2, k1.size c h1]
    · refine ⟨fun h => absurd h hb, fun _ => ⟨⟨?_, ?_, hsmall⟩, hw, hh, ?_⟩⟩
      · show w * o.img.cc ≤ (w * o.img.cc + 3) / 4 * 4
        omega
      · show (w * o.img.cc + 3) / 4 * 4 * h ≤ if b = b then _ else _
        rw [if_pos rfl, Nat.mul_comm]
        exact Nat.le_refl _
      · show (w * o.img.cc + 3) / 4 * 4 = roundUp o.align (w * o.img.cc)
        rw [al, roundUp_ge hn3]
  · have hw' : w = o.img.width := by omega
    have hh' : h = o.img.height := by omega
    have hd : o.img.data ≠ 0 := by
      intro h0
      have := (ok.empty h0).1
      omega
    refine ⟨o, m, ?_, rfl, fun _ _ _ => rfl, ok, al, hw'.symm, hh'.symm, rfl, ?_, .inr rfl, hd, fun _ h => absurd rfl h⟩
    · rw [ownResize, if_neg hc]
      rfl
    · obtain ⟨_, _, _, hrow⟩ := ok.full hd
      rw [hrow, al, ← hw', roundUp_ge hn3]

/-- `resize` to a size of zero does nothing. -/
theorem ownResize_zero {m : BMem} {o : Own} {b w h : Nat} (hz : w = 0 ∨ h = 0) :
    ownResize b w h o m = .ok o m := by
  rw [ownResize, if_neg (by omega)]
  rfl

theorem wf_keeps {m m' : BMem} {img : Image} (wf : img.WF m) (h : m'.size img.data = m.size img.data) :
    img.WF m' := ⟨wf.row, by rw [h]; exact wf.block, wf.small⟩

/-! ### `setImage` on Windows -/

/-- The situation of a call: a window, an image of the caller, a block for the picture. -/
structure WinPre (m : BMem) (o : Own) (img : Image) (b : Nat) : Prop where
  own : OwnOk m o
  wf : img.WF m
  fit : (whole img).Fits img.width img.height
  apart : img.data ≠ o.img.data
  fresh : b ≠ 0 ∧ b ≠ img.data

/-- The result of a call: the picture `o'` of size `w`, `h` holds `F`, upside down as stored. -/
structure WinPost (m m' : BMem) (o o' : Own) (img : Image) (b w h : Nat) (F : Nat → Nat → Nat → UInt8) : Prop where
  own : OwnOk m' o'
  align : o'.align = 4
  width : o'.img.width = w
  height : o'.img.height = h
  cc : o'.img.cc = img.cc
  row : o'.img.rowSize = (w * img.cc + 3) / 4 * 4
  data : o'.img.data ≠ 0
  place : o'.img.data = b ∨ o'.img.data = o.img.data
  picture : ∀ x y c, x < w → y < h → c < img.cc → (whole o'.img).get m' x y c = F x y c
  rest : ∀ c, c ≠ o.img.data → c ≠ b → m'.size c = m.size c ∧ ∀ i, m'.byte c i = m.byte c i
  released : o.img.data ≠ 0 → o'.img.data ≠ o.img.data → b ≠ o.img.data → m'.size o.img.data = 0

theorem fits_of_ok {m : BMem} {o : Own} (ok : OwnOk m o) (hd : o.img.data ≠ 0)
    (hc : o.img.cc = 1 ∨ o.img.cc = 3 ∨ o.img.cc = 4) : (whole o.img).Fits o.img.width o.img.height := by
  obtain ⟨_, h1, h2, _⟩ := ok.full hd
  exact ⟨hd, hc, h1, h2, by simp, by simp⟩

theorem cc_pos {img : Image} {w h : Nat} (f : (whole img).Fits w h) : 0 < img.cc := by
  rcases f.colors with h | h | h <;> · have : img.cc = _ := h; omega

theorem WritesRoi.winPost {m₀ m₁ m' : BMem} {o o' : Own} {img : Image} {b w h : Nat} {F : Nat → Nat → Nat → UInt8}
    (ok : OwnOk m₁ o') (al : o'.align = 4) (hw : o'.img.width = w) (hh : o'.img.height = h)
    (hcc : o'.img.cc = img.cc) (hrow : o'.img.rowSize = (w * img.cc + 3) / 4 * 4) (hd : o'.img.data ≠ 0)
    (hp : o'.img.data = b ∨ o'.img.data = o.img.data)
    (hsz : ∀ c, c ≠ o.img.data → c ≠ b → m₁.size c = m₀.size c) (hby : m₁.byte = m₀.byte)
    (hrel : o.img.data ≠ 0 → o'.img.data ≠ o.img.data → b ≠ o.img.data → m₁.size o.img.data = 0)
    (hF : WritesRoi m₁ m' (whole o'.img) w h F) : WinPost m₀ m' o o' img b w h F := by
  refine ⟨⟨ok.empty, fun h0 => ?_⟩, al, hw, hh, hcc, hrow, hd, hp, ?_, ?_,
    fun h0 hne hb => by rw [hF.size_eq]; exact hrel h0 hne hb⟩
  · obtain ⟨k1, k2⟩ := ok.full h0
    exact ⟨wf_keeps k1 (by rw [hF.size_eq]), k2⟩
  · intro x y c hx hy hc
    exact hF.inside x y c hx hy (by show c < o'.img.cc; omega)
  · intro c h1 h2
    refine ⟨by rw [hF.size_eq, hsz c h1 h2], fun i => ?_⟩
    rw [hF.outside c i ?_, hby]
    rintro ⟨h3, _⟩
    have h3' : c = o'.img.data := h3
    rcases hp with hp | hp <;> omega

/-- Everything before the copying. -/
theorem prep {m : BMem} {o : Own} {img : Image} {b w h : Nat} (pre : WinPre m o img b) (hw : 0 < w) (hh : 0 < h)
    (hsmall : (w * img.cc + 3) / 4 * 4 * h < 4294967296) :
    ∃ o₁ m₁ o₂ m₂, (do let o ← ownSetAlignment 4 o; ownSetColorCount img.cc o : M BMem Own) m = .ok o₁ m₁ ∧
      ownResize b w h o₁ m₁ = .ok o₂ m₂ ∧ OwnOk m₂ o₂ ∧ o₂.align = 4 ∧ o₂.img.width = w ∧ o₂.img.height = h ∧
      o₂.img.cc = img.cc ∧ o₂.img.rowSize = (w * img.cc + 3) / 4 * 4 ∧ o₂.img.data ≠ 0 ∧
      (o₂.img.data = b ∨ o₂.img.data = o.img.data) ∧
      (∀ c, c ≠ o.img.data → c ≠ b → m₂.size c = m.size c) ∧ m₂.byte = m.byte ∧ img.data ≠ o₂.img.data ∧
      img.WF m₂ ∧ (whole o₂.img).Fits o₂.img.width o₂.img.height ∧
      (o.img.data ≠ 0 → o₂.img.data ≠ o.img.data → b ≠ o.img.data → m₂.size o.img.data = 0) := by
  have hcc := cc_pos pre.fit
  obtain ⟨o₁, m₁, e1, k1, ok1, al1, cc1, or1, _⟩ := setters_run pre.own hcc
  obtain ⟨o₂, m₂, e2, b2, z2, ok2, al2, w2, h2, c2, r2, p2, d2, f2⟩ := ownResize_run (b := b) ok1 al1 hw
    hh (by omega : 0 < o₁.img.cc) pre.fresh.1 (by rw [cc1]; exact hsmall)
  rw [cc1] at c2 r2
  have hp : o₂.img.data = b ∨ o₂.img.data = o.img.data := by
    rcases p2 with p2 | p2
    · exact .inl p2
    · rcases or1 with ⟨h, _⟩ | ⟨h, _⟩
      · exact absurd (p2.trans h) d2
      · exact .inr (by rw [p2, h])
  have hsz : ∀ c, c ≠ o.img.data → c ≠ b → m₂.size c = m.size c := by
    intro c h1 h3
    by_cases hz : c = o₁.img.data
    · rcases or1 with ⟨h0, _⟩ | ⟨h0, _⟩
      · -- the empty object: block 0 does not change
        by_cases hr : 0 < w ∧ 0 < h ∧ (w ≠ o₁.img.width ∨ h ≠ o₁.img.height)
        · obtain ⟨m', f1, f2, f3, f4, _⟩ := freeBlock_run o₁.img.data m₁
          rw [ownResize, if_pos hr, ownClear, bind_assoc', bind_ok f1] at e2
          cases e2
          show (if c = b then _ else m'.size c) = _
          rw [if_neg h3, f4 h0, k1.size c h1]
        · rw [ownResize, if_neg hr] at e2
          cases e2
          exact k1.size c h1
      · rw [h0] at hz
        exact absurd hz h1
    · rw [z2 c hz h3, k1.size c h1]
  have hdi : img.data ≠ o₂.img.data := by
    rcases hp with h | h <;> rw [h]
    · exact fun h => pre.fresh.2 h.symm
    · exact pre.apart
  have hrel : o.img.data ≠ 0 → o₂.img.data ≠ o.img.data → b ≠ o.img.data → m₂.size o.img.data = 0 := by
    intro h0 hne hb
    rcases or1 with ⟨g0, g1⟩ | ⟨g0, g1⟩
    · rw [z2 _ (by rw [g0]; exact h0) (Ne.symm hb)]
      exact g1 h0
    · rw [g0] at f2
      exact f2 h0 hne
  exact ⟨o₁, m₁, o₂, m₂, e1, e2, ok2, al2, w2, h2, c2, r2, d2, hp, hsz, by rw [b2, k1.byte], hdi,
    wf_keeps pre.wf (hsz _ pre.apart (fun h => pre.fresh.2 h.symm)),
    fits_of_ok ok2 d2 (by rw [c2]; exact pre.fit.colors), hrel⟩

theorem winSetImage_steps {m m₁ m' : BMem} {o o₁ o' : Own} {img : Image} {b sw sh : Nat} {sW sH : Int}
    (e1 : (do let o ← ownSetAlignment 4 o; ownSetColorCount img.cc o : M BMem Own) m = .ok o₁ m₁)
    (e2 : (if winLarge sW sH img then winScaled sw sh b img o₁ else winPlain b img o₁) m₁ = .ok o' m') :
    winSetImage sW sH sw sh b img o m = .ok (o', winHeader o'.img) m' := by
  have := bind_ok (f := fun o => (do
    let o ← if winLarge sW sH img then winScaled sw sh b img o else winPlain b img o
    pure (o, winHeader o.img) : M BMem (Own × Header))) e1
  rw [bind_assoc'] at this
  refine this.trans ?_
  cases hl : winLarge sW sH img with
  | true =>
    simp only [hl, if_true] at e2 ⊢
    rw [bind_ok e2]
    rfl
  | false =>
    simp only [hl, Bool.false_eq_true, if_false] at e2 ⊢
    rw [bind_ok e2]
    rfl

theorem WritesRoi.congr {m m' : BMem} {v : View} {w h : Nat} {F G : Nat → Nat → Nat → UInt8}
    (hF : WritesRoi m m' v w h F) (hG : ∀ x y c, F x y c = G x y c) : WritesRoi m m' v w h G :=
  ⟨hF.size_eq, fun x y c hx hy hc => (hF.inside x y c hx hy hc).trans (hG x y c), hF.outside⟩

theorem whole_get {m m₂ : BMem} {img : Image} (hby : m₂.byte = m.byte) (x y c : Nat) :
    (whole img).get m₂ x y c = (whole img).get m x y c := by
  show m₂.byte _ _ = m.byte _ _
  rw [hby]

theorem winSetImage_plain {m : BMem} {o : Own} {img : Image} {b sw sh : Nat} {sW sH : Int}
    (pre : WinPre m o img b) (hl : winLarge sW sH img = false)
    (hsmall : (img.width * img.cc + 3) / 4 * 4 * img.height < 4294967296) :
    ∃ o' m', winSetImage sW sH sw sh b img o m = .ok (o', winHeader o'.img) m' ∧
      WinPost m m' o o' img b img.width img.height
        (fun x y c => (whole img).get m x (img.height - 1 - y) c) := by
  obtain ⟨o₁, m₁, o₂, m₂, e1, e2, ok2, al2, w2, h2, c2, r2, d2, hp, hsz, hby, hdi, wf2, fit2, hrel⟩ :=
    prep (b := b) pre pre.fit.wpos pre.fit.hpos hsmall
  obtain ⟨m₃, e3, w3⟩ := copy_writes wf2 pre.fit (ok2.full d2).1 fit2 c2 w2 h2 hdi
  rw [w2, h2] at w3
  refine ⟨o₂, m₃, winSetImage_steps e1 ?_, WritesRoi.winPost ok2 al2 w2 h2 c2 r2 d2 hp hsz hby hrel
    (WritesRoi.congr w3 fun x y c => whole_get hby ..)⟩
  rw [hl]
  simp only [Bool.false_eq_true, if_false]
  rw [winPlain, bind_ok e2, bind_ok e3]
  rfl

theorem winSetImage_scaled {m : BMem} {o : Own} {img : Image} {b sw sh : Nat} {sW sH : Int}
    (pre : WinPre m o img b) (hl : winLarge sW sH img = true) (hw : 0 < sw) (hh : 0 < sh)
    (hsmall : (sw * img.cc + 3) / 4 * 4 * sh < 4294967296) :
    ∃ o' m', winSetImage sW sH sw sh b img o m = .ok (o', winHeader o'.img) m' ∧
      WinPost m m' o o' img b sw sh
        (fun x y c => (whole img).get m (sample img.width sw x) (img.height - 1 - sample img.height sh y) c) := by
  obtain ⟨o₁, m₁, o₂, m₂, e1, e2, ok2, al2, w2, h2, c2, r2, d2, hp, hsz, hby, hdi, wf2, fit2, hrel⟩ :=
    prep (b := b) pre hw hh hsmall
  obtain ⟨m₃, e3, w3⟩ := scale_writes wf2 pre.fit (ok2.full d2).1 fit2 c2 hdi
  have e4 : winScaled sw sh b img o₁ m₁ = .ok o₂ m₃ := by
    rw [winScaled, bind_ok e2, bind_ok e3]
    rfl
  rw [w2, h2] at w3
  refine ⟨o₂, m₃, winSetImage_steps e1 ?_, WritesRoi.winPost ok2 al2 w2 h2 c2 r2 d2 hp hsz hby hrel
    (WritesRoi.congr w3 fun x y c => whole_get hby ..)⟩
  rw [hl]
  simp only [if_true]
  exact e4

/-- A reduced size of zero in a window that already shows a picture with as many colours: the
    image is shown in the size of the previous one. -/
theorem winSetImage_zero {m : BMem} {o : Own} {img : Image} {b sw sh : Nat} {sW sH : Int}
    (pre : WinPre m o img b) (hl : winLarge sW sH img = true) (hz : sw = 0 ∨ sh = 0)
    (ha : o.align = 4) (hc : o.img.cc = img.cc) (hd : o.img.data ≠ 0) :
    ∃ m', winSetImage sW sH sw sh b img o m = .ok (o, winHeader o.img) m' ∧
      ∀ x y c, x < o.img.width → y < o.img.height → c < img.cc → (whole o.img).get m' x y c =
        (whole img).get m (sample img.width o.img.width x) (img.height - 1 - sample img.height o.img.height y) c := by
  obtain ⟨o₁, m₁, e1, k1, ok1, al1, cc1, or1, same⟩ := setters_run pre.own (cc_pos pre.fit)
  obtain ⟨rfl, rfl⟩ := same ha hc
  obtain ⟨m₃, e3, w3⟩ := scale_writes pre.wf pre.fit (ok1.full hd).1
    (fits_of_ok ok1 hd (by rw [hc]; exact pre.fit.colors)) hc pre.apart
  refine ⟨m₃, winSetImage_steps e1 ?_, fun x y c hx hy hcc =>
    w3.inside x y c hx hy (by show c < o₁.img.cc; omega)⟩
  rw [hl]
  simp only [if_true]
  rw [winScaled, bind_ok (ownResize_zero hz), bind_ok e3]
  rfl

/-- A reduced size of zero in a window without a picture: there is still none. -/
theorem winSetImage_none {m : BMem} {o : Own} {img : Image} {b sw sh : Nat} {sW sH : Int}
    (pre : WinPre m o img b) (hl : winLarge sW sH img = true) (hz : sw = 0 ∨ sh = 0)
    (hd : o.align ≠ 4 ∨ o.img.cc ≠ img.cc ∨ o.img.data = 0) :
    ∃ o' m', winSetImage sW sH sw sh b img o m = .ok (o', winHeader o'.img) m' ∧ o'.img.data = 0 := by
  obtain ⟨o₁, m₁, e1, k1, ok1, al1, cc1, or1, same⟩ := setters_run pre.own (cc_pos pre.fit)
  have hd1 : o₁.img.data = 0 := by
    rcases or1 with ⟨h, _⟩ | ⟨h, _⟩
    · exact h
    · rw [h] at al1 cc1 ⊢
      rcases hd with h | h | h
      · exact absurd al1 h
      · exact absurd cc1 h
      · exact h
  obtain ⟨z1, z2, z3⟩ := ok1.empty hd1
  refine ⟨o₁, m₁, winSetImage_steps e1 ?_, hd1⟩
  rw [hl]
  simp only [if_true]
  rw [winScaled, bind_ok (ownResize_zero hz), z1, z2, z3]
  rfl

/-- An empty image: a picture with as many colours stays. -/
theorem winSetImage_empty {m : BMem} {o : Own} {img : Image} {b sw sh : Nat} {sW sH : Int}
    (hw : img.width = 0) (hh : img.height = 0) (hr : img.rowSize = 0)
    (ha : o.align = 4) (hc : o.img.cc = img.cc) :
    winSetImage sW sH sw sh b img o m = .ok (o, winHeader o.img) m := by
  have hl : winLarge sW sH img = false := by
    unfold winLarge
    rw [hw, hh]
    simp only [Bool.or_eq_false_iff, Bool.and_eq_false_iff, decide_eq_false_iff_not]
    omega
  have e1 : (do let o ← ownSetAlignment 4 o; ownSetColorCount img.cc o : M BMem Own) m = .ok o m := by
    have : ownSetAlignment 4 o m = .ok o m := by
      rw [ownSetAlignment, if_neg (by omega)]
      rfl
    rw [bind_ok this, ownSetColorCount, if_neg (by omega)]
    rfl
  refine winSetImage_steps e1 ?_
  rw [hl]
  simp only [Bool.false_eq_true, if_false]
  rw [winPlain, bind_ok (ownResize_zero (.inl hw)), hw, hh, hr]
  rw [winCopyRows, Nat.zero_mul]
  rfl

/-! ### X11 -/

theorem fold_count (step : Nat → Nat → M BMem Unit) (s n a₀ : Nat) :
    fold (fun k a => step k a >>= fun _ => pure (a + s)) (List.range n) a₀
      = (fold (fun k _ => step k (a₀ + k * s)) (List.range n) () >>= fun _ => pure (a₀ + n * s)) := by
  induction n with
  | zero => simp
  | succ n ih =>
    rw [List.range_succ, fold_append, fold_append, ih]
    simp only [fold_cons, fold_nil, bind_assoc', pure_bind', bind_pure', bind_pure_unit]
    refine congrArg (fold _ _ _ >>= ·) ?_
    funext _
    rw [show a₀ + n * s + s = a₀ + (n + 1) * s by rw [Nat.succ_mul]; omega]

theorem fold_count_grid (step : Nat × Nat → Nat → M BMem Unit) (h w : Nat) :
    fold (fun p a => step p a >>= fun _ => pure (a + 4)) (grid h w) 0
      = (fold (fun p _ => step p (p.1 * (4 * w) + p.2 * 4)) (grid h w) () >>= fun _ => pure (h * (4 * w))) := by
  rw [fold_grid, fold_grid]
  have : ∀ y a, fold (fun x a => step (y, x) a >>= fun _ => pure (a + 4)) (List.range w) a
      = (fold (fun x _ => step (y, x) (a + x * 4)) (List.range w) () >>= fun _ => pure (a + 4 * w)) := by
    intro y a
    rw [fold_count (fun x a => step (y, x) a), Nat.mul_comm w 4]
  rw [show (fun (y a : Nat) => fold (fun x a => step (y, x) a >>= fun _ => pure (a + 4)) (List.range w) a) = _ from
    funext fun y => funext fun a => this y a]
  rw [fold_count (fun y a => fold (fun x _ => step (y, x) (a + x * 4)) (List.range w) ()), Nat.zero_add]
  simp only [Nat.zero_add]

/-- The picture as an image of four bytes per pixel. -/
abbrev xImage (buf w h : Nat) : Image := ⟨buf, w, h, 4, 4 * w⟩

def grayStep (buf bi i a : Nat) : M BMem Unit := do
  let v ← readC bi i
  memsetC buf a v 3
  writeC buf (a + 3) 0

def rgbStep (buf bi i a : Nat) : M BMem Unit := do
  memcpyC buf a bi i 3
  writeC buf (a + 3) 0

theorem x11Gray_eq (buf bi i a : Nat) : x11Gray buf bi i a = (grayStep buf bi i a >>= fun _ => pure (a + 4)) := by
  simp only [x11Gray, grayStep, bind_assoc']

theorem x11Rgb_eq (buf bi i a : Nat) : x11Rgb buf bi i a = (rgbStep buf bi i a >>= fun _ => pure (a + 4)) := by
  simp only [x11Rgb, rgbStep, bind_assoc']

theorem gray_loop {m : BMem} {img : Image} (buf : Nat) (wf : img.WF m) (fit : (whole img).Fits img.width img.height)
    (cc : img.cc = 1) :
    rowLoop1 img.rowSize 1 (x11Gray buf img.data) 0 img.width img.height 0
      = (fold (fun p _ => grayStep buf img.data ((whole img).cell p.2 p.1 0) (p.1 * (4 * img.width) + p.2 * 4))
          (grid img.height img.width) () >>= fun _ => pure (img.height * (4 * img.width))) := by
  have wf' : (whole img).img.WF m := wf
  obtain ⟨_, hr, _, hw, _, hfit, _, _, hwcc, _⟩ := View.facts wf' fit
  have e := rowLoop1_eq (row := img.rowSize) (step := 1) (body := x11Gray buf img.data) (pY := 0) (n := img.width)
    (height := img.height) 0 hr (by decide) hfit (by simpa using hw)
  rw [Nat.mul_one] at e
  rw [e, ← fold_count_grid (fun p a => grayStep buf img.data ((whole img).cell p.2 p.1 0) a)]
  refine fold_congr 0 fun p _ => ?_
  funext a
  rw [x11Gray_eq, whole_cell, cc, Nat.zero_add]
  rfl

theorem rgb_loop {m : BMem} {img : Image} (buf : Nat) (wf : img.WF m) (fit : (whole img).Fits img.width img.height)
    (cc : img.cc = 3) :
    rowLoop1 img.rowSize 3 (x11Rgb buf img.data) 0 (u32 (img.width * 3)) img.height 0
      = (fold (fun p _ => rgbStep buf img.data ((whole img).cell p.2 p.1 0) (p.1 * (4 * img.width) + p.2 * 4))
          (grid img.height img.width) () >>= fun _ => pure (img.height * (4 * img.width))) := by
  have wf' : (whole img).img.WF m := wf
  obtain ⟨_, hr, _, hw, _, hfit, _, _, hwcc, _⟩ := View.facts wf' fit
  simp only [cc] at hwcc
  rw [u32_of_lt hwcc, rowLoop1_eq 0 hr (by decide) hfit hwcc,
    ← fold_count_grid (fun p a => rgbStep buf img.data ((whole img).cell p.2 p.1 0) a)]
  refine fold_congr 0 fun p _ => ?_
  funext a
  rw [x11Rgb_eq, whole_cell, cc, Nat.zero_add]
  rfl

/-- The value of byte `c` of a pixel of the X11 picture. -/
def xByte (m : BMem) (img : Image) (x y c : Nat) : UInt8 :=
  if c = 3 then 0 else (whole img).get m x y (if img.cc = 1 then 0 else c)

theorem gray_writes {m : BMem} {img : Image} {buf : Nat} (wf : img.WF m)
    (fit : (whole img).Fits img.width img.height) (cc : img.cc = 1) (hb : buf ≠ 0) (hd : img.data ≠ buf)
    (hsz : m.size buf = 4 * img.width * img.height) (hsm : 4 * img.width * img.height < 4294967296) :
    ∃ m', fold (fun p _ => grayStep buf img.data ((whole img).cell p.2 p.1 0) (p.1 * (4 * img.width) + p.2 * 4))
          (grid img.height img.width) () m = .ok () m' ∧
      WritesRoi m m' (whole (xImage buf img.width img.height)) img.width img.height
        (fun x y c => if c = 3 then 0 else (whole img).get m x y 0) := by
  have wfi : (whole img).img.WF m := wf
  have wfo : (whole (xImage buf img.width img.height)).img.WF m :=
    ⟨by show img.width * 4 ≤ 4 * img.width; omega, by show 4 * img.width * img.height ≤ m.size buf; omega, hsm⟩
  have fito : (whole (xImage buf img.width img.height)).Fits img.width img.height :=
    ⟨hb, .inr (.inr rfl), fit.wpos, fit.hpos, by simp, by simp⟩
  have hap : Apart (whole img) img.width img.height (whole (xImage buf img.width img.height)) img.width img.height :=
    apart_of_ne _ _ _ _ hd
  have hc0 : 0 < (whole img).img.cc := by show 0 < img.cc; omega
  have addr : ∀ x y, y * (4 * img.width) + x * 4 = (whole (xImage buf img.width img.height)).cell x y 0 := by
    intro x y
    rw [whole_cell]
    rfl
  have adds : ∀ x y k, (whole (xImage buf img.width img.height)).cell x y 0 + k =
      (whole (xImage buf img.width img.height)).cell x y k := by
    intro x y k
    rw [whole_cell, whole_cell]
    rfl
  have key : fold (fun (p : Nat × Nat) (_ : Unit) => grayStep buf img.data ((whole img).cell p.2 p.1 0)
        (p.1 * (4 * img.width) + p.2 * 4)) (grid img.height img.width) () m
      = fold (fun p _ => fold (fun c _ => writeC buf ((whole (xImage buf img.width img.height)).cell p.2 p.1 c)
          (if c = 3 then 0 else (whole img).get m p.2 p.1 0)) [0, 1, 2, 3] ())
        (grid img.height img.width) () m := by
    refine fold_congr_inv (fun m' => RoiOnly m m' (whole (xImage buf img.width img.height)) img.width img.height)
      ?_ ?_ () m (RoiOnly.refl ..)
    · intro p hp _ m' hr'
      obtain ⟨h1, h2⟩ := mem_grid.1 hp
      have e1 : memsetC buf ((whole (xImage buf img.width img.height)).cell p.2 p.1 0)
          ((whole img).get m p.2 p.1 0) 3 = _ :=
        fold_three (fun k => writeC buf ((whole (xImage buf img.width img.height)).cell p.2 p.1 0 + k)
          ((whole img).get m p.2 p.1 0)) 0 1 2
      rw [grayStep, bind_ok (readC_get wfi fit hr'.size_eq h2 h1 hc0), hr'.get_apart hap h2 h1 hc0, addr, e1,
        fold_four]
      simp only [adds, bind_assoc']
      rfl
    · intro p hp _ m' _ m'' hr' hok
      obtain ⟨h1, h2⟩ := mem_grid.1 hp
      rw [fold_four] at hok
      have k0 := hr'.set (c := 0) h2 h1 (by show 0 < 4; omega) ((whole img).get m p.2 p.1 0)
      have k1 := k0.set (c := 1) h2 h1 (by show 1 < 4; omega) ((whole img).get m p.2 p.1 0)
      have k2 := k1.set (c := 2) h2 h1 (by show 2 < 4; omega) ((whole img).get m p.2 p.1 0)
      have k3 := k2.set (c := 3) h2 h1 (by show 3 < 4; omega) 0
      have w0 := writeC_get wfo fito hr'.size_eq h2 h1 (by show 0 < 4; omega) ((whole img).get m p.2 p.1 0)
      have w1 := writeC_get wfo fito k0.size_eq h2 h1 (by show 1 < 4; omega) ((whole img).get m p.2 p.1 0)
      have w2 := writeC_get wfo fito k1.size_eq h2 h1 (by show 2 < 4; omega) ((whole img).get m p.2 p.1 0)
      have w3 := writeC_get wfo fito k2.size_eq h2 h1 (by show 3 < 4; omega) 0
      have := (bind_ok (f := fun _ => (do
        writeC buf ((whole (xImage buf img.width img.height)).cell p.2 p.1 1) ((whole img).get m p.2 p.1 0)
        writeC buf ((whole (xImage buf img.width img.height)).cell p.2 p.1 2) ((whole img).get m p.2 p.1 0)
        writeC buf ((whole (xImage buf img.width img.height)).cell p.2 p.1 3) 0 : M BMem Unit)) w0).symm.trans hok
      have := (bind_ok (f := fun _ => (do
        writeC buf ((whole (xImage buf img.width img.height)).cell p.2 p.1 2) ((whole img).get m p.2 p.1 0)
        writeC buf ((whole (xImage buf img.width img.height)).cell p.2 p.1 3) 0 : M BMem Unit)) w1).symm.trans this
      have := (bind_ok (f := fun _ => (
        writeC buf ((whole (xImage buf img.width img.height)).cell p.2 p.1 3) 0 : M BMem Unit)) w2).symm.trans this
      have := w3.symm.trans this
      cases this
      exact k3
  rw [key]
  refine pix_fold wfo fito (cs := [0, 1, 2, 3]) nodup4 (by simp; omega)
    (step := fun x y c => writeC buf ((whole (xImage buf img.width img.height)).cell x y c)
      (if c = 3 then 0 else (whole img).get m x y 0)) ?_ ?_
  · intro x y hx hy
    rfl
  · intro x y c hx hy hc m' ho
    exact writeC_get wfo fito ho.size_eq hx hy hc _

theorem rgb_writes {m : BMem} {img : Image} {buf : Nat} (wf : img.WF m)
    (fit : (whole img).Fits img.width img.height) (cc : img.cc = 3) (hb : buf ≠ 0) (hd : img.data ≠ buf)
    (hsz : m.size buf = 4 * img.width * img.height) (hsm : 4 * img.width * img.height < 4294967296) :
    ∃ m', fold (fun p _ => rgbStep buf img.data ((whole img).cell p.2 p.1 0) (p.1 * (4 * img.width) + p.2 * 4))
          (grid img.height img.width) () m = .ok () m' ∧
      WritesRoi m m' (whole (xImage buf img.width img.height)) img.width img.height
        (fun x y c => if c = 3 then 0 else (whole img).get m x y c) := by
  have wfi : (whole img).img.WF m := wf
  have wfo : (whole (xImage buf img.width img.height)).img.WF m :=
    ⟨by show img.width * 4 ≤ 4 * img.width; omega, by show 4 * img.width * img.height ≤ m.size buf; omega, hsm⟩
  have fito : (whole (xImage buf img.width img.height)).Fits img.width img.height :=
    ⟨hb, .inr (.inr rfl), fit.wpos, fit.hpos, by simp, by simp⟩
  have hap : Apart (whole img) img.width img.height (whole (xImage buf img.width img.height)) img.width img.height :=
    apart_of_ne _ _ _ _ hd
  refine pix_fold wfo fito (cs := [0, 1, 2, 3]) nodup4 (by simp; omega)
    (step := fun x y c => if c = 3 then writeC buf ((whole (xImage buf img.width img.height)).cell x y c) 0
      else copyC buf ((whole (xImage buf img.width img.height)).cell x y c) img.data ((whole img).cell x y c)) ?_ ?_
  · intro x y hx hy
    have e := fold_three (fun k => copyC buf (y * (4 * img.width) + x * 4 + k) img.data
      ((whole img).cell x y 0 + k)) 0 1 2
    rw [fold_four, rgbStep, memcpyC_eq (by rintro ⟨h, _⟩; exact hd h.symm)]
    have e' : fold (fun k _ => (do
        let v ← readC img.data ((whole img).cell x y 0 + k)
        writeC buf (y * (4 * img.width) + x * 4 + k) v : M BMem Unit)) (List.range 3) () = _ := e
    rw [e']
    simp only [bind_assoc', whole_cell]
    rfl
  · intro x y c hx hy hc m' ho
    have hc4 : c < 4 := hc
    by_cases h3 : c = 3
    · simp only [if_pos h3]
      exact writeC_get wfo fito ho.size_eq hx hy hc _
    · simp only [if_neg h3]
      have hc' : c < (whole img).img.cc := by show c < img.cc; omega
      have := copyC_get wfi fit wfo fito ho.size_eq hx hy hc hx hy hc'
      refine this.trans ?_
      rw [ho.get_apart hap hx hy hc']

/-! ### A buffer that is too small -/

/-- Either undefined behaviour or a result in a memory with the same blocks. -/
def Sz {A : Type} (x : M BMem A) : Prop :=
  ∀ m, x m = .ub ∨ ∃ a m', x m = .ok a m' ∧ m'.size = m.size

theorem sz_bind {A B : Type} {x : M BMem A} {f : A → M BMem B} (hx : Sz x) (hf : ∀ a, Sz (f a)) : Sz (x >>= f) := by
  intro m
  rcases hx m with h | ⟨a, m', h, hs⟩
  · exact .inl (bind_ub h)
  · rw [bind_ok h]
    rcases hf a m' with h' | ⟨b, m'', h', hs'⟩
    · exact .inl h'
    · exact .inr ⟨b, m'', h', hs'.trans hs⟩

theorem sz_read (b i : Nat) : Sz (readC b i : M BMem UInt8) := by
  intro m
  unfold readC
  split
  · exact .inr ⟨_, _, rfl, rfl⟩
  · exact .inl rfl

theorem sz_write (b i : Nat) (v : UInt8) : Sz (writeC b i v : M BMem Unit) := by
  intro m
  unfold writeC
  split
  · exact .inr ⟨_, _, rfl, rfl⟩
  · exact .inl rfl

theorem sz_fold {ι : Type} {body : ι → Unit → M BMem Unit} {L : List ι} (h : ∀ p, Sz (body p ())) :
    Sz (fold body L ()) := by
  induction L with
  | nil => exact fun m => .inr ⟨(), m, rfl, rfl⟩
  | cons p ps ih =>
    rw [fold_cons]
    exact sz_bind (h p) fun _ => ih

theorem sz_memcpy (b i b' i' n : Nat) : Sz (memcpyC b i b' i' n : M BMem Unit) := by
  intro m
  unfold memcpyC
  split
  · exact .inl rfl
  · exact sz_fold (fun k => sz_bind (sz_read _ _) fun v => sz_write _ _ _) m

theorem sz_gray (buf bi i a : Nat) : Sz (grayStep buf bi i a) :=
  sz_bind (sz_read _ _) fun _ => sz_bind (sz_fold fun _ => sz_write _ _ _) fun _ => sz_write _ _ _

theorem sz_rgb (buf bi i a : Nat) : Sz (rgbStep buf bi i a) :=
  sz_bind (sz_memcpy _ _ _ _ _) fun _ => sz_write _ _ _

theorem write_ub {m : BMem} {b i : Nat} (v : UInt8) (h : m.size b ≤ i) : writeC b i v m = .ub := by
  unfold writeC
  rw [if_neg]
  rintro ⟨_, h'⟩
  omega

theorem bind_sz_ub {A B : Type} {x : M BMem A} {f : A → M BMem B} {m : BMem} (hx : Sz x)
    (hf : ∀ a m', m'.size = m.size → f a m' = .ub) : (x >>= f) m = .ub := by
  rcases hx m with h | ⟨a, m', h, hs⟩
  · exact bind_ub h
  · rw [bind_ok h]
    exact hf a m' hs

theorem gray_ub {m : BMem} {buf bi i a : Nat} (h : m.size buf ≤ a + 3) : grayStep buf bi i a m = .ub := by
  rw [grayStep]
  refine bind_sz_ub (sz_read _ _) fun v m' h1 => bind_sz_ub (sz_fold fun _ => sz_write _ _ _) fun _ m'' h2 => write_ub _ ?_
  rw [h2, h1]
  exact h

theorem rgb_ub {m : BMem} {buf bi i a : Nat} (h : m.size buf ≤ a + 3) : rgbStep buf bi i a m = .ub := by
  rw [rgbStep]
  refine bind_sz_ub (sz_memcpy _ _ _ _ _) fun v m' h1 => write_ub _ ?_
  rw [h1]
  exact h

theorem fold_ub {ι : Type} {body : ι → Unit → M BMem Unit} {L : List ι} {m : BMem} {p : ι} (h : ∀ p, Sz (body p ()))
    (hp : p ∈ L) (hub : ∀ m', m'.size = m.size → body p () m' = .ub) : fold body L () m = .ub := by
  induction L generalizing m with
  | nil => exact absurd hp (List.not_mem_nil)
  | cons q qs ih =>
    rw [fold_cons]
    rcases List.mem_cons.1 hp with rfl | hq
    · exact bind_ub (hub m rfl)
    · refine bind_sz_ub (h q) fun _ m' hs => ih hq fun m'' h'' => hub m'' (h''.trans hs)

end PV.Ui
