import Verif.PixelCopy
/-
  Resize, src/image_function.cpp 1442-1492.
-/
namespace PV

/-- `( k * sizeIn / sizeOut )` with a 32-bit product, src/image_function.cpp 1462 and 1471. -/
def sample (sizeIn sizeOut k : Nat) : Nat := u32 (k * sizeIn) / sizeOut

/-- `positionX`, src/image_function.cpp 1460-1462. -/
def positionX (widthIn widthOut cc : Nat) : List Nat :=
  (List.range widthOut).map fun x => u32 (sample widthIn widthOut x * cc)

/-- One pixel: src/image_function.cpp 1474-1475 for gray-scale images, 1488-1489 for colour
    images.  `idX` is an index in `positionX`. -/
def resizePixel (bo bi cc : Nat) (pos : List Nat) (inX outX idX : Nat) : M BMem Unit :=
  match pos[idX]? with
  | none => ubE
  | some p =>
    if cc = 1 then do
      let v ← readC bi (inX + p)
      writeC bo outX v
    else memcpyC bo outX bi (inX + p) cc

/-- The loops of src/image_function.cpp 1466-1491. -/
def resizeRows (bo bi cc rowIn rowOut : Nat) (pos : List Nat) (heightIn heightOut width outY inY : Nat) : M BMem Unit :=
  loop (fun s : Nat × Nat => s.1 != outY + u32 (heightOut * rowOut)) (fun s => (s.1 + rowOut, s.2 + 1))
    (fun s _ => loop (fun t : Nat × Nat => t.1 != s.1 + width) (fun t => (t.1 + cc, t.2 + 1))
      (fun t _ => resizePixel bo bi cc pos (inY + u32 (sample heightIn heightOut s.2 * rowIn)) t.1 t.2) fuelMax (s.1, 0) ())
    fuelMax (outY, 0) ()

/-- `Resize`, src/image_function.cpp 1442-1492.  The colour count of the output image is not
    checked. -/
def Resize (inp : View) (widthIn heightIn : Nat) (out : View) (widthOut heightOut : Nat) : M BMem Unit := do
  validateRois [inp] widthIn heightIn
  validateRois [out] widthOut heightOut
  resizeRows out.img.data inp.img.data inp.img.cc inp.img.rowSize out.img.rowSize
    (positionX widthIn widthOut inp.img.cc) heightIn heightOut (u32 (widthOut * inp.img.cc))
    (out.start inp.img.cc) (inp.start inp.img.cc)

/-! ### Lemmas -/

theorem sample_lt {a b k : Nat} (hk : k < b) (ha : 0 < a) : sample a b k < a := by
  have hb : 0 < b := by omega
  refine Nat.div_lt_of_lt_mul (Nat.lt_of_le_of_lt (u32_le _) ?_)
  exact Nat.mul_lt_mul_of_pos_right hk ha

theorem resizeRows_eq {bo bi cc rowIn rowOut : Nat} {pos : List Nat} {heightIn heightOut w outY inY : Nat}
    (hcc : 0 < cc) (hr : 0 < rowOut) (hfit : heightOut * rowOut < 4294967296) (hn : w * cc < 4294967296) :
    resizeRows bo bi cc rowIn rowOut pos heightIn heightOut (w * cc) outY inY =
      fold (fun p _ => resizePixel bo bi cc pos (inY + u32 (sample heightIn heightOut p.1 * rowIn))
        (outY + p.1 * rowOut + p.2 * cc) p.2) (grid heightOut w) () := by
  rw [fold_grid, resizeRows, u32_of_lt hfit]
  have := loop_eq_fold (μ := BMem) (A := Unit) (cond := fun s : Nat × Nat => s.1 != outY + heightOut * rowOut)
    (next := fun s => (s.1 + rowOut, s.2 + 1))
    (body := fun s _ => loop (fun t : Nat × Nat => t.1 != s.1 + w * cc) (fun t => (t.1 + cc, t.2 + 1))
      (fun t _ => resizePixel bo bi cc pos (inY + u32 (sample heightIn heightOut s.2 * rowIn)) t.1 t.2) fuelMax (s.1, 0) ())
    (fun k => (outY + k * rowOut, k)) heightOut fuelMax () (count_lt_fuel hr hfit)
    (fun k hk => ptr_ne hk hr) (by simp)
    (fun k _ => Prod.ext (by simp only [Nat.succ_mul]; omega) rfl)
  simp only [Nat.zero_mul, Nat.add_zero] at this
  rw [this]
  refine fold_congr () fun j _ => ?_
  funext a'
  have := loop_eq_fold (μ := BMem) (A := Unit) (cond := fun t : Nat × Nat => t.1 != outY + j * rowOut + w * cc)
    (next := fun t => (t.1 + cc, t.2 + 1))
    (body := fun t _ => resizePixel bo bi cc pos (inY + u32 (sample heightIn heightOut j * rowIn)) t.1 t.2)
    (fun k => (outY + j * rowOut + k * cc, k)) w fuelMax () (count_lt_fuel hcc hn)
    (fun k hk => ptr_ne hk hcc) (by simp)
    (fun k _ => Prod.ext (by simp only [Nat.succ_mul]; omega) rfl)
  simp only [Nat.zero_mul, Nat.add_zero] at this
  exact this

/-- One pixel is the copy of its components. -/
theorem resizePixel_eq {bo bi cc inX outX idX p : Nat} {pos : List Nat} (hp : pos[idX]? = some p)
    (hno : ¬ (bo = bi ∧ outX < inX + p + cc ∧ inX + p < outX + cc)) :
    resizePixel bo bi cc pos inX outX idX = fold (fun c _ => do
      let v ← readC bi (inX + p + c)
      writeC bo (outX + c) v) (List.range cc) () := by
  rw [resizePixel, hp]
  simp only
  by_cases h1 : cc = 1
  · rw [if_pos h1, h1]
    simp only [List.range_one, fold_cons, fold_nil, Nat.add_zero]
    rw [bind_pure_unit]
  · rw [if_neg h1, memcpyC_eq hno]

/-- `Resize` as a walk over all components of all output pixels. -/
theorem Resize_fold {m : BMem} {inp out : View} {wi hi wo ho : Nat}
    (wfi : inp.img.WF m) (wfo : out.img.WF m) (fiti : inp.Fits wi hi) (fito : out.Fits wo ho)
    (co : out.img.cc = inp.img.cc) (hap : Apart inp wi hi out wo ho) :
    Resize inp wi hi out wo ho m
      = fold (fun p _ => do
          let v ← readC inp.img.data (inp.cell (sample wi wo p.1) (sample hi ho p.2.1) p.2.2)
          writeC out.img.data (out.cell p.1 p.2.1 p.2.2) v) (pixL wo ho (List.range inp.img.cc)) () m := by
  obtain ⟨hcc, hr, _, _, _, hfit, _, _, hwcc, _⟩ := View.facts wfo fito
  obtain ⟨_, hri, _, _, _, hfiti, _, _, hwcci, _⟩ := View.facts wfi fiti
  rw [co] at hcc hwcc
  rw [Resize, bind_ok (validate_pre_ok (vs := [inp]) (by simp; exact ⟨wfi, fiti⟩)),
    bind_ok (validate_pre_ok (vs := [out]) (by simp; exact ⟨wfo, fito⟩)), u32_of_lt hwcc,
    resizeRows_eq hcc hr hfit hwcc, fold_pixL]
  refine congrFun (fold_congr () fun p hp => ?_) m
  obtain ⟨hp1, hp2⟩ := mem_grid.1 hp
  have s1 := sample_lt hp2 fiti.wpos
  have s2 := sample_lt hp1 fiti.hpos
  have b1 : sample hi ho p.1 * inp.img.rowSize < 4294967296 :=
    Nat.lt_of_le_of_lt (Nat.mul_le_mul_right _ (Nat.le_of_lt s2)) hfiti
  have b2 : sample wi wo p.2 * inp.img.cc < 4294967296 :=
    Nat.lt_of_le_of_lt (Nat.mul_le_mul_right _ (Nat.le_of_lt s1)) hwcci
  have hpos : (positionX wi wo inp.img.cc)[p.2]? = some (sample wi wo p.2 * inp.img.cc) := by
    rw [positionX, List.getElem?_map, List.getElem?_range hp2, Option.map_some, u32_of_lt b2]
  have e1 : ∀ c, inp.start inp.img.cc + u32 (sample hi ho p.1 * inp.img.rowSize) + sample wi wo p.2 * inp.img.cc + c =
      inp.cell (sample wi wo p.2) (sample hi ho p.1) c := by
    intro c
    rw [u32_of_lt b1, ← View.start_cell wfi fiti]
    omega
  have e2 : ∀ c, out.start inp.img.cc + p.1 * out.img.rowSize + p.2 * inp.img.cc + c = out.cell p.2 p.1 c := by
    intro c
    rw [← View.start_cell wfo fito, co]
    omega
  funext a
  rw [resizePixel_eq hpos]
  · refine congrArg (fun f => fold f (List.range inp.img.cc) a) ?_
    funext c _
    rw [e1, e2]
  · rintro ⟨hd, h1, h2⟩
    obtain ⟨k, k', hk, hk', hkk⟩ := overlap_common h1 h2
    rw [e1, e2] at hkk
    exact hap _ _ _ _ _ _ s1 s2 hk' hp2 hp1 (by omega) hd.symm hkk.symm

end PV
