import Verif.PixelFn
/-
  ConvertTo16Bit and ConvertTo8Bit, src/image_function.cpp 462-490 and 518-546.

  8-bit and 16-bit images are in different memories; a conversion reads one and writes the
  other, so the memory read is a parameter.
-/
namespace PV

variable {α β : Type}

/-- A read of a memory which is not changed by the call. src/image_function.cpp 488, 544. -/
def readFrom {μ : Type} (src : Mem α) (b i : Nat) : M μ α := fun s => if src.Valid b i then .ok (src.byte b i) s else .ub

/-- The loops of both conversions, src/image_function.cpp 477-490 and 533-546: the start in the
    input row is `startXIn`, not `startXIn * colorCount`. -/
def convertRows (f : α → β) (src : Mem α) (inp out : View) (w h : Nat) : M (Mem β) Unit :=
  rowLoop2 out.img.rowSize 1 inp.img.rowSize 1 (fun outX inX _ => do
    let a ← readFrom src inp.img.data inX
    writeC out.img.data outX (f a))
    (out.start inp.img.cc) (u32 (inp.y * inp.img.rowSize) + inp.x) (u32 (w * inp.img.cc)) h ()

/-- `static_cast<uint16_t>( ( *inX ) << 8 )`, src/image_function.cpp 488 -/
def to16 (a : UInt8) : UInt16 := a.toUInt16 <<< (8 : UInt16)

/-- `static_cast<uint8_t>( ( *inX ) >> 8 )`, src/image_function.cpp 544 -/
def to8 (a : UInt16) : UInt8 := (a >>> (8 : UInt16)).toUInt8

/-- src/image_function.cpp 462-490 -/
def ConvertTo16Bit (src : BMem) (inp out : View) (w h : Nat) : M (Mem UInt16) Unit := do
  validateRois [inp] w h
  validateRois [out] w h
  checkCommonColorCount inp.img [out.img]
  convertRows to16 src inp out w h

/-- src/image_function.cpp 518-546 -/
def ConvertTo8Bit (src : Mem UInt16) (inp out : View) (w h : Nat) : M BMem Unit := do
  validateRois [inp] w h
  validateRois [out] w h
  checkCommonColorCount inp.img [out.img]
  convertRows to8 src inp out w h

/-- The cell the conversions read for component `c` of pixel (x,y). Not in the code: for statements and proofs. -/
def rawCell (v : View) (x y c : Nat) : Nat := (v.y + y) * v.img.rowSize + (v.x + (x * v.img.cc + c))

theorem rawCell_valid {src : Mem α} {v : View} {w h x y c : Nat} (wf : v.img.WF src) (fit : v.Fits w h)
    (hx : x < w) (hy : y < h) (hc : c < v.img.cc) : src.Valid v.img.data (rawCell v x y c) := by
  refine ⟨fit.nonempty, ?_⟩
  obtain ⟨hcc, _⟩ := View.facts wf fit
  have h0 : v.x * 1 ≤ v.x * v.img.cc := Nat.mul_le_mul_left _ hcc
  have h1 : (v.x + x) * v.img.cc + c < v.img.width * v.img.cc :=
    mul_add_lt (by have := fit.inX; omega) hc
  rw [Nat.add_mul] at h1
  have h2 : (v.y + y) * v.img.rowSize + (v.x + (x * v.img.cc + c)) < v.img.height * v.img.rowSize :=
    mul_add_lt (by have := fit.inY; omega) (by have := wf.row; omega)
  have h3 := wf.block
  rw [Nat.mul_comm] at h3
  unfold rawCell
  omega

theorem rawCell_eq {v : View} (hv : v.img.cc = 1 ∨ v.x = 0) (x y c : Nat) : rawCell v x y c = v.cell x y c := by
  unfold rawCell View.cell
  rcases hv with e | e
  · rw [e]
    omega
  · rw [e]
    simp [Nat.add_assoc]

theorem convertRows_run {src : Mem α} {m : Mem β} {f : α → β} {inp out : View} {w h : Nat}
    (wfi : inp.img.WF src) (wfo : out.img.WF m) (fiti : inp.Fits w h) (fito : out.Fits w h)
    (co : out.img.cc = inp.img.cc) :
    ∃ m', convertRows f src inp out w h m = .ok () m' ∧
      WritesRoi m m' out w h fun x y c => f (src.byte inp.img.data (rawCell inp x y c)) := by
  obtain ⟨hcc, hr, _, _, _, hfit, _, _, hwcc, _⟩ := View.facts wfo fito
  obtain ⟨_, _, _, _, _, _, hyi, _, _, _⟩ := View.facts wfi fiti
  rw [co] at hcc hwcc
  have e := rowLoop2_eq (μ := Mem β) (A := Unit) (row := out.img.rowSize) (step := 1) (row₁ := inp.img.rowSize)
    (step₁ := 1) (body := fun outX inX _ => do
      let a ← readFrom src inp.img.data inX
      writeC out.img.data outX (f a))
    (pY := out.start inp.img.cc) (qY := u32 (inp.y * inp.img.rowSize) + inp.x) (n := w * inp.img.cc) (height := h) ()
    hr (by decide) hfit (by omega)
  rw [Nat.mul_one] at e
  rw [convertRows, u32_of_lt hwcc, e, fold_bytesL]
  refine roi_writes wfo fito nodup_bytesL (fun p => by rw [mem_bytesL hcc, co]) ?_
  intro x y c hx hy hc m' ho
  have e1 : u32 (inp.y * inp.img.rowSize) + inp.x + y * inp.img.rowSize + (x * inp.img.cc + c) * 1 = rawCell inp x y c := by
    rw [u32_of_lt hyi, rawCell, Nat.mul_one, Nat.add_mul inp.y]
    omega
  have e2 : out.start inp.img.cc + y * out.img.rowSize + (x * inp.img.cc + c) * 1 = out.cell x y c := by
    rw [← View.start_cell wfo fito, co, Nat.mul_one]
  simp only [e1, e2]
  have hrd : readFrom (μ := Mem β) src inp.img.data (rawCell inp x y c) m' =
      .ok (src.byte inp.img.data (rawCell inp x y c)) m' :=
    if_pos (rawCell_valid wfi fiti hx hy (by omega))
  rw [bind_ok hrd, writeC_ok _ (Mem.valid_of_size ho.size_eq (View.cell_valid wfo fito hx hy hc))]

end PV
