import Verif.Roi
/-
  Model of the bytewise functions of src/image_function.cpp (the forms that take explicit
  start points and sizes; the other forms call them).
-/
namespace PV

/-- Byte memory: the pixels of 8-bit images. Not in the code: machinery of the model. -/
abbrev BMem := Mem UInt8

/-- The row/column loop of the two-input functions, src/image_function.cpp 217-236
    (AbsoluteDifference), 320-339 (BitwiseAnd), 367-386 (BitwiseOr), 414-433 (BitwiseXor),
    1142-1161 (Maximum), 1248-1267 (Minimum), 1920-1939 (Subtract): identical text except
    for the assigned expression `f (*in1X) (*in2X)`. -/
def binaryRows (f : UInt8 → UInt8 → UInt8) (in1 in2 out : View) (cc w h : Nat) : M BMem Unit :=
  rowLoop3 out.img.rowSize 1 in1.img.rowSize 1 in2.img.rowSize 1
    (fun outX in1X in2X _ => do
      let a ← readC in1.img.data in1X
      let b ← readC in2.img.data in2X
      writeC out.img.data outX (f a b))
    (out.start cc) (in1.start cc) (in2.start cc) w h ()

/-- The expression of src/image_function.cpp 235. -/
def absDiffE (a b : UInt8) : UInt8 := if b > a then b - a else a - b
/-- The expression of src/image_function.cpp 1160. -/
def maxE (a b : UInt8) : UInt8 := if b < a then a else b
/-- The expression of src/image_function.cpp 1266. -/
def minE (a b : UInt8) : UInt8 := if b > a then a else b
/-- The expression of src/image_function.cpp 1938: the subtraction is done in 32 bits and
    cast to `uint8_t`; on this branch no borrow happens. -/
def subE (a b : UInt8) : UInt8 := if b > a then 0 else a - b

/-- src/image_function.cpp 207-237 -/
def AbsoluteDifference (in1 in2 out : View) (w h : Nat) : M BMem Unit := do
  validateRois [in1, in2, out] w h
  checkCommonColorCount in1.img [in2.img, out.img]
  let r := optimiseRoi (u32 (w * in1.img.cc)) h [in1.img, in2.img, out.img]
  binaryRows absDiffE in1 in2 out in1.img.cc r.1 r.2

/-- src/image_function.cpp 310-340 -/
def BitwiseAnd (in1 in2 out : View) (w h : Nat) : M BMem Unit := do
  validateRois [in1, in2, out] w h
  checkCommonColorCount in1.img [in2.img, out.img]
  let r := optimiseRoi (u32 (w * in1.img.cc)) h [in1.img, in2.img, out.img]
  binaryRows (fun a b => a &&& b) in1 in2 out in1.img.cc r.1 r.2

/-- src/image_function.cpp 357-387 -/
def BitwiseOr (in1 in2 out : View) (w h : Nat) : M BMem Unit := do
  validateRois [in1, in2, out] w h
  checkCommonColorCount in1.img [in2.img, out.img]
  let r := optimiseRoi (u32 (w * in1.img.cc)) h [in1.img, in2.img, out.img]
  binaryRows (fun a b => a ||| b) in1 in2 out in1.img.cc r.1 r.2

/-- src/image_function.cpp 404-434 -/
def BitwiseXor (in1 in2 out : View) (w h : Nat) : M BMem Unit := do
  validateRois [in1, in2, out] w h
  checkCommonColorCount in1.img [in2.img, out.img]
  let r := optimiseRoi (u32 (w * in1.img.cc)) h [in1.img, in2.img, out.img]
  binaryRows (fun a b => a ^^^ b) in1 in2 out in1.img.cc r.1 r.2

/-- src/image_function.cpp 1132-1162 -/
def Maximum (in1 in2 out : View) (w h : Nat) : M BMem Unit := do
  validateRois [in1, in2, out] w h
  checkCommonColorCount in1.img [in2.img, out.img]
  let r := optimiseRoi (u32 (w * in1.img.cc)) h [in1.img, in2.img, out.img]
  binaryRows maxE in1 in2 out in1.img.cc r.1 r.2

/-- src/image_function.cpp 1238-1268 -/
def Minimum (in1 in2 out : View) (w h : Nat) : M BMem Unit := do
  validateRois [in1, in2, out] w h
  checkCommonColorCount in1.img [in2.img, out.img]
  let r := optimiseRoi (u32 (w * in1.img.cc)) h [in1.img, in2.img, out.img]
  binaryRows minE in1 in2 out in1.img.cc r.1 r.2

/-- src/image_function.cpp 1910-1940.  Line 1918 reads
    `OptimiseRoi( width, height, in1, in1, out )`: the second input is not passed. -/
def Subtract (in1 in2 out : View) (w h : Nat) : M BMem Unit := do
  validateRois [in1, in2, out] w h
  checkCommonColorCount in1.img [in2.img, out.img]
  let r := optimiseRoi (u32 (w * in1.img.cc)) h [in1.img, in1.img, out.img]
  binaryRows subE in1 in2 out in1.img.cc r.1 r.2

/-- The row/column loop of the one-input functions, src/image_function.cpp 989-1005
    (Invert), 1098-1114 (LookupTable), 1993-2009 and 2037-2053 (Threshold). -/
def unaryRows (f : UInt8 → UInt8) (inp out : View) (cc w h : Nat) : M BMem Unit :=
  rowLoop2 out.img.rowSize 1 inp.img.rowSize 1
    (fun outX inX _ => do
      let a ← readC inp.img.data inX
      writeC out.img.data outX (f a))
    (out.start cc) (inp.start cc) w h ()

/-- src/image_function.cpp 980-1006 -/
def Invert (inp out : View) (w h : Nat) : M BMem Unit := do
  validateRois [inp, out] w h
  checkCommonColorCount inp.img [out.img]
  let r := optimiseRoi (u32 (w * inp.img.cc)) h [inp.img, out.img]
  unaryRows (fun a => ~~~ a) inp out inp.img.cc r.1 r.2

/-- src/image_function.cpp 1085-1115.  `table` is the `std::vector<uint8_t>`; the access
    `table[*inX]` outside of the vector would be undefined behaviour, which is why it is
    modelled with a check. -/
def LookupTable (inp out : View) (w h : Nat) (table : List UInt8) : M BMem Unit := do
  validateRois [inp, out] w h
  throwIf (table.length != 256)
  checkCommonColorCount inp.img [out.img]
  let r := optimiseRoi (u32 (w * inp.img.cc)) h [inp.img, out.img]
  rowLoop2 out.img.rowSize 1 inp.img.rowSize 1
    (fun outX inX _ => do
      let a ← readC inp.img.data inX
      let t ← orUb table[a.toNat]?
      writeC out.img.data outX t)
    (out.start inp.img.cc) (inp.start inp.img.cc) r.1 r.2 ()

/-- The expression of src/image_function.cpp 2008. -/
def thrE (t a : UInt8) : UInt8 := if a < t then 0 else 255
/-- The expression of src/image_function.cpp 2052. -/
def thr2E (lo hi a : UInt8) : UInt8 := if a < lo ∨ a > hi then 0 else 255

/-- src/image_function.cpp 1986-2010 -/
def Threshold (inp out : View) (w h : Nat) (threshold : UInt8) : M BMem Unit := do
  validateRois [inp, out] w h
  verifyGray [inp.img, out.img]
  let r := optimiseRoi w h [inp.img, out.img]
  unaryRows (thrE threshold) inp out 1 r.1 r.2

/-- src/image_function.cpp 2027-2054 -/
def Threshold2 (inp out : View) (w h : Nat) (lo hi : UInt8) : M BMem Unit := do
  validateRois [inp, out] w h
  verifyGray [inp.img, out.img]
  let r := optimiseRoi w h [inp.img, out.img]
  throwIf (decide (lo > hi))
  unaryRows (thr2E lo hi) inp out 1 r.1 r.2

/-- src/image_function.cpp 657-678 -/
def CopyRoi (inp out : View) (w h : Nat) : M BMem Unit := do
  validateRois [inp, out] w h
  checkCommonColorCount inp.img [out.img]
  let r := optimiseRoi (u32 (w * inp.img.cc)) h [inp.img, out.img]
  let outY := out.start inp.img.cc
  loop (fun s => s.1 != outY + u32 (r.2 * out.img.rowSize))
    (fun s => (s.1 + out.img.rowSize, s.2 + inp.img.rowSize))
    (fun s _ => memcpyC out.img.data s.1 inp.img.data s.2 r.1)
    fuelMax (outY, inp.start inp.img.cc) ()

/-- src/image_function.cpp 730-748 -/
def Fill (image : View) (w h : Nat) (value : UInt8) : M BMem Unit := do
  validateRois [image] w h
  let r := optimiseRoi (u32 (w * image.img.cc)) h [image.img]
  let imageY := image.start image.img.cc
  loop (fun s => s != imageY + u32 (r.2 * image.img.rowSize))
    (fun s => s + image.img.rowSize)
    (fun s _ => memsetC image.img.data s value r.1)
    fuelMax imageY ()

/-! ### Lemmas -/

theorem readC_get {m m' : BMem} {v : View} {w h x y c : Nat} (wf : v.img.WF m) (fit : v.Fits w h)
    (hs : m'.size = m.size) (hx : x < w) (hy : y < h) (hc : c < v.img.cc) :
    readC v.img.data (v.cell x y c) m' = .ok (v.get m' x y c) m' :=
  readC_ok (Mem.valid_of_size hs (View.cell_valid wf fit hx hy hc))

theorem writeC_get {m m' : BMem} {v : View} {w h x y c : Nat} (wf : v.img.WF m) (fit : v.Fits w h)
    (hs : m'.size = m.size) (hx : x < w) (hy : y < h) (hc : c < v.img.cc) (a : UInt8) :
    writeC v.img.data (v.cell x y c) a m' = .ok () (m'.set v.img.data (v.cell x y c) a) :=
  writeC_ok a (Mem.valid_of_size hs (View.cell_valid wf fit hx hy hc))

/-- The loop of the two-input functions after row merging, as a walk over all bytes. -/
theorem binaryRows_fold {m : BMem} {f : UInt8 → UInt8 → UInt8} {in1 in2 out : View} {w h : Nat}
    (wf1 : in1.img.WF m) (wf2 : in2.img.WF m) (wfo : out.img.WF m)
    (fit1 : in1.Fits w h) (fit2 : in2.Fits w h) (fito : out.Fits w h)
    (c2 : in2.img.cc = in1.img.cc) (co : out.img.cc = in1.img.cc)
    {imgs : List Image} (i1 : in1.img ∈ imgs) (i2 : in2.img ∈ imgs ∨ in2.img.rowSize = in1.img.rowSize)
    (io : out.img ∈ imgs) :
    binaryRows f in1 in2 out in1.img.cc
        (optimiseRoi (u32 (w * in1.img.cc)) h imgs).1 (optimiseRoi (u32 (w * in1.img.cc)) h imgs).2
      = fold (fun p _ => do
          let a ← readC in1.img.data (in1.cell p.1 p.2.1 p.2.2)
          let b ← readC in2.img.data (in2.cell p.1 p.2.1 p.2.2)
          writeC out.img.data (out.cell p.1 p.2.1 p.2.2) (f a b)) (bytesL w h in1.img.cc) () := by
  obtain ⟨hcc, hr, _, _, _, hfit, _, _, hwcc, _⟩ := View.facts wfo fito
  rw [co] at hcc hwcc
  rw [u32_of_lt hwcc, binaryRows]
  have := rowLoop3_opt (μ := BMem) (A := Unit) (row := out.img.rowSize) (row₁ := in1.img.rowSize)
    (row₂ := in2.img.rowSize) (step := 1) (body := fun outX in1X in2X _ => do
      let a ← readC in1.img.data in1X
      let b ← readC in2.img.data in2X
      writeC out.img.data outX (f a b))
    (pY := out.start in1.img.cc) (qY := in1.start in1.img.cc) (rY := in2.start in1.img.cc)
    (n := w * in1.img.cc) (height := h) () (imgs := imgs) ⟨_, io, rfl⟩ ⟨_, i1, rfl⟩
    (by rcases i2 with h | h
        · exact ⟨_, h, rfl⟩
        · exact ⟨_, i1, h.symm⟩)
    hr (by decide) hfit (by omega) fito.hpos
  rw [Nat.mul_one] at this
  rw [this, fold_bytesL]
  refine fold_congr () fun p _ => ?_
  have e1 := View.start_cell wf1 fit1 p.1 p.2.1 p.2.2
  have e2 := View.start_cell wf2 fit2 p.1 p.2.1 p.2.2
  have eo := View.start_cell wfo fito p.1 p.2.1 p.2.2
  rw [c2] at e2
  rw [co] at eo
  simp only [Nat.mul_one, e1, e2, eo]

/-- The loop of the two-input functions after row merging. -/
theorem binaryRows_opt {m : BMem} {f : UInt8 → UInt8 → UInt8} {in1 in2 out : View} {w h : Nat}
    (wf1 : in1.img.WF m) (wf2 : in2.img.WF m) (wfo : out.img.WF m)
    (fit1 : in1.Fits w h) (fit2 : in2.Fits w h) (fito : out.Fits w h)
    (c2 : in2.img.cc = in1.img.cc) (co : out.img.cc = in1.img.cc)
    (n1 : NoClash in1 out w h) (n2 : NoClash in2 out w h)
    {imgs : List Image} (i1 : in1.img ∈ imgs) (i2 : in2.img ∈ imgs ∨ in2.img.rowSize = in1.img.rowSize)
    (io : out.img ∈ imgs) :
    ∃ m', (binaryRows f in1 in2 out in1.img.cc
            (optimiseRoi (u32 (w * in1.img.cc)) h imgs).1
            (optimiseRoi (u32 (w * in1.img.cc)) h imgs).2) m = .ok () m' ∧
      WritesRoi m m' out w h (fun x y c => f (in1.get m x y c) (in2.get m x y c)) := by
  have hcc := (View.facts wf1 fit1).1
  rw [binaryRows_fold wf1 wf2 wfo fit1 fit2 fito c2 co i1 i2 io]
  refine roi_writes wfo fito nodup_bytesL (fun p => by rw [mem_bytesL hcc, co]) ?_
  intro x y c hx hy hc m' hoth
  have hc1 : c < in1.img.cc := by omega
  have hc2 : c < in2.img.cc := by omega
  simp only
  rw [bind_ok (readC_get wf1 fit1 hoth.size_eq hx hy hc1),
    bind_ok (readC_get wf2 fit2 hoth.size_eq hx hy hc2),
    writeC_get wfo fito hoth.size_eq hx hy hc,
    hoth.get_noClash n1 hx hy hc1, hoth.get_noClash n2 hx hy hc2]

/-- The loop of the one-input functions after row merging, as a walk over all bytes. -/
theorem unaryRows_fold {m : BMem} {f : UInt8 → UInt8} {inp out : View} {w h : Nat}
    (wfi : inp.img.WF m) (wfo : out.img.WF m)
    (fiti : inp.Fits w h) (fito : out.Fits w h)
    (co : out.img.cc = inp.img.cc) :
    unaryRows f inp out inp.img.cc
        (optimiseRoi (u32 (w * inp.img.cc)) h [inp.img, out.img]).1
        (optimiseRoi (u32 (w * inp.img.cc)) h [inp.img, out.img]).2
      = fold (fun p _ => do
          let a ← readC inp.img.data (inp.cell p.1 p.2.1 p.2.2)
          writeC out.img.data (out.cell p.1 p.2.1 p.2.2) (f a)) (bytesL w h inp.img.cc) () := by
  obtain ⟨hcc, hr, _, _, _, hfit, _, _, hwcc, _⟩ := View.facts wfo fito
  rw [co] at hcc hwcc
  rw [u32_of_lt hwcc, unaryRows]
  have := rowLoop2_opt (μ := BMem) (A := Unit) (row := out.img.rowSize) (row₁ := inp.img.rowSize)
    (step := 1) (body := fun outX inX _ => do
      let a ← readC inp.img.data inX
      writeC out.img.data outX (f a))
    (pY := out.start inp.img.cc) (qY := inp.start inp.img.cc)
    (n := w * inp.img.cc) (height := h) () (imgs := [inp.img, out.img])
    ⟨out.img, by simp, rfl⟩ ⟨inp.img, by simp, rfl⟩
    hr (by decide) hfit (by omega) fito.hpos
  rw [Nat.mul_one] at this
  rw [this, fold_bytesL]
  refine fold_congr () fun p _ => ?_
  have e1 := View.start_cell wfi fiti p.1 p.2.1 p.2.2
  have eo := View.start_cell wfo fito p.1 p.2.1 p.2.2
  rw [co] at eo
  simp only [Nat.mul_one, e1, eo]

/-- The loop of the one-input functions after row merging. -/
theorem unaryRows_opt {m : BMem} {f : UInt8 → UInt8} {inp out : View} {w h : Nat}
    (wfi : inp.img.WF m) (wfo : out.img.WF m)
    (fiti : inp.Fits w h) (fito : out.Fits w h)
    (co : out.img.cc = inp.img.cc) (n1 : NoClash inp out w h) :
    ∃ m', (unaryRows f inp out inp.img.cc
            (optimiseRoi (u32 (w * inp.img.cc)) h [inp.img, out.img]).1
            (optimiseRoi (u32 (w * inp.img.cc)) h [inp.img, out.img]).2) m = .ok () m' ∧
      WritesRoi m m' out w h (fun x y c => f (inp.get m x y c)) := by
  have hcc := (View.facts wfi fiti).1
  rw [unaryRows_fold wfi wfo fiti fito co]
  refine roi_writes wfo fito nodup_bytesL (fun p => by rw [mem_bytesL hcc, co]) ?_
  intro x y c hx hy hc m' hoth
  have hc1 : c < inp.img.cc := by omega
  simp only
  rw [bind_ok (readC_get wfi fiti hoth.size_eq hx hy hc1),
    writeC_get wfo fito hoth.size_eq hx hy hc,
    hoth.get_noClash n1 hx hy hc1]

/-- Normal return of the validation prologue. -/
theorem validate_on_ok {μ : Type} {s : μ} {m : BMem} {vs : List View} {w h : Nat}
    (hv : ∀ v ∈ vs, v.img.WF m ∧ v.Fits w h) :
    validateRois vs w h s = .ok () s :=
  validateRois_ok s fun v hvs => by
    obtain ⟨wf, fit⟩ := hv v hvs
    obtain ⟨_, _, _, h4, h5, _⟩ := View.facts wf fit
    exact ⟨fit, h4, h5⟩

theorem validate_pre_ok {m : BMem} {vs : List View} {w h : Nat}
    (hv : ∀ v ∈ vs, v.img.WF m ∧ v.Fits w h) : validateRois vs w h m = .ok () m :=
  validate_on_ok hv

theorem common_ok {μ : Type} {m : μ} {a : Image} {l : List Image} (h : ∀ b ∈ l, b.cc = a.cc) :
    checkCommonColorCount a l m = .ok () m :=
  throwIf_any_false m fun b hb => by simp [h b hb]

theorem gray_ok {μ : Type} {m : μ} {l : List Image} (h : ∀ b ∈ l, b.cc = 1) :
    verifyGray l m = .ok () m :=
  throwIf_any_false m fun b hb => by simp [h b hb]

theorem common_throw {μ : Type} {m : μ} {a : Image} {l : List Image} (h : ∃ b ∈ l, b.cc ≠ a.cc) :
    checkCommonColorCount a l m = .throw m := by
  obtain ⟨b, hb, hne⟩ := h
  exact throwIf_any_true m ⟨b, hb, by simpa using fun hh => hne hh.symm⟩

theorem gray_throw {μ : Type} {m : μ} {l : List Image} (h : ∃ b ∈ l, b.cc ≠ 1) :
    verifyGray l m = .throw m := by
  obtain ⟨b, hb, hne⟩ := h
  exact throwIf_any_true m ⟨b, hb, by simpa using hne⟩

end PV
