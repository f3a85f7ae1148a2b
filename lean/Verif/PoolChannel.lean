import Verif.PoolLocal
/-
  Memory accesses of the functions that change channels or positions, for pooled calls.
-/
namespace PV

open Props (Pair mirror)

/-- One pixel byte copied. Not in the code: machinery of the model. -/
def Prog.copy (bo o bi i : Nat) : Prog UInt8 Unit := do
  let a ← Prog.load bi i
  Prog.store bo o a

/-- The accesses of `ExtractChannel`. src/image_function.cpp 695-723. -/
def progExtract (ch : Nat) (inp out : View) (w h : Nat) : Prog UInt8 Unit :=
  Prog.fold (fun p _ => Prog.copy out.img.data (out.cell p.2 p.1 0) inp.img.data (inp.cell p.2 p.1 ch))
    (grid h w) ()

/-- The accesses of `RgbToBgr`. src/image_function.cpp 1509-1539. -/
def progBgr (inp out : View) (w h : Nat) : Prog UInt8 Unit :=
  Prog.fold (fun p _ => do
    Prog.copy out.img.data (out.cell p.2 p.1 2) inp.img.data (inp.cell p.2 p.1 0)
    Prog.copy out.img.data (out.cell p.2 p.1 1) inp.img.data (inp.cell p.2 p.1 1)
    Prog.copy out.img.data (out.cell p.2 p.1 0) inp.img.data (inp.cell p.2 p.1 2)) (grid h w) ()

/-- The accesses of `ConvertToGrayScale`. src/image_function.cpp 563-593. -/
def progGray (inp out : View) (w h : Nat) : Prog UInt8 Unit :=
  if inp.img.cc == 1 then prog1 (fun a => a) inp out w h
  else Prog.fold (fun p _ => do
    let a ← Prog.load inp.img.data (inp.cell p.2 p.1 0)
    let b ← Prog.load inp.img.data (inp.cell p.2 p.1 1)
    let c ← Prog.load inp.img.data (inp.cell p.2 p.1 2)
    Prog.store out.img.data (out.cell p.2 p.1 0) (meanE a b c)) (grid h w) ()

/-- The accesses of `ConvertToRgb`: one read, then a `memset` of three bytes. src/image_function.cpp 610-643. -/
def progRgb (inp out : View) (w h : Nat) : Prog UInt8 Unit :=
  if inp.img.cc == 3 then prog1 (fun a => a) inp out w h
  else Prog.fold (fun p _ => do
    let a ← Prog.load inp.img.data (inp.cell p.2 p.1 0)
    Prog.fold (fun k _ => Prog.store out.img.data (out.cell p.2 p.1 0 + k) a) (List.range 3) ())
      (grid h w) ()

/-- The accesses of `Merge`. src/image_function.cpp 1180-1221. -/
def progMerge (in1 in2 in3 out : View) (w h : Nat) : Prog UInt8 Unit :=
  Prog.fold (fun p _ => do
    Prog.copy out.img.data (out.cell p.2 p.1 0) in1.img.data (in1.cell p.2 p.1 0)
    Prog.copy out.img.data (out.cell p.2 p.1 1) in2.img.data (in2.cell p.2 p.1 0)
    Prog.copy out.img.data (out.cell p.2 p.1 2) in3.img.data (in3.cell p.2 p.1 0)) (grid h w) ()

/-- The accesses of `Split`. src/image_function.cpp 1855-1893. -/
def progSplit (inp out1 out2 out3 : View) (w h : Nat) : Prog UInt8 Unit :=
  Prog.fold (fun p _ => do
    Prog.copy out1.img.data (out1.cell p.2 p.1 0) inp.img.data (inp.cell p.2 p.1 0)
    Prog.copy out2.img.data (out2.cell p.2 p.1 0) inp.img.data (inp.cell p.2 p.1 1)
    Prog.copy out3.img.data (out3.cell p.2 p.1 0) inp.img.data (inp.cell p.2 p.1 2)) (grid h w) ()

/-- The accesses of `Transpose` (`w` x `h` is the size of the input). src/image_function.cpp 2071-2094. -/
def progTranspose (inp out : View) (w h : Nat) : Prog UInt8 Unit :=
  Prog.fold (fun p _ => Prog.copy out.img.data (out.cell p.2 p.1 0) inp.img.data (inp.cell p.1 p.2 0))
    (grid w h) ()

/-- The accesses of `Flip`. src/image_function.cpp 765-812. -/
def progFlip (hor ver : Bool) (inp out : View) (w h : Nat) : Prog UInt8 Unit :=
  Prog.fold (fun p _ => Prog.copy out.img.data (out.cell (mirror hor w p.2) (mirror ver h p.1) 0)
    inp.img.data (inp.cell p.2 p.1 0)) (grid h w) ()

/-! ### Same outcome as the modelled functions -/

theorem Prog.run_copy (bo o bi i : Nat) : (Prog.copy bo o bi i).run = copyC bo o bi i := by
  simp only [Prog.copy, Prog.run_bind, Prog.run_load, Prog.run_store]
  rfl

theorem progExtract_tie {m : BMem} {inp out : View} {w h ch : Nat} (p : Pair m inp w h out w h)
    (co : out.img.cc = 1) (hch : ch < inp.img.cc) :
    ExtractChannel inp out w h ch m = (progExtract ch inp out w h).run m := by
  obtain ⟨_, hr, _, _, _, hfit, _, _, hwcc, _⟩ := View.facts p.wfo p.fito
  have hd : decide (ch ≥ inp.img.cc) = false := by simp; omega
  rw [ExtractChannel, p.validate, bind_ok (gray_ok (by simp [co])), hd, throwIf_false, pure_bind',
    progExtract, Prog.run_fold]
  have := rowLoop2_eq (μ := BMem) (A := Unit) (row := out.img.rowSize) (step := 1)
    (row₁ := inp.img.rowSize) (step₁ := inp.img.cc)
    (body := fun outX inX _ => copyC out.img.data outX inp.img.data inX)
    (pY := out.start 1) (qY := inp.start inp.img.cc + ch) (n := w) (height := h) () hr (by decide)
    hfit (by rw [co] at hwcc; exact hwcc)
  rw [Nat.mul_one] at this
  rw [this]
  refine congrFun (fold_congr () fun q _ => ?_) m
  funext _
  have e1 := View.cell_addr0 p.wfo p.fito co q.2 q.1
  have e2 := View.cell_addr p.wfi p.fiti rfl q.2 q.1 ch
  rw [Prog.run_copy]
  simp only [e1]
  congr 1
  omega

theorem progBgr_tie {m : BMem} {inp out : View} {w h : Nat} (p : Pair m inp w h out w h)
    (ci : inp.img.cc = 3) (co : out.img.cc = 3) :
    RgbToBgr inp out w h m = (progBgr inp out w h).run m := by
  obtain ⟨_, hr, _, _, _, hfit, _, _, hwcc, _⟩ := View.facts p.wfo p.fito
  rw [co] at hwcc
  rw [RgbToBgr, p.validate, bind_ok (rgb_ok (by simp [ci, co])), u32_of_lt hwcc,
    rowLoop2_opt () ⟨out.img, by simp, rfl⟩ ⟨inp.img, by simp, rfl⟩ hr (by decide) hfit hwcc
      p.fito.hpos, progBgr, Prog.run_fold]
  refine congrFun (fold_congr () fun q _ => ?_) m
  funext _
  simp only [Prog.run_bind, Prog.run_copy, View.cell_addr0 p.wfo p.fito co,
    View.cell_addr0 p.wfi p.fiti ci]
  rfl

theorem progGray_tie {m : BMem} {inp out : View} {w h : Nat} (p : Pair m inp w h out w h)
    (ci : inp.img.cc = 3 ∨ inp.img.cc = 1) (co : out.img.cc = 1) :
    ConvertToGrayScale inp out w h m = (progGray inp out w h).run m := by
  obtain ⟨_, hr, _, _, _, hfit, _, _, hwcc, _⟩ := View.facts p.wfo p.fito
  rw [ConvertToGrayScale, p.validate, bind_ok (gray_ok (by simp [co])), progGray]
  rcases ci with ci | ci
  · simp only [ci, Nat.reduceBEq, Bool.false_eq_true, ↓reduceIte]
    have := rowLoop2_eq (μ := BMem) (A := Unit) (row := out.img.rowSize) (step := 1)
      (row₁ := inp.img.rowSize) (step₁ := 3)
      (body := fun outX inX _ => do
          let a ← readC inp.img.data inX
          let b ← readC inp.img.data (inX + 1)
          let c ← readC inp.img.data (inX + 2)
          writeC out.img.data outX (meanE a b c))
      (pY := out.start 1) (qY := inp.start 3) (n := w) (height := h) () hr (by decide)
      hfit (by rw [co] at hwcc; exact hwcc)
    rw [Nat.mul_one] at this
    rw [this, Prog.run_fold]
    refine congrFun (fold_congr () fun q _ => ?_) m
    funext _
    simp only [Prog.run_bind, Prog.run_load, Prog.run_store, View.cell_addr0 p.wfo p.fito co,
      View.cell_addr0 p.wfi p.fiti ci]
    rfl
  · simp only [ci, Nat.reduceBEq, ↓reduceIte]
    rw [CopyRoi_fold p.wfi p.wfo p.fiti p.fito (by rw [ci, co]) p.apart, prog1_run]

theorem memset3 (b i : Nat) (a : UInt8) :
    memsetC b i a 3 = (Prog.fold (fun k _ => Prog.store b (i + k) a) (List.range 3) ()).run := by
  rw [Prog.run_fold, memsetC]
  simp only [Prog.run_store]

theorem progRgb_tie {m : BMem} {inp out : View} {w h : Nat} (p : Pair m inp w h out w h)
    (ci : inp.img.cc = 1 ∨ inp.img.cc = 3) (co : out.img.cc = 3) :
    ConvertToRgb inp out w h m = (progRgb inp out w h).run m := by
  obtain ⟨_, hr, _, _, _, hfit, _, _, hwcc, _⟩ := View.facts p.wfo p.fito
  rw [co] at hwcc
  rw [ConvertToRgb, p.validate, bind_ok (rgb_ok (by simp [co])), progRgb]
  rcases ci with ci | ci
  · simp only [ci, Nat.reduceBEq, Bool.false_eq_true, ↓reduceIte]
    rw [u32_of_lt hwcc, rowLoop2_eq () hr (by decide) hfit hwcc, Prog.run_fold]
    refine congrFun (fold_congr () fun q _ => ?_) m
    funext _
    simp only [Prog.run_bind, Prog.run_load, ← memset3, View.cell_addr0 p.wfo p.fito co,
      View.cell_addr0 p.wfi p.fiti ci]
  · simp only [ci, Nat.reduceBEq, ↓reduceIte]
    rw [CopyRoi_fold p.wfi p.wfo p.fiti p.fito (by rw [ci, co]) p.apart, prog1_run]

theorem progTranspose_tie {m : BMem} {inp out : View} {w h : Nat} (p : Pair m inp w h out h w)
    (ci : inp.img.cc = 1) (co : out.img.cc = 1) :
    Transpose inp out w h m = (progTranspose inp out w h).run m := by
  obtain ⟨_, hr, _, _, _, hfit, _, _, hwcc, _⟩ := View.facts p.wfo p.fito
  rw [Transpose, bind_ok (validate_pre_ok (vs := [inp]) (by simp; exact ⟨p.wfi, p.fiti⟩)),
    bind_ok (validate_pre_ok (vs := [out]) (by simp; exact ⟨p.wfo, p.fito⟩)),
    bind_ok (gray_ok (by simp [ci, co])), progTranspose, Prog.run_fold]
  have := rowLoop2_eq (μ := BMem) (A := Unit) (row := out.img.rowSize) (step := 1)
    (row₁ := 1) (step₁ := inp.img.rowSize)
    (body := fun outX inX _ => copyC out.img.data outX inp.img.data inX)
    (pY := out.start 1) (qY := inp.start 1) (n := h) (height := w) () hr (by decide)
    hfit (by rw [co] at hwcc; exact hwcc)
  rw [Nat.mul_one] at this
  rw [this]
  refine congrFun (fold_congr () fun q _ => ?_) m
  funext _
  have e1 := View.cell_addr0 p.wfo p.fito co q.2 q.1
  have e2 := View.cell_addr0 p.wfi p.fiti ci q.1 q.2
  rw [Prog.run_copy]
  simp only [e1]
  congr 1
  omega

theorem progFlip_tie {m : BMem} {inp out : View} {w h : Nat} (hor ver : Bool)
    (p : Pair m inp w h out w h) (ci : inp.img.cc = 1) (co : out.img.cc = 1) :
    Flip inp out w h hor ver m = (progFlip hor ver inp out w h).run m := by
  rw [Props.Flip_fold hor ver p ci co, progFlip, Prog.run_fold]
  simp only [Prog.run_copy]

theorem progMerge_tie {m : BMem} {i1 i2 i3 out : View} {w h : Nat}
    (p1 : Pair m i1 w h out w h) (p2 : Pair m i2 w h out w h) (p3 : Pair m i3 w h out w h)
    (co : out.img.cc = 3) (c1 : i1.img.cc = 1) (c2 : i2.img.cc = 1) (c3 : i3.img.cc = 1) :
    Merge i1 i2 i3 out w h m = (progMerge i1 i2 i3 out w h).run m := by
  obtain ⟨_, hr, _, _, _, hfit, _, _, hwcc, _⟩ := View.facts p1.wfo p1.fito
  rw [co] at hwcc
  rw [Merge, bind_ok (validate_pre_ok (vs := [i1, i2, i3])
      (by simp; exact ⟨⟨p1.wfi, p1.fiti⟩, ⟨p2.wfi, p2.fiti⟩, p3.wfi, p3.fiti⟩)),
    bind_ok (validate_pre_ok (vs := [out]) (by simp; exact ⟨p1.wfo, p1.fito⟩)),
    bind_ok (gray_ok (by simp [c1, c2, c3])), bind_ok (rgb_ok (by simp [co])), u32_of_lt hwcc,
    rowLoop4_eq () hr (by decide) hfit hwcc, progMerge, Prog.run_fold]
  refine congrFun (fold_congr () fun q _ => ?_) m
  funext _
  simp only [Prog.run_bind, Prog.run_copy, View.cell_addr0 p1.wfo p1.fito co,
    View.cell_addr0 p1.wfi p1.fiti c1, View.cell_addr0 p2.wfi p2.fiti c2, View.cell_addr0 p3.wfi p3.fiti c3]
  rfl

theorem progSplit_tie {m : BMem} {inp o1 o2 o3 : View} {w h : Nat}
    (p1 : Pair m inp w h o1 w h) (p2 : Pair m inp w h o2 w h) (p3 : Pair m inp w h o3 w h)
    (ci : inp.img.cc = 3) (c1 : o1.img.cc = 1) (c2 : o2.img.cc = 1) (c3 : o3.img.cc = 1) :
    Split inp o1 o2 o3 w h m = (progSplit inp o1 o2 o3 w h).run m := by
  obtain ⟨_, hr, _, _, _, hfit, _, _, hwcc, _⟩ := View.facts p1.wfi p1.fiti
  rw [ci] at hwcc
  rw [Split, bind_ok (validate_pre_ok (vs := [inp]) (by simp; exact ⟨p1.wfi, p1.fiti⟩)),
    bind_ok (validate_pre_ok (vs := [o1, o2, o3])
      (by simp; exact ⟨⟨p1.wfo, p1.fito⟩, ⟨p2.wfo, p2.fito⟩, p3.wfo, p3.fito⟩)),
    bind_ok (rgb_ok (by simp [ci])), bind_ok (gray_ok (by simp [c1, c2, c3])), u32_of_lt hwcc,
    rowLoop4_eq () hr (by decide) hfit hwcc, progSplit, Prog.run_fold]
  refine congrFun (fold_congr () fun q _ => ?_) m
  funext _
  simp only [Prog.run_bind, Prog.run_copy, View.cell_addr0 p1.wfi p1.fiti ci,
    View.cell_addr0 p1.wfo p1.fito c1, View.cell_addr0 p2.wfo p2.fito c2, View.cell_addr0 p3.wfo p3.fito c3]
  rfl

end PV
