import Verif.PixelCopy
/-
  Model of the functions of src/image_function.cpp that move pixels or change the number of
  channels: ConvertToGrayScale, ConvertToRgb, ExtractChannel, Flip, Merge, ReplaceChannel,
  RgbToBgr, RgbToRgba, RgbaToRgb, Split, Transpose.

  Simplification: where the C++ code increments a pointer several times in one round
  (`*( outX++ ) = *( in1X++ )` in Merge and Split), the model uses `outX`, `outX + 1`, ...
  and one increment per round.
-/
namespace PV

/-- `*dst = *src`. src/image_function.cpp 721, 1475, 1534-1536. -/
def copyC (bo o bi i : Nat) : M BMem Unit := do
  let a ← readC bi i
  writeC bo o a

/-- The expression `static_cast<uint8_t>( ( a + b + c ) / 3 )` of src/image_function.cpp 590
    (`int` arithmetic). -/
def meanE (a b c : UInt8) : UInt8 := UInt8.ofNat ((a.toNat + b.toNat + c.toNat) / 3)

/-- src/image_function.cpp 563-593.  The input stride is 3 also for RGBA images. -/
def ConvertToGrayScale (inp out : View) (w h : Nat) : M BMem Unit := do
  validateRois [inp, out] w h
  verifyGray [out.img]
  if inp.img.cc == 1 then
    CopyRoi inp out w h
  else
    rowLoop2 out.img.rowSize 1 inp.img.rowSize 3
      (fun outX inX _ => do
        let a ← readC inp.img.data inX
        let b ← readC inp.img.data (inX + 1)
        let c ← readC inp.img.data (inX + 2)
        writeC out.img.data outX (meanE a b c))
      (out.start 1) (inp.start 3) w h ()

/-- src/image_function.cpp 610-643.  For any input that is not RGB the input is read as a
    gray-scale image. -/
def ConvertToRgb (inp out : View) (w h : Nat) : M BMem Unit := do
  validateRois [inp, out] w h
  verifyRgb [out.img]
  if inp.img.cc == 3 then
    CopyRoi inp out w h
  else
    rowLoop2 out.img.rowSize 3 inp.img.rowSize 1
      (fun outX inX _ => do
        let a ← readC inp.img.data inX
        memsetC out.img.data outX a 3)
      (out.start 3) (inp.start 1) (u32 (w * 3)) h ()

/-- src/image_function.cpp 695-723 -/
def ExtractChannel (inp out : View) (w h channelId : Nat) : M BMem Unit := do
  validateRois [inp, out] w h
  verifyGray [out.img]
  throwIf (decide (channelId ≥ inp.img.cc))
  rowLoop2 out.img.rowSize 1 inp.img.rowSize inp.img.cc
    (fun outX inX _ => copyC out.img.data outX inp.img.data inX)
    (out.start 1) (inp.start inp.img.cc + channelId) w h ()

/-- src/image_function.cpp 1180-1221; the second colour check of lines 1191-1192 can never
    fire and is left out. -/
def Merge (in1 in2 in3 out : View) (w h : Nat) : M BMem Unit := do
  validateRois [in1, in2, in3] w h
  validateRois [out] w h
  verifyGray [in1.img, in2.img, in3.img]
  verifyRgb [out.img]
  rowLoop4 out.img.rowSize 3 in1.img.rowSize 1 in2.img.rowSize 1 in3.img.rowSize 1
    (fun outX in1X in2X in3X _ => do
      copyC out.img.data outX in1.img.data in1X
      copyC out.img.data (outX + 1) in2.img.data in2X
      copyC out.img.data (outX + 2) in3.img.data in3X)
    (out.start 3) (in1.start 1) (in2.start 1) (in3.start 1) (u32 (w * 3)) h ()

/-- src/image_function.cpp 1394-1425 -/
def ReplaceChannel (channel rgb : View) (w h channelId : Nat) : M BMem Unit := do
  validateRois [channel, rgb] w h
  verifyGray [channel.img]
  verifyRgb [rgb.img]
  throwIf (decide (channelId ≥ 3))
  rowLoop2 rgb.img.rowSize 3 channel.img.rowSize 1
    (fun outX inX _ => copyC rgb.img.data outX channel.img.data inX)
    (rgb.start 3 + channelId) (channel.start 1) (u32 (w * 3)) h ()

/-- src/image_function.cpp 1509-1539 -/
def RgbToBgr (inp out : View) (w h : Nat) : M BMem Unit := do
  validateRois [inp, out] w h
  verifyRgb [inp.img, out.img]
  let r := optimiseRoi (u32 (w * 3)) h [inp.img, out.img]
  rowLoop2 out.img.rowSize 3 inp.img.rowSize 3
    (fun outX inX _ => do
      copyC out.img.data (outX + 2) inp.img.data inX
      copyC out.img.data (outX + 1) inp.img.data (inX + 1)
      copyC out.img.data outX inp.img.data (inX + 2))
    (out.start 3) (inp.start 3) r.1 r.2 ()

/-- src/image_function.cpp 1556-1587 -/
def RgbToRgba (inp out : View) (w h : Nat) : M BMem Unit := do
  validateRois [inp, out] w h
  verifyRgb [inp.img]
  verifyRgba [out.img]
  rowLoop2 out.img.rowSize 4 inp.img.rowSize 3
    (fun outX inX _ => do
      copyC out.img.data outX inp.img.data inX
      copyC out.img.data (outX + 1) inp.img.data (inX + 1)
      copyC out.img.data (outX + 2) inp.img.data (inX + 2)
      writeC out.img.data (outX + 3) 255)
    (out.start 4) (inp.start 3) (u32 (w * 4)) h ()

/-- src/image_function.cpp 1604-1634 -/
def RgbaToRgb (inp out : View) (w h : Nat) : M BMem Unit := do
  validateRois [inp, out] w h
  verifyRgba [inp.img]
  verifyRgb [out.img]
  rowLoop2 out.img.rowSize 3 inp.img.rowSize 4
    (fun outX inX _ => do
      copyC out.img.data outX inp.img.data inX
      copyC out.img.data (outX + 1) inp.img.data (inX + 1)
      copyC out.img.data (outX + 2) inp.img.data (inX + 2))
    (out.start 3) (inp.start 4) (u32 (w * 3)) h ()

/-- src/image_function.cpp 1855-1893; here the input pointer drives the loops. -/
def Split (inp out1 out2 out3 : View) (w h : Nat) : M BMem Unit := do
  validateRois [inp] w h
  validateRois [out1, out2, out3] w h
  verifyRgb [inp.img]
  verifyGray [out1.img, out2.img, out3.img]
  rowLoop4 inp.img.rowSize 3 out1.img.rowSize 1 out2.img.rowSize 1 out3.img.rowSize 1
    (fun inX out1X out2X out3X _ => do
      copyC out1.img.data out1X inp.img.data inX
      copyC out2.img.data out2X inp.img.data (inX + 1)
      copyC out3.img.data out3X inp.img.data (inX + 2))
    (inp.start 3) (out1.start 1) (out2.start 1) (out3.start 1) (u32 (w * 3)) h ()

/-- src/image_function.cpp 2071-2094: the outer loop runs over `width` output rows, the
    inner one over `height` output columns. -/
def Transpose (inp out : View) (w h : Nat) : M BMem Unit := do
  validateRois [inp] w h
  validateRois [out] h w
  verifyGray [inp.img, out.img]
  rowLoop2 out.img.rowSize 1 1 inp.img.rowSize
    (fun outX inY _ => copyC out.img.data outX inp.img.data inY)
    (out.start 1) (inp.start 1) h w ()

/-- A store through a pointer that may point before its block: undefined behaviour then. src/image_function.cpp 790, 808. -/
def copyToI (bo : Nat) (o : Int) (bi i : Nat) : M BMem Unit :=
  if 0 ≤ o then copyC bo o.toNat bi i else ubE

/-- `memcpy` to a pointer that may point before its block. src/image_function.cpp 797. -/
def memcpyToI (bo : Nat) (o : Int) (bi i n : Nat) : M BMem Unit :=
  if 0 ≤ o then memcpyC bo o.toNat bi i n else ubE

/-- The two mirrored loops of `Flip` (src/image_function.cpp 781-792 and 799-810): the input
    pointer drives, the output pointer moves by `dy` per row and by -1 per pixel. -/
def flipLoop (inp out : View) (outY : Int) (dy : Int) (w h : Nat) : M BMem Unit :=
  loop (fun s : Nat × Int => s.1 != inp.start 1 + u32 (h * inp.img.rowSize))
    (fun s => (s.1 + inp.img.rowSize, s.2 + dy))
    (fun s a => loop (fun t : Nat × Int => t.1 != s.1 + w) (fun t => (t.1 + 1, t.2 - 1))
      (fun t _ => copyToI out.img.data t.2 inp.img.data t.1) fuelMax s a)
    fuelMax (inp.start 1, outY) ()

/-- src/image_function.cpp 765-812.  Output pointers that move backwards are integers
    (they may pass the beginning of the block after the last round). -/
def Flip (inp out : View) (w h : Nat) (horizontal vertical : Bool) : M BMem Unit := do
  validateRois [inp, out] w h
  verifyGray [inp.img, out.img]
  if !horizontal && !vertical then
    CopyRoi inp out w h
  else if horizontal && !vertical then
    flipLoop inp out ((out.start 1 + w - 1 : Nat) : Int) out.img.rowSize w h
  else if !horizontal && vertical then
    loop (fun s : Nat × Int => s.1 != inp.start 1 + u32 (h * inp.img.rowSize))
      (fun s => (s.1 + inp.img.rowSize, s.2 - out.img.rowSize))
      (fun s _ => memcpyToI out.img.data s.2 inp.img.data s.1 w)
      fuelMax (inp.start 1, ((u32 (u32 (out.y + h - 1) * out.img.rowSize) + out.x : Nat) : Int)) ()
  else
    flipLoop inp out ((u32 (u32 (out.y + h - 1) * out.img.rowSize) + out.x + w - 1 : Nat) : Int)
      (-(out.img.rowSize : Int)) w h

/-! ### Lemmas -/

/-- Loops over `w` x `h` pixels, each round writing the channels `cs` of one output pixel. -/
theorem pix_fold {m : BMem} {out : View} {w h : Nat} (wfo : out.img.WF m) (fito : out.Fits w h)
    {cs : List Nat} (hnd : cs.Nodup) (hcs : ∀ c, c ∈ cs ↔ c < out.img.cc)
    {B : Nat × Nat → Unit → M BMem Unit} {step : Nat → Nat → Nat → M BMem Unit}
    (hB : ∀ x y, x < w → y < h → B (y, x) () = fold (fun c _ => step x y c) cs ())
    {val : Nat → Nat → Nat → UInt8}
    (hstep : ∀ x y c, x < w → y < h → c < out.img.cc → ∀ m', OthersOnly m m' out w h x y c →
      step x y c m' = .ok () (m'.set out.img.data (out.cell x y c) (val x y c))) :
    ∃ m', fold B (grid h w) () m = .ok () m' ∧ WritesRoi m m' out w h val := by
  have : fold B (grid h w) () = fold (fun p _ => step p.1 p.2.1 p.2.2) (pixL w h cs) () := by
    rw [fold_pixL]
    refine fold_congr () fun p hp => ?_
    funext a
    obtain ⟨h1, h2⟩ := mem_grid.1 hp
    exact hB p.2 p.1 h2 h1
  rw [this]
  exact roi_writes wfo fito (nodup_pixL hnd) (fun p => by rw [mem_pixL, hcs]) hstep

theorem copyC_get {m m' : BMem} {vi vo : View} {wi hi wo ho x y c x' y' c' : Nat}
    (wfi : vi.img.WF m) (fiti : vi.Fits wi hi) (wfo : vo.img.WF m) (fito : vo.Fits wo ho)
    (hs : m'.size = m.size) (hx : x < wo) (hy : y < ho) (hc : c < vo.img.cc)
    (hx' : x' < wi) (hy' : y' < hi) (hc' : c' < vi.img.cc) :
    copyC vo.img.data (vo.cell x y c) vi.img.data (vi.cell x' y' c') m'
      = .ok () (m'.set vo.img.data (vo.cell x y c) (vi.get m' x' y' c')) := by
  rw [copyC, bind_ok (readC_get wfi fiti hs hx' hy' hc'), writeC_get wfo fito hs hx hy hc]

theorem rgb_ok {μ : Type} {m : μ} {l : List Image} (h : ∀ b ∈ l, b.cc = 3) :
    verifyRgb l m = .ok () m :=
  throwIf_any_false m fun b hb => by simp [h b hb]

theorem rgb_throw {μ : Type} {m : μ} {l : List Image} (h : ∃ b ∈ l, b.cc ≠ 3) :
    verifyRgb l m = .throw m := by
  obtain ⟨b, hb, hne⟩ := h
  exact throwIf_any_true m ⟨b, hb, by simpa using hne⟩

theorem rgba_ok {μ : Type} {m : μ} {l : List Image} (h : ∀ b ∈ l, b.cc = 4) :
    verifyRgba l m = .ok () m :=
  throwIf_any_false m fun b hb => by simp [h b hb]

theorem rgba_throw {μ : Type} {m : μ} {l : List Image} (h : ∃ b ∈ l, b.cc ≠ 4) :
    verifyRgba l m = .throw m := by
  obtain ⟨b, hb, hne⟩ := h
  exact throwIf_any_true m ⟨b, hb, by simpa using hne⟩

/-- Normal form of a cell address: start + row + column + channel. -/
theorem View.cell_addr {m : BMem} {v : View} {w h : Nat} (wf : v.img.WF m) (fit : v.Fits w h)
    {cc : Nat} (hcc : v.img.cc = cc) (x y c : Nat) :
    v.start cc + y * v.img.rowSize + x * cc + c = v.cell x y c := by
  have := View.start_cell wf fit x y c
  rw [hcc] at this
  omega

theorem View.cell_addr0 {m : BMem} {v : View} {w h : Nat} (wf : v.img.WF m) (fit : v.Fits w h)
    {cc : Nat} (hcc : v.img.cc = cc) (x y : Nat) :
    v.start cc + y * v.img.rowSize + x * cc = v.cell x y 0 := by
  have := View.cell_addr wf fit hcc x y 0
  omega

theorem fold_one {ι : Type} (s : ι → M BMem Unit) (a : ι) : fold (fun c _ => s c) [a] () = s a := by
  simp only [fold, bind_pure']

theorem fold_three {ι : Type} (s : ι → M BMem Unit) (a b c : ι) :
    fold (fun c _ => s c) [a, b, c] () = (do s a; s b; s c) := by
  simp only [fold, bind_pure']

theorem fold_four {ι : Type} (s : ι → M BMem Unit) (a b c d : ι) :
    fold (fun c _ => s c) [a, b, c, d] () = (do s a; s b; s c; s d) := by
  simp only [fold, bind_pure']

/-- With one channel the bytes are the pixels. -/
theorem fold_bytesL_one {w h : Nat} {body : Nat × Nat × Nat → Unit → M BMem Unit} :
    fold body (bytesL w h 1) () = fold (fun q => body (q.2, q.1, 0)) (grid h w) () := by
  rw [bytesL, fold_map, Nat.mul_one]
  refine fold_congr () fun p _ => ?_
  simp only [Nat.div_one, Nat.mod_one]

theorem nodup3 : [0, 1, 2].Nodup := by decide
theorem nodup3' : [2, 1, 0].Nodup := by decide
theorem nodup4 : [0, 1, 2, 3].Nodup := by decide

/-- `ExtractChannel` after its checks. -/
theorem extractRows {m : BMem} {inp out : View} {w h ch : Nat}
    (wfi : inp.img.WF m) (wfo : out.img.WF m) (fiti : inp.Fits w h) (fito : out.Fits w h)
    (co : out.img.cc = 1) (hch : ch < inp.img.cc) (hap : Apart inp w h out w h) :
    ∃ m', rowLoop2 out.img.rowSize 1 inp.img.rowSize inp.img.cc
        (fun outX inX _ => copyC out.img.data outX inp.img.data inX)
        (out.start 1) (inp.start inp.img.cc + ch) w h () m = .ok () m' ∧
      WritesRoi m m' out w h (fun x y _ => inp.get m x y ch) := by
  obtain ⟨_, hr, _, _, _, hfit, _, _, hwcc, _⟩ := View.facts wfo fito
  have := rowLoop2_eq (μ := BMem) (A := Unit) (row := out.img.rowSize) (step := 1)
    (row₁ := inp.img.rowSize) (step₁ := inp.img.cc)
    (body := fun outX inX _ => copyC out.img.data outX inp.img.data inX)
    (pY := out.start 1) (qY := inp.start inp.img.cc + ch) (n := w) (height := h) () hr (by decide)
    hfit (by rw [co] at hwcc; exact hwcc)
  rw [Nat.mul_one] at this
  rw [this]
  refine pix_fold wfo fito (cs := [0]) (by simp) (by simp [co])
    (step := fun x y c => copyC out.img.data (out.cell x y c) inp.img.data (inp.cell x y ch)) ?_ ?_
  · intro x y hx hy
    rw [fold_one]
    have e1 := View.cell_addr0 wfo fito co x y
    have e2 := View.cell_addr wfi fiti rfl x y ch
    simp only [e1]
    congr 1
    omega
  · intro x y c hx hy hc m' ho
    rw [copyC_get wfi fiti wfo fito ho.size_eq hx hy hc hx hy hch, ho.get_apart hap hx hy hch]

/-- `Transpose` after its checks. -/
theorem transposeRows {m : BMem} {inp out : View} {w h : Nat}
    (wfi : inp.img.WF m) (wfo : out.img.WF m) (fiti : inp.Fits w h) (fito : out.Fits h w)
    (ci : inp.img.cc = 1) (co : out.img.cc = 1) (hap : Apart inp w h out h w) :
    ∃ m', rowLoop2 out.img.rowSize 1 1 inp.img.rowSize
        (fun outX inY _ => copyC out.img.data outX inp.img.data inY)
        (out.start 1) (inp.start 1) h w () m = .ok () m' ∧
      WritesRoi m m' out h w (fun x y c => inp.get m y x c) := by
  obtain ⟨_, hr, _, _, _, hfit, _, _, hwcc, _⟩ := View.facts wfo fito
  have := rowLoop2_eq (μ := BMem) (A := Unit) (row := out.img.rowSize) (step := 1)
    (row₁ := 1) (step₁ := inp.img.rowSize)
    (body := fun outX inX _ => copyC out.img.data outX inp.img.data inX)
    (pY := out.start 1) (qY := inp.start 1) (n := h) (height := w) () hr (by decide)
    hfit (by rw [co] at hwcc; exact hwcc)
  rw [Nat.mul_one] at this
  rw [this]
  refine pix_fold wfo fito (cs := [0]) (by simp) (by simp [co])
    (step := fun x y c => copyC out.img.data (out.cell x y c) inp.img.data (inp.cell y x c)) ?_ ?_
  · intro x y hx hy
    rw [fold_one]
    have e1 := View.cell_addr0 wfo fito co x y
    have e2 := View.cell_addr0 wfi fiti ci y x
    simp only [e1]
    congr 1
    omega
  · intro x y c hx hy hc m' ho
    have hc' : c < inp.img.cc := by omega
    rw [copyC_get wfi fiti wfo fito ho.size_eq hx hy hc hy hx hc', ho.get_apart hap hy hx hc']

/-- `ConvertToGrayScale` of an RGB image after its checks. -/
theorem grayRows {m : BMem} {inp out : View} {w h : Nat}
    (wfi : inp.img.WF m) (wfo : out.img.WF m) (fiti : inp.Fits w h) (fito : out.Fits w h)
    (ci : inp.img.cc = 3) (co : out.img.cc = 1) (hap : Apart inp w h out w h) :
    ∃ m', rowLoop2 out.img.rowSize 1 inp.img.rowSize 3
      (fun outX inX _ => do
        let a ← readC inp.img.data inX
        let b ← readC inp.img.data (inX + 1)
        let c ← readC inp.img.data (inX + 2)
        writeC out.img.data outX (meanE a b c))
      (out.start 1) (inp.start 3) w h () m = .ok () m' ∧
      WritesRoi m m' out w h
        (fun x y _ => meanE (inp.get m x y 0) (inp.get m x y 1) (inp.get m x y 2)) := by
  obtain ⟨_, hr, _, _, _, hfit, _, _, hwcc, _⟩ := View.facts wfo fito
  have := rowLoop2_eq (μ := BMem) (A := Unit) (row := out.img.rowSize) (step := 1)
    (row₁ := inp.img.rowSize) (step₁ := 3)
    (body := fun outX inX _ => do
        let a ← readC inp.img.data inX
        let b ← readC inp.img.data (inX + 1)
        let c ← readC inp.img.data (inX + 2)
        writeC out.img.data outX (meanE a b c))
    (pY := out.start 1) (qY := inp.start 3) (n := w) (height := h) () hr (by decide)
    hfit (by rw [co] at hwcc; exact hwcc)
  rw [Nat.mul_one] at this
  rw [this]
  refine pix_fold wfo fito (cs := [0]) (by simp) (by simp [co])
    (step := fun x y c => do
        let a ← readC inp.img.data (inp.cell x y 0)
        let b ← readC inp.img.data (inp.cell x y 1)
        let d ← readC inp.img.data (inp.cell x y 2)
        writeC out.img.data (out.cell x y c) (meanE a b d)) ?_ ?_
  · intro x y hx hy
    rw [fold_one]
    simp only [View.cell_addr0 wfo fito co x y, View.cell_addr0 wfi fiti ci x y]
    rfl
  · intro x y c hx hy hc m' ho
    rw [bind_ok (readC_get wfi fiti ho.size_eq hx hy (by omega)),
      bind_ok (readC_get wfi fiti ho.size_eq hx hy (by omega)),
      bind_ok (readC_get wfi fiti ho.size_eq hx hy (by omega)),
      writeC_get wfo fito ho.size_eq hx hy hc,
      ho.get_apart hap hx hy (by omega), ho.get_apart hap hx hy (by omega),
      ho.get_apart hap hx hy (by omega)]

/-- Only cells of the ROI of `vo` differ. Not in the code: for statements and proofs. -/
structure RoiOnly (m m' : BMem) (vo : View) (w h : Nat) : Prop where
  size_eq : m'.size = m.size
  same : ∀ b i, ¬ (b = vo.img.data ∧ ∃ x y c, x < w ∧ y < h ∧ c < vo.img.cc ∧ i = vo.cell x y c) →
    m'.byte b i = m.byte b i

theorem RoiOnly.refl (m : BMem) (vo : View) (w h : Nat) : RoiOnly m m vo w h :=
  ⟨rfl, fun _ _ _ => rfl⟩

theorem RoiOnly.set {m m' : BMem} {vo : View} {w h x y c : Nat} (r : RoiOnly m m' vo w h)
    (hx : x < w) (hy : y < h) (hc : c < vo.img.cc) (v : UInt8) :
    RoiOnly m (m'.set vo.img.data (vo.cell x y c) v) vo w h := by
  refine ⟨r.size_eq, fun b i hne => ?_⟩
  rw [Mem.set_other, r.same b i hne]
  rintro ⟨rfl, rfl⟩
  exact hne ⟨rfl, x, y, c, hx, hy, hc, rfl⟩

theorem RoiOnly.get_apart {m m' : BMem} {vi vo : View} {w h wi hi x' y' c' : Nat}
    (ho : RoiOnly m m' vo w h) (hn : Apart vi wi hi vo w h)
    (hx : x' < wi) (hy : y' < hi) (hc : c' < vi.img.cc) : vi.get m' x' y' c' = vi.get m x' y' c' := by
  refine ho.same _ _ ?_
  rintro ⟨hb, x, y, c, hx', hy', hc', he⟩
  exact hn _ _ _ _ _ _ hx hy hc hx' hy' hc' hb he

/-- Two ways to perform each step that agree on all states satisfying an invariant. -/
theorem fold_congr_inv {μ A ι : Type} {body body' : ι → A → M μ A} {L : List ι} (Inv : μ → Prop)
    (hag : ∀ p ∈ L, ∀ a m, Inv m → body p a m = body' p a m)
    (hinv : ∀ p ∈ L, ∀ a m a' m', Inv m → body' p a m = .ok a' m' → Inv m') (a : A) (m : μ)
    (hm : Inv m) : fold body L a m = fold body' L a m := by
  induction L generalizing a m with
  | nil => rfl
  | cons p ps ih =>
    rw [fold_cons, fold_cons, bind_run, bind_run, hag p (List.mem_cons_self ..) a m hm]
    cases hb : body' p a m with
    | ok a' m' =>
      exact ih (fun q hq => hag q (List.mem_cons_of_mem _ hq))
        (fun q hq => hinv q (List.mem_cons_of_mem _ hq)) a' m'
        (hinv p (List.mem_cons_self ..) a m a' m' hm hb)
    | throw _ => rfl
    | ub => rfl

/-- `ConvertToRgb` of a gray-scale image after its checks. -/
theorem rgbRows {m : BMem} {inp out : View} {w h : Nat}
    (wfi : inp.img.WF m) (wfo : out.img.WF m) (fiti : inp.Fits w h) (fito : out.Fits w h)
    (ci : inp.img.cc = 1) (co : out.img.cc = 3) (hap : Apart inp w h out w h) :
    ∃ m', rowLoop2 out.img.rowSize 3 inp.img.rowSize 1
      (fun outX inX _ => do
        let a ← readC inp.img.data inX
        memsetC out.img.data outX a 3)
      (out.start 3) (inp.start 1) (u32 (w * 3)) h () m = .ok () m' ∧
      WritesRoi m m' out w h (fun x y _ => inp.get m x y 0) := by
  obtain ⟨_, hr, _, _, _, hfit, _, _, hwcc, _⟩ := View.facts wfo fito
  rw [co] at hwcc
  rw [u32_of_lt hwcc, rowLoop2_eq () hr (by decide) hfit hwcc]
  have key : fold (fun (p : Nat × Nat) (_ : Unit) => (do
        let a ← readC inp.img.data (inp.start 1 + p.1 * inp.img.rowSize + p.2 * 1)
        memsetC out.img.data (out.start 3 + p.1 * out.img.rowSize + p.2 * 3) a 3 : M BMem Unit))
        (grid h w) () m
      = fold (fun p _ => memsetC out.img.data (out.cell p.2 p.1 0) (inp.get m p.2 p.1 0) 3)
        (grid h w) () m := by
    refine fold_congr_inv (fun m' => RoiOnly m m' out w h) ?_ ?_ () m (RoiOnly.refl ..)
    · intro p hp _ m' hr'
      obtain ⟨h1, h2⟩ := mem_grid.1 hp
      rw [View.cell_addr0 wfi fiti ci, View.cell_addr0 wfo fito co,
        bind_ok (readC_get wfi fiti hr'.size_eq h2 h1 (by omega)), hr'.get_apart hap h2 h1 (by omega)]
    · intro p hp _ m' _ m'' hr' hok
      obtain ⟨h1, h2⟩ := mem_grid.1 hp
      have e1 : out.cell p.2 p.1 0 + 1 = out.cell p.2 p.1 1 := by simp only [View.cell]
      have e2 : out.cell p.2 p.1 0 + 2 = out.cell p.2 p.1 2 := by simp only [View.cell]
      have e3 := fold_three (fun k => writeC out.img.data (out.cell p.2 p.1 0 + k) (inp.get m p.2 p.1 0)) 0 1 2
      have e4 : memsetC out.img.data (out.cell p.2 p.1 0) (inp.get m p.2 p.1 0) 3 = _ := e3
      rw [e4, Nat.add_zero, e1, e2] at hok
      have k0 := hr'.set (c := 0) h2 h1 (by omega) (inp.get m p.2 p.1 0)
      have k1 := k0.set (c := 1) h2 h1 (by omega) (inp.get m p.2 p.1 0)
      have k2 := k1.set (c := 2) h2 h1 (by omega) (inp.get m p.2 p.1 0)
      rw [bind_ok (writeC_get wfo fito hr'.size_eq h2 h1 (by omega) _),
        bind_ok (writeC_get wfo fito k0.size_eq h2 h1 (by omega) _),
        writeC_get wfo fito k1.size_eq h2 h1 (by omega) _] at hok
      cases hok
      exact k2
  rw [key]
  refine pix_fold wfo fito (cs := [0, 1, 2]) nodup3 (by simp [co]; omega)
    (step := fun x y c => writeC out.img.data (out.cell x y c) (inp.get m x y 0)) ?_ ?_
  · intro x y hx hy
    refine fold_congr () fun c _ => ?_
    simp only [View.cell, Nat.add_zero]
  · intro x y c hx hy hc m' ho
    rw [writeC_get wfo fito ho.size_eq hx hy hc]

/-- Sequences of single-byte copies from one input pixel to one output pixel:
    `*( outX + c ) = *( inX + src c )` for the channels `cs`. -/
theorem copyRows {m : BMem} {inp out : View} {w h : Nat} {ci co : Nat}
    (wfi : inp.img.WF m) (wfo : out.img.WF m) (fiti : inp.Fits w h) (fito : out.Fits w h)
    (hci : inp.img.cc = ci) (hco : out.img.cc = co) (hap : Apart inp w h out w h)
    {cs : List Nat} (hnd : cs.Nodup) (hcs : ∀ c, c ∈ cs ↔ c < co) (src : Nat → Nat)
    (hsrc : ∀ c, c < co → src c < ci) :
    ∃ m', fold (fun p _ => fold (fun c _ =>
          copyC out.img.data (out.start co + p.1 * out.img.rowSize + p.2 * co + c)
            inp.img.data (inp.start ci + p.1 * inp.img.rowSize + p.2 * ci + src c)) cs ())
        (grid h w) () m = .ok () m' ∧
      WritesRoi m m' out w h (fun x y c => inp.get m x y (src c)) := by
  refine pix_fold wfo fito (cs := cs) hnd (fun c => by rw [hcs, hco])
    (step := fun x y c => copyC out.img.data (out.cell x y c) inp.img.data (inp.cell x y (src c))) ?_ ?_
  · intro x y hx hy
    refine fold_congr () fun c _ => ?_
    simp only [View.cell_addr wfo fito hco, View.cell_addr wfi fiti hci]
  · intro x y c hx hy hc m' ho
    have hs : src c < inp.img.cc := by rw [hci]; exact hsrc c (by omega)
    rw [copyC_get wfi fiti wfo fito ho.size_eq hx hy hc hx hy hs, ho.get_apart hap hx hy hs]

/-- Mirrored copies: `τ` and `σ` are involutions of the columns and rows. -/
theorem flip_fold {m : BMem} {inp out : View} {w h : Nat} {τ σ : Nat → Nat}
    (wfi : inp.img.WF m) (wfo : out.img.WF m) (fiti : inp.Fits w h) (fito : out.Fits w h)
    (ci : inp.img.cc = 1) (co : out.img.cc = 1) (hap : Apart inp w h out w h)
    (t1 : ∀ x, x < w → τ x < w) (t2 : ∀ x, x < w → τ (τ x) = x)
    (s1 : ∀ y, y < h → σ y < h) (s2 : ∀ y, y < h → σ (σ y) = y) :
    ∃ m', fold (fun p _ => copyC out.img.data (out.cell (τ p.2) (σ p.1) 0) inp.img.data
        (inp.cell p.2 p.1 0)) (grid h w) () m = .ok () m' ∧
      WritesRoi m m' out w h (fun x y c => inp.get m (τ x) (σ y) c) := by
  have : fold (fun p _ => copyC out.img.data (out.cell (τ p.2) (σ p.1) 0) inp.img.data
        (inp.cell p.2 p.1 0)) (grid h w) ()
      = fold (fun q _ => copyC out.img.data (out.cell q.1 q.2.1 0) inp.img.data
        (inp.cell (τ q.1) (σ q.2.1) 0)) ((grid h w).map fun p => (τ p.2, σ p.1, 0)) () := by
    rw [fold_map]
    refine fold_congr () fun p hp => ?_
    obtain ⟨h1, h2⟩ := mem_grid.1 hp
    simp only [t2 _ h2, s2 _ h1]
  rw [this]
  refine roi_writes wfo fito ?_ ?_ ?_
  · refine nodup_map_inj (nodup_grid _ _) fun a ha b hb hab => ?_
    obtain ⟨a1, a2⟩ := mem_grid.1 ha
    obtain ⟨b1, b2⟩ := mem_grid.1 hb
    simp only [Prod.mk.injEq, and_true] at hab
    refine Prod.ext ?_ ?_
    · rw [← s2 _ a1, ← s2 _ b1, hab.2]
    · rw [← t2 _ a2, ← t2 _ b2, hab.1]
  · intro p
    simp only [List.mem_map, mem_grid, co]
    constructor
    · rintro ⟨q, ⟨h1, h2⟩, rfl⟩
      exact ⟨t1 _ h2, s1 _ h1, Nat.zero_lt_one⟩
    · rintro ⟨h1, h2, h3⟩
      refine ⟨(σ p.2.1, τ p.1), ⟨s1 _ h2, t1 _ h1⟩, ?_⟩
      simp only [t2 _ h1, s2 _ h2]
      exact Prod.ext rfl (Prod.ext rfl (by simp only; omega))
  · intro x y c hx hy hc m' ho
    have hc0 : c = 0 := by omega
    subst hc0
    rw [copyC_get wfi fiti wfo fito ho.size_eq hx hy hc (t1 _ hx) (s1 _ hy) (by omega),
      ho.get_apart hap (t1 _ hx) (s1 _ hy) (by omega)]

/-- The loops with a backward output pointer. -/
theorem flipLoop_eq {m : BMem} {inp out : View} {w h : Nat} {outY dy : Int} {σ : Nat → Nat}
    (wfi : inp.img.WF m) (fiti : inp.Fits w h) (ci : inp.img.cc = 1)
    (haddr : ∀ x y, x < w → y < h → outY + y * dy - x = (out.cell (w - 1 - x) (σ y) 0 : Nat)) :
    flipLoop inp out outY dy w h
      = fold (fun p _ => copyC out.img.data (out.cell (w - 1 - p.2) (σ p.1) 0) inp.img.data
          (inp.cell p.2 p.1 0)) (grid h w) () := by
  obtain ⟨_, hr, _, hwi, _, hfit, _, _, hwcc, _⟩ := View.facts wfi fiti
  rw [fold_grid, flipLoop, u32_of_lt hfit]
  have := loop_eq_fold (μ := BMem) (A := Unit)
    (cond := fun s : Nat × Int => s.1 != inp.start 1 + h * inp.img.rowSize)
    (next := fun s => (s.1 + inp.img.rowSize, s.2 + dy))
    (body := fun s a => loop (fun t : Nat × Int => t.1 != s.1 + w) (fun t => (t.1 + 1, t.2 - 1))
      (fun t _ => copyToI out.img.data t.2 inp.img.data t.1) fuelMax s a)
    (fun k => (inp.start 1 + k * inp.img.rowSize, outY + k * dy)) h fuelMax () (count_lt_fuel hr hfit)
    (fun k hk => ptr_ne hk hr) (by simp)
    (fun k _ => by
      simp only [Nat.succ_mul, Prod.mk.injEq]
      refine ⟨by omega, ?_⟩
      rw [Int.natCast_add, Int.add_mul]
      omega)
  simp only [Nat.zero_mul, Nat.add_zero, Int.natCast_zero, Int.zero_mul, Int.add_zero] at this
  rw [this]
  refine fold_congr () fun y hy => ?_
  funext a
  have hy' := List.mem_range.1 hy
  have := loop_eq_fold (μ := BMem) (A := Unit)
    (cond := fun t : Nat × Int => t.1 != inp.start 1 + y * inp.img.rowSize + w)
    (next := fun t => (t.1 + 1, t.2 - 1))
    (body := fun t _ => copyToI out.img.data t.2 inp.img.data t.1)
    (fun k => (inp.start 1 + y * inp.img.rowSize + k, outY + y * dy - k)) w fuelMax a
    (by have := fiti.inX; unfold fuelMax; omega)
    (fun k hk => by simp; omega) (by simp)
    (fun k _ => by simp only [Prod.mk.injEq]; omega)
  simp only [Nat.add_zero, Int.natCast_zero, Int.sub_zero] at this
  simp only
  rw [this]
  refine fold_congr a fun x hx => ?_
  funext _
  have hx' := List.mem_range.1 hx
  have e := View.cell_addr0 wfi fiti ci x y
  rw [Nat.mul_one] at e
  rw [haddr x y hx' hy', copyToI, if_pos (by omega), Int.toNat_natCast, e]

/-- The vertical flip copies whole rows. -/
theorem flipV_eq {m : BMem} {inp out : View} {w h : Nat} {outY : Int}
    (wfi : inp.img.WF m) (fiti : inp.Fits w h) (ci : inp.img.cc = 1) (co : out.img.cc = 1)
    (hap : Apart inp w h out w h)
    (haddr : ∀ y, y < h → outY - y * (out.img.rowSize : Int) = (out.cell 0 (h - 1 - y) 0 : Nat)) :
    (loop (fun s : Nat × Int => s.1 != inp.start 1 + u32 (h * inp.img.rowSize))
      (fun s => (s.1 + inp.img.rowSize, s.2 - out.img.rowSize))
      (fun s _ => memcpyToI out.img.data s.2 inp.img.data s.1 w)
      fuelMax (inp.start 1, outY) () : M BMem Unit)
      = fold (fun p _ => copyC out.img.data (out.cell p.2 (h - 1 - p.1) 0) inp.img.data
          (inp.cell p.2 p.1 0)) (grid h w) () := by
  obtain ⟨_, hr, _, hwi, _, hfit, _, _, hwcc, _⟩ := View.facts wfi fiti
  rw [fold_grid, u32_of_lt hfit]
  have := loop_eq_fold (μ := BMem) (A := Unit)
    (cond := fun s : Nat × Int => s.1 != inp.start 1 + h * inp.img.rowSize)
    (next := fun s => (s.1 + inp.img.rowSize, s.2 - out.img.rowSize))
    (body := fun s _ => memcpyToI out.img.data s.2 inp.img.data s.1 w)
    (fun k => (inp.start 1 + k * inp.img.rowSize, outY - k * (out.img.rowSize : Int))) h fuelMax ()
    (count_lt_fuel hr hfit)
    (fun k hk => ptr_ne hk hr) (by simp)
    (fun k _ => by
      simp only [Nat.succ_mul, Prod.mk.injEq]
      refine ⟨by omega, ?_⟩
      rw [Int.natCast_add, Int.add_mul]
      omega)
  simp only [Nat.zero_mul, Nat.add_zero, Int.natCast_zero, Int.zero_mul, Int.sub_zero] at this
  rw [this]
  refine fold_congr () fun y hy => ?_
  funext a
  have hy' := List.mem_range.1 hy
  simp only
  have e : ∀ x, inp.start 1 + y * inp.img.rowSize + x = inp.cell x y 0 := fun x => by
    have := View.cell_addr0 wfi fiti ci x y
    omega
  have eo : ∀ x, out.cell 0 (h - 1 - y) 0 + x = out.cell x (h - 1 - y) 0 := fun x => by
    simp only [View.cell, co]
    omega
  rw [haddr y hy', memcpyToI, if_pos (by omega), Int.toNat_natCast, memcpyC_eq]
  · refine fold_congr () fun x hx => ?_
    funext _
    rw [e x, eo x]
    rfl
  · rintro ⟨hd, h1, h2⟩
    obtain ⟨k, k', hk, hk', hkk⟩ := overlap_common h1 h2
    rw [e k', eo k] at hkk
    exact hap k' y 0 k (h - 1 - y) 0 hk' hy' (by omega) hk (by omega) (by omega) hd.symm hkk.symm

end PV
