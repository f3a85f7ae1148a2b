import Verif.UiLemmas
/-
  Properties of the windows: C149 (Windows), C150 (X11), C151 (calls on all three), C152 (Qt).
-/
namespace PV.Props

open PV PV.Ui

/-! ## Specification: colours of an image and of a screen -/

/-- The colour of a pixel (red, green, blue): gray-scale images have one number; colour images hold
    blue, green and red in this order, as images loaded from bitmap and PNG files do (C90, C124). -/
def colourAt (m : BMem) (img : Image) (x y : Nat) : UInt8 × UInt8 × UInt8 :=
  let v := fun c => (View.mk img 0 0).get m x y c
  if img.cc = 1 then (v 0, v 0, v 0) else (v 2, v 1, v 0)

/-- Red and blue exchanged. -/
def exchanged (p : UInt8 × UInt8 × UInt8) : UInt8 × UInt8 × UInt8 := (p.2.2, p.2.1, p.1)

/-- The colour that the graphics system of Windows shows at column `x` and row `y`, counted from
    the top, for a device-independent bitmap: rows start at multiples of four bytes and are stored
    from the bottom to the top; 8-bit pixels are indices in the palette; 24 and 32-bit pixels are
    stored as blue, green, red. -/
def gdiColour (m : BMem) (h : Header) (data x y : Nat) : Option (UInt8 × UInt8 × UInt8) :=
  let rowLength := (h.biWidth * h.biBitCount + 31) / 32 * 4
  let p := (h.biHeight - 1 - y) * rowLength + x * (h.biBitCount / 8)
  if h.biBitCount = 8 then h.palette[(m.byte data p).toNat]?
  else if h.biBitCount = 24 ∨ h.biBitCount = 32 then
    some (m.byte data (p + 2), m.byte data (p + 1), m.byte data p)
  else none

/-- The part of the picture that pixel `k` of `shown` pixels stands for has points in common with
    pixel `i` of `n`. -/
def Covers (n shown k i : Nat) : Prop := i < n ∧ i * shown < (k + 1) * n ∧ k * n < (i + 1) * shown

/-- What a call of `setImage` leaves alone: all memory except the former and the new picture. -/
def RestSame (m m' : BMem) (o : Own) (b : Nat) : Prop :=
  ∀ c, c ≠ o.img.data → c ≠ b → m'.size c = m.size c ∧ ∀ i, m'.byte c i = m.byte c i

/-- The memory of the former picture is released when the new picture is elsewhere (and the allocator did not return it again). -/
def FormerReleased (m' : BMem) (o o' : Own) (b : Nat) : Prop :=
  o.img.data ≠ 0 → o'.img.data ≠ o.img.data → b ≠ o.img.data → m'.size o.img.data = 0

theorem palette_gray (v : UInt8) :
    ((List.range 256).map fun i => (UInt8.ofNat i, UInt8.ofNat i, UInt8.ofNat i))[v.toNat]? = some (v, v, v) := by
  rw [List.getElem?_map, List.getElem?_range (UInt8.toNat_lt v)]
  simp

/-- What is shown when the picture is stored as described by `WinPost`. -/
theorem gdi_post {m m' : BMem} {o o' : Own} {img : Image} {b w h x y : Nat} {F : Nat → Nat → Nat → UInt8}
    (post : WinPost m m' o o' img b w h F) (hc : img.cc = 1 ∨ img.cc = 3 ∨ img.cc = 4) (hx : x < w) (hy : y < h) :
    gdiColour m' (winHeader o'.img) o'.img.data x y = some (if img.cc = 1 then
      (F x (h - 1 - y) 0, F x (h - 1 - y) 0, F x (h - 1 - y) 0)
      else (F x (h - 1 - y) 2, F x (h - 1 - y) 1, F x (h - 1 - y) 0)) := by
  have hstride : (w * (img.cc * 8) + 31) / 32 * 4 = o'.img.rowSize := by
    rw [post.row, ← Nat.mul_assoc]
    omega
  have hp : ∀ c, c < img.cc → m'.byte o'.img.data ((h - 1 - y) * o'.img.rowSize + x * img.cc + c) = F x (h - 1 - y) c := by
    intro c hcc
    rw [← post.picture x (h - 1 - y) c hx (by omega) hcc]
    show _ = m'.byte o'.img.data ((whole o'.img).cell x (h - 1 - y) c)
    rw [whole_cell, post.cc]
  unfold gdiColour winHeader
  simp only [post.width, post.height, post.cc, hstride, show img.cc * 8 / 8 = img.cc by omega]
  rcases hc with h1 | h1 | h1
  · have e := hp 0 (by omega)
    rw [Nat.add_zero] at e
    rw [if_pos (by omega), if_neg (by omega), if_pos h1, e, palette_gray]
  all_goals
    have e0 := hp 0 (by omega)
    have e1 := hp 1 (by omega)
    have e2 := hp 2 (by omega)
    rw [Nat.add_zero] at e0
    rw [if_neg (by omega), if_pos (by omega), if_neg (by omega), e0, e1, e2]

/-! ## C149 -/

/-- C149: an image that fits on the screen is shown as it is, whatever the window showed before; the
    window gets the size of the image, and the memory of the caller is not touched.

    Full statement: `setImage` shows every image, reduced if it is too large for the screen.
    Missing: empty images (`C149_empty_wrong`), and the exceptions of `C149_reduced_partial`. -/
theorem C149_picture_partial {m : BMem} {o : Own} {img : Image} {b sw sh : Nat} {sW sH : Int}
    (pre : WinPre m o img b) (hl : winLarge sW sH img = false)
    (hsmall : (img.width * img.cc + 3) / 4 * 4 * img.height < 4294967296) :
    ∃ o' hd m', winSetImage sW sH sw sh b img o m = .ok (o', hd) m' ∧ hd.biWidth = img.width ∧
      hd.biHeight = img.height ∧ OwnOk m' o' ∧ RestSame m m' o b ∧ FormerReleased m' o o' b ∧
      ∀ x y, x < img.width → y < img.height →
        gdiColour m' hd o'.img.data x y = some (colourAt m img x y) := by
  obtain ⟨o', m', e, post⟩ := winSetImage_plain (sw := sw) (sh := sh) pre hl hsmall
  refine ⟨o', _, m', e, post.width, post.height, post.own, post.rest, post.released, fun x y hx hy => ?_⟩
  rw [gdi_post post pre.fit.colors hx hy, colourAt,
    show img.height - 1 - (img.height - 1 - y) = y by omega]

theorem covers_sample {n shown k : Nat} (hk : k < shown) (hn : 0 < n) (h : n * shown ≤ 4294967296) :
    Covers n shown k (sample n shown k) := by
  have h1 : k * n < 4294967296 := by
    have : k * n < shown * n := Nat.mul_lt_mul_of_pos_right hk hn
    rw [Nat.mul_comm shown n] at this
    omega
  have hs : 0 < shown := by omega
  have e : sample n shown k = k * n / shown := by rw [sample, u32_of_lt h1]
  refine ⟨sample_lt hk hn, ?_, ?_⟩
  · rw [e, Nat.succ_mul]
    have := Nat.div_mul_le_self (k * n) shown
    omega
  · rw [e]
    have := Nat.lt_succ_mul_div_succ' (k * n) hs
    exact this
where
  Nat.lt_succ_mul_div_succ' (a : Nat) {b : Nat} (hb : 0 < b) : a < (a / b + 1) * b := by
    have := Nat.div_add_mod a b
    have := Nat.mod_lt a hb
    rw [Nat.succ_mul, Nat.mul_comm]
    omega

theorem covers_flip {n shown k i : Nat} (hk : k < shown) (h : Covers n shown (shown - 1 - k) i) :
    Covers n shown k (n - 1 - i) := by
  obtain ⟨h1, h2, h3⟩ := h
  have a1 : (n - 1 - i) * shown + (i + 1) * shown = n * shown := by
    rw [← Nat.add_mul, show n - 1 - i + (i + 1) = n by omega]
  have a2 : (shown - 1 - k) * n + (k + 1) * n = shown * n := by
    rw [← Nat.add_mul, show shown - 1 - k + (k + 1) = shown by omega]
  have a3 : (n - 1 - i + 1) * shown + i * shown = n * shown := by
    rw [← Nat.add_mul, show n - 1 - i + 1 + i = n by omega]
  have a4 : (shown - 1 - k + 1) * n + k * n = shown * n := by
    rw [← Nat.add_mul, show shown - 1 - k + 1 + k = shown by omega]
  rw [Nat.mul_comm shown n] at a2 a4
  exact ⟨by omega, by omega, by omega⟩

/-- C149, images larger than the screen: whatever size greater than zero the arithmetic with
    doubles gives, every pixel shown is a pixel of the image from the part it stands for.  The
    condition on the products excludes overflow of 32-bit numbers (`C149_overflow_wrong`); for the
    size zero see `C149_zero_none` and `C149_zero_old`. -/
theorem C149_reduced_partial {m : BMem} {o : Own} {img : Image} {b sw sh : Nat} {sW sH : Int}
    (pre : WinPre m o img b) (hl : winLarge sW sH img = true) (hw : 0 < sw) (hh : 0 < sh)
    (hsmall : (sw * img.cc + 3) / 4 * 4 * sh < 4294967296)
    (hx32 : img.width * sw ≤ 4294967296) (hy32 : img.height * sh ≤ 4294967296) :
    ∃ o' hd m', winSetImage sW sH sw sh b img o m = .ok (o', hd) m' ∧ hd.biWidth = sw ∧ hd.biHeight = sh ∧
      OwnOk m' o' ∧ RestSame m m' o b ∧ FormerReleased m' o o' b ∧
      ∀ x y, x < sw → y < sh → ∃ i j, Covers img.width sw x i ∧ Covers img.height sh y j ∧
        gdiColour m' hd o'.img.data x y = some (colourAt m img i j) := by
  obtain ⟨o', m', e, post⟩ := winSetImage_scaled pre hl hw hh hsmall
  refine ⟨o', _, m', e, post.width, post.height, post.own, post.rest, post.released, fun x y hx hy =>
    ⟨_, _, covers_sample hx pre.fit.wpos hx32,
      covers_flip hy (covers_sample (by omega) pre.fit.hpos hy32), ?_⟩⟩
  rw [gdi_post post pre.fit.colors hx hy, colourAt]

/-- C149, a reduced size of zero (very long thin images): in a window without a picture nothing is
    shown ... -/
theorem C149_zero_none {m : BMem} {o : Own} {img : Image} {b sw sh : Nat} {sW sH : Int}
    (pre : WinPre m o img b) (hl : winLarge sW sH img = true) (hz : sw = 0 ∨ sh = 0) (hd : o.img.data = 0) :
    ∃ o' hd m', winSetImage sW sH sw sh b img o m = .ok (o', hd) m' ∧ o'.img.data = 0 ∧
      hd.biWidth = o'.img.width ∧ hd.biHeight = o'.img.height := by
  obtain ⟨o', m', e, h⟩ := winSetImage_none pre hl hz (.inr (.inr hd))
  exact ⟨o', _, m', e, h, rfl, rfl⟩

/-- ... and a window that already shows a picture with as many colours keeps the size of that
    picture. -/
theorem C149_zero_old {m : BMem} {o : Own} {img : Image} {b sw sh : Nat} {sW sH : Int}
    (pre : WinPre m o img b) (hl : winLarge sW sH img = true) (hz : sw = 0 ∨ sh = 0)
    (ha : o.align = 4) (hc : o.img.cc = img.cc) (hd : o.img.data ≠ 0) :
    ∃ hd m', winSetImage sW sH sw sh b img o m = .ok (o, hd) m' ∧ hd.biWidth = o.img.width ∧
      hd.biHeight = o.img.height := by
  obtain ⟨m', e, _⟩ := winSetImage_zero pre hl hz ha hc hd
  exact ⟨_, m', e, rfl, rfl⟩

/-- C149 fails: setting an empty image does not remove the picture with as many colours: the
    former picture stays. -/
theorem C149_empty_wrong {m : BMem} {o : Own} {img : Image} {b sw sh : Nat} {sW sH : Int}
    (hw : img.width = 0) (hh : img.height = 0) (hr : img.rowSize = 0) (ha : o.align = 4) (hc : o.img.cc = img.cc) :
    ∃ hd, winSetImage sW sH sw sh b img o m = .ok (o, hd) m ∧ hd.biWidth = o.img.width ∧
      hd.biHeight = o.img.height :=
  ⟨_, winSetImage_empty hw hh hr ha hc, rfl, rfl⟩

/-- The constructor starts from an empty image, src/ui/win/win_ui.cpp 179. -/
def newWindow : Own := ⟨⟨0, 0, 0, 1, 0⟩, 1⟩

theorem newWindow_ok (m : BMem) : OwnOk m newWindow :=
  ⟨fun _ => ⟨rfl, rfl, rfl⟩, fun h => absurd rfl h⟩

/-- A red pixel in block 1. -/
def redMem : BMem := ⟨fun b => if b = 1 then 3 else 0, fun b i => if b = 1 ∧ i = 2 then 255 else 0⟩
def redImg : Image := ⟨1, 1, 1, 3, 3⟩

theorem red_pre : WinPre redMem newWindow redImg 2 where
  own := newWindow_ok _
  wf := ⟨by decide, by decide, by decide⟩
  fit := ⟨by decide, by decide, by decide, by decide, by decide, by decide⟩
  apart := by decide
  fresh := by decide

example : ∃ o' hd m', winSetImage 1920 1080 0 0 2 redImg newWindow redMem = .ok (o', hd) m' ∧
    gdiColour m' hd o'.img.data 0 0 = some (255, 0, 0) := by
  obtain ⟨o', hd, m', e, _, _, _, _, _, h⟩ := C149_picture_partial (sw := 0) (sh := 0) (sW := 1920) (sH := 1080) red_pre
    (by decide) (by decide)
  exact ⟨o', hd, m', e, h 0 0 (by decide) (by decide)⟩

/-- An image of 1048576 x 1 pixels, black on the left and white from column 100 on. -/
def longMem : BMem := ⟨fun b => if b = 1 then 1048576 else 0, fun _ i => if i < 100 then 0 else 255⟩
def longImg : Image := ⟨1, 1048576, 1, 1, 1048576⟩

theorem long_pre : WinPre longMem newWindow longImg 2 where
  own := newWindow_ok _
  wf := ⟨by decide, by decide, by decide⟩
  fit := ⟨by decide, by decide, by decide, by decide, by decide, by decide⟩
  apart := by decide
  fresh := by decide

/-- C149 fails by overflow: on a screen where 8192 columns are available, the middle of the image is
    shown black, although everything it stands for is white. -/
theorem C149_overflow_wrong :
    (∀ i, Covers 1048576 8192 4096 i → colourAt longMem longImg i 0 = (255, 255, 255)) ∧
    ∃ o' hd m', winSetImage 8624 1080 8192 1 2 longImg newWindow longMem = .ok (o', hd) m' ∧
      gdiColour m' hd o'.img.data 4096 0 = some (0, 0, 0) := by
  constructor
  · rintro i ⟨h1, h2, h3⟩
    have : ¬ i < 100 := by omega
    have hb : ∀ c, (View.mk longImg 0 0).get longMem i 0 c = 255 := by
      intro c
      show (if (0 + 0) * 1048576 + (0 + i) * 1 + c < 100 then (0 : UInt8) else 255) = 255
      rw [if_neg (by omega)]
    rw [colourAt, if_pos (show longImg.cc = 1 from rfl)]
    simp only [hb]
  · obtain ⟨o', m', e, post⟩ := winSetImage_scaled (sW := 8624) (sH := 1080) (sw := 8192) (sh := 1) long_pre
      (by decide) (by decide) (by decide) (by decide)
    refine ⟨o', _, m', e, ?_⟩
    rw [gdi_post post (.inl rfl) (by decide) (by decide)]
    decide

/-- A gray-scale image of 5 x 2 pixels in block 1. -/
def grayMem : BMem := ⟨fun b => if b = 1 then 10 else 0, fun _ i => UInt8.ofNat (7 * i)⟩
def grayImg : Image := ⟨1, 5, 2, 1, 5⟩

theorem gray_pre : WinPre grayMem newWindow grayImg 2 where
  own := newWindow_ok _
  wf := ⟨by decide, by decide, by decide⟩
  fit := ⟨by decide, by decide, by decide, by decide, by decide, by decide⟩
  apart := by decide
  fresh := by decide

example : ∃ o' hd m', winSetImage 1920 1080 0 0 2 grayImg newWindow grayMem = .ok (o', hd) m' ∧
    gdiColour m' hd o'.img.data 3 1 = some (56, 56, 56) := by
  obtain ⟨o', hd, m', e, _, _, _, _, _, h⟩ := C149_picture_partial (sw := 0) (sh := 0) (sW := 1920) (sH := 1080) gray_pre
    (by decide) (by decide)
  exact ⟨o', hd, m', e, by rw [h 3 1 (by decide) (by decide)]; decide⟩

example : ∃ o' hd m', winSetImage 4 1080 3 1 2 grayImg newWindow grayMem = .ok (o', hd) m' ∧ hd.biWidth = 3 := by
  obtain ⟨o', hd, m', e, h, _⟩ := C149_reduced_partial (sw := 3) (sh := 1) (sW := 4) (sH := 1080) gray_pre
    (by decide) (by decide) (by decide) (by decide) (by decide) (by decide)
  exact ⟨o', hd, m', e, h⟩

example : winLarge 1 1 grayImg = false ∧ winLarge 2 1080 grayImg = true := by decide

/-! ## C150 -/

/-- The number that an X server takes for the pixel of 32 bits at (x, y) of a picture whose rows
    follow one another directly. -/
def xPixel (lsbFirst : Bool) (m : BMem) (buf w x y : Nat) : Nat :=
  let v := fun c => (m.byte buf (4 * (y * w + x) + c)).toNat
  if lsbFirst then v 0 + 256 * v 1 + 65536 * v 2 + 16777216 * v 3
  else v 3 + 256 * v 2 + 65536 * v 1 + 16777216 * v 0

/-- The colour of a pixel of 24 bits per pixel with the usual masks 0xFF0000, 0xFF00, 0xFF. -/
def xColour (p : Nat) : Nat × Nat × Nat := (p / 65536 % 256, p / 256 % 256, p % 256)

def asNats (p : UInt8 × UInt8 × UInt8) : Nat × Nat × Nat := (p.1.toNat, p.2.1.toNat, p.2.2.toNat)

/-- The situation of the constructor: an image of the caller and a block for the picture. -/
structure XPre (m : BMem) (img : Image) (buf : Nat) : Prop where
  wf : img.WF m
  fit : (View.mk img 0 0).Fits img.width img.height
  fresh : buf ≠ 0 ∧ buf ≠ img.data

/-- The picture has the four bytes `F` per pixel; nothing but the buffer has changed. -/
structure XPost (m m' : BMem) (img : Image) (buf : Nat) (F : Nat → Nat → Nat → UInt8) : Prop where
  size : m'.size buf = 4 * (img.width * img.height)
  picture : ∀ x y c, x < img.width → y < img.height → c < 4 →
    m'.byte buf (4 * (y * img.width + x) + c) = F x y c
  rest : ∀ c, c ≠ buf → m'.size c = m.size c ∧ ∀ i, m'.byte c i = m.byte c i

theorem x11_area {m : BMem} {img : Image} {buf : Nat} (pre : XPre m img buf) :
    img.width * img.height < 4294967296 := by
  have wf' : (View.mk img 0 0).img.WF m := pre.wf
  obtain ⟨hcc, hr, _, _, _, hfit, _, _, _, hle⟩ := View.facts wf' pre.fit
  have h1 : img.width * 1 ≤ img.width * img.cc := Nat.mul_le_mul_left _ hcc
  have h2 : img.width * img.height ≤ img.rowSize * img.height := Nat.mul_le_mul_right _ (by
    have : img.width * img.cc ≤ img.rowSize := hle
    omega)
  rw [Nat.mul_comm img.rowSize] at h2
  have : img.height * img.rowSize < 4294967296 := hfit
  omega

/-- The memory after `_data.resize`. -/
def xMem (m : BMem) (buf n : Nat) : BMem :=
  { size := fun c => if c = buf then n else m.size c
    byte := fun c i => if c = buf then 0 else m.byte c i }

theorem vec_run (m : BMem) (buf n : Nat) : vecResize buf n m = .ok () (xMem m buf n) := rfl

theorem unpack {a b c d : Nat} (ha : a < 256) (hb : b < 256) (hc : c < 256) :
    xColour (a + 256 * b + 65536 * c + 16777216 * d) = (c, b, a) := by
  simp only [xColour, Prod.mk.injEq]
  omega

theorem x11_resized {m : BMem} {img : Image} {buf n : Nat} (pre : XPre m img buf) : img.WF (xMem m buf n) :=
  wf_keeps pre.wf (if_neg fun h => pre.fresh.2 h.symm)

theorem x11_post {m m' : BMem} {img : Image} {buf : Nat} {F : Nat → Nat → Nat → UInt8}
    (h : WritesRoi (xMem m buf (4 * (img.width * img.height))) m' (whole (xImage buf img.width img.height))
      img.width img.height F) : XPost m m' img buf F := by
  refine ⟨?_, ?_, ?_⟩
  · rw [h.size_eq]
    exact if_pos rfl
  · intro x y c hx hy hc
    rw [← h.inside x y c hx hy hc]
    show _ = m'.byte buf ((whole (xImage buf img.width img.height)).cell x y c)
    rw [whole_cell]
    refine congrArg _ ?_
    show _ = y * (4 * img.width) + x * 4 + c
    rw [Nat.mul_add, Nat.mul_left_comm, Nat.mul_comm 4 x]
  · intro c hc
    refine ⟨?_, fun i => ?_⟩
    · rw [h.size_eq]
      exact if_neg hc
    · rw [h.outside c i (by rintro ⟨h1, _⟩; exact hc h1)]
      exact if_neg hc

/-- The bytes of the picture. -/
theorem x11_bytes {m : BMem} {img : Image} {buf : Nat} (pre : XPre m img buf) (hc : img.cc = 1 ∨ img.cc = 3)
    (hsmall : img.width * img.height < 1073741824) :
    ∃ m', x11Setup buf img m = .ok true m' ∧ XPost m m' img buf (fun x y c =>
      if c = 3 then 0 else (View.mk img 0 0).get m x y (if img.cc = 1 then 0 else c)) := by
  have hn : u32 (u32 (img.width * img.height) * 4) = 4 * (img.width * img.height) := by
    rw [u32_of_lt (by omega : img.width * img.height < _), u32_of_lt (by omega), Nat.mul_comm]
  have wf1 : img.WF (xMem m buf (4 * (img.width * img.height))) := x11_resized pre
  have hsz : (xMem m buf (4 * (img.width * img.height))).size buf = 4 * img.width * img.height := by
    rw [Nat.mul_assoc]
    exact if_pos rfl
  have hsm : 4 * img.width * img.height < 4294967296 := by
    rw [Nat.mul_assoc]
    omega
  have hd : img.data ≠ buf := fun h => pre.fresh.2 h.symm
  have hget : ∀ x y c, (View.mk img 0 0).get (xMem m buf (4 * (img.width * img.height))) x y c
      = (View.mk img 0 0).get m x y c := fun x y c => if_neg hd
  have h0 : img.data ≠ 0 := pre.fit.nonempty
  rcases hc with h1 | h1
  · obtain ⟨m', e, w⟩ := gray_writes wf1 pre.fit h1 pre.fresh.1 hd hsz hsm
    refine ⟨m', ?_, x11_post (WritesRoi.congr w fun x y c => ?_)⟩
    · rw [x11Setup, if_neg h0, hn]
      rw [bind_ok (vec_run ..), if_pos h1, gray_loop buf wf1 pre.fit h1]
      simp only [bind_assoc']
      rw [bind_ok e]
      rfl
    · rw [if_pos h1, hget]
  · obtain ⟨m', e, w⟩ := rgb_writes wf1 pre.fit h1 pre.fresh.1 hd hsz hsm
    refine ⟨m', ?_, x11_post (WritesRoi.congr w fun x y c => ?_)⟩
    · rw [x11Setup, if_neg h0, hn]
      rw [bind_ok (vec_run ..), if_neg (by omega), h1, rgb_loop buf wf1 pre.fit h1]
      simp only [bind_assoc', bne_self_eq_false, throwIf_false, pure_bind']
      rw [bind_ok e]
      rfl
    · rw [if_neg (show ¬ img.cc = 1 by omega), hget]

/-- C150: an image of less than 2^30 pixels with one or three colours is shown as it is on a display
    whose server takes the least significant byte first; the memory of the caller is not touched.

    Full statement: the window shows every image with its colours on every display.  Missing:
    other servers (`C150_msb_exact`, `C150_msb_wrong`), images of 2^30 pixels and more
    (`C150_large_ub`), four colours (`C150_rgba_rejects`), no image (`C150_empty_wrong`). -/
theorem C150_picture_partial {m : BMem} {img : Image} {buf : Nat} (pre : XPre m img buf) (hc : img.cc = 1 ∨ img.cc = 3)
    (hsmall : img.width * img.height < 1073741824) :
    ∃ m', x11Setup buf img m = .ok true m' ∧ (∀ c, c ≠ buf → m'.size c = m.size c ∧ ∀ i, m'.byte c i = m.byte c i) ∧
      ∀ x y, x < img.width → y < img.height →
        xColour (xPixel true m' buf img.width x y) = asNats (colourAt m img x y) := by
  obtain ⟨m', e, post⟩ := x11_bytes pre hc hsmall
  refine ⟨m', e, post.rest, fun x y hx hy => ?_⟩
  have b0 := post.picture x y 0 hx hy (by decide)
  have b1 := post.picture x y 1 hx hy (by decide)
  have b2 := post.picture x y 2 hx hy (by decide)
  have b3 := post.picture x y 3 hx hy (by decide)
  have t0 := UInt8.toNat_lt ((View.mk img 0 0).get m x y 0)
  have t1 := UInt8.toNat_lt ((View.mk img 0 0).get m x y 1)
  have t2 := UInt8.toNat_lt ((View.mk img 0 0).get m x y 2)
  unfold xPixel colourAt
  simp only [b0, b1, b2, b3]
  rcases hc with h1 | h1
  · simp only [if_pos h1]
    exact unpack t0 t0 t0
  · simp only [if_neg (show ¬ img.cc = 1 by omega)]
    exact unpack t0 t1 t2

/-- C150, what a server that takes the most significant byte first shows: red has the value of
    green, green that of red, and there is no blue. -/
theorem C150_msb_exact {m : BMem} {img : Image} {buf : Nat} (pre : XPre m img buf) (hc : img.cc = 1 ∨ img.cc = 3)
    (hsmall : img.width * img.height < 1073741824) :
    ∃ m', x11Setup buf img m = .ok true m' ∧ ∀ x y, x < img.width → y < img.height →
      xColour (xPixel false m' buf img.width x y) =
        ((colourAt m img x y).2.1.toNat, (colourAt m img x y).1.toNat, 0) := by
  obtain ⟨m', e, post⟩ := x11_bytes pre hc hsmall
  refine ⟨m', e, fun x y hx hy => ?_⟩
  have b0 := post.picture x y 0 hx hy (by decide)
  have b1 := post.picture x y 1 hx hy (by decide)
  have b2 := post.picture x y 2 hx hy (by decide)
  have b3 := post.picture x y 3 hx hy (by decide)
  have t0 := UInt8.toNat_lt ((View.mk img 0 0).get m x y 0)
  have t1 := UInt8.toNat_lt ((View.mk img 0 0).get m x y 1)
  have t2 := UInt8.toNat_lt ((View.mk img 0 0).get m x y 2)
  unfold xPixel colourAt
  simp only [b0, b1, b2, b3]
  rcases hc with h1 | h1
  · simp only [if_pos h1]
    exact unpack (a := 0) (by decide) t0 t0
  · simp only [if_neg (show ¬ img.cc = 1 by omega)]
    exact unpack (a := 0) (by decide) t2 t1

/-- C150 fails: from 2^30 pixels on the size of the buffer overflows and the constructor writes
    behind the buffer. -/
theorem C150_large_ub {m : BMem} {img : Image} {buf : Nat} (pre : XPre m img buf) (hc : img.cc = 1 ∨ img.cc = 3)
    (hlarge : 1073741824 ≤ img.width * img.height) : x11Setup buf img m = .ub := by
  have ha := x11_area pre
  have h0 : img.data ≠ 0 := pre.fit.nonempty
  have hw := pre.fit.wpos
  have hh := pre.fit.hpos
  have hn : u32 (u32 (img.width * img.height) * 4) ≤ (img.height - 1) * (4 * img.width) + (img.width - 1) * 4 + 3 := by
    have e1 : (img.height - 1) * (4 * img.width) + 4 * img.width = 4 * (img.width * img.height) := by
      rw [← Nat.succ_mul, show (img.height - 1).succ = img.height by omega, Nat.mul_left_comm, Nat.mul_comm img.height]
    rw [u32_of_lt ha]
    unfold u32
    omega
  have hmem : (img.height - 1, img.width - 1) ∈ grid img.height img.width := mem_grid.2 ⟨by omega, by omega⟩
  have hsz : (xMem m buf (u32 (u32 (img.width * img.height) * 4))).size buf ≤
      (img.height - 1) * (4 * img.width) + (img.width - 1) * 4 + 3 := by
    show (if buf = buf then _ else _) ≤ _
    rw [if_pos rfl]
    exact hn
  have wf1 : img.WF (xMem m buf (u32 (u32 (img.width * img.height) * 4))) := x11_resized pre
  rw [x11Setup, if_neg h0]
  rw [bind_ok (vec_run ..)]
  rcases hc with h1 | h1
  · rw [if_pos h1, gray_loop buf wf1 pre.fit h1]
    simp only [bind_assoc']
    refine bind_ub (fold_ub (fun p => sz_gray _ _ _ _) hmem fun m' hs => gray_ub ?_)
    rw [hs]
    exact hsz
  · rw [if_neg (by omega), h1, rgb_loop buf wf1 pre.fit h1]
    simp only [bind_assoc', bne_self_eq_false, throwIf_false, pure_bind']
    refine bind_ub (fold_ub (fun p => sz_rgb _ _ _ _) hmem fun m' hs => rgb_ub ?_)
    rw [hs]
    exact hsz

/-- C150: images with any other number of colours are refused (after the window has been made). -/
theorem C150_rgba_rejects {m : BMem} {img : Image} {buf : Nat} (pre : XPre m img buf) (hc : img.cc ≠ 1 ∧ img.cc ≠ 3) :
    ∃ m', x11Setup buf img m = .throw m' ∧ ∀ c, c ≠ buf → m'.size c = m.size c ∧ ∀ i, m'.byte c i = m.byte c i := by
  have h0 : img.data ≠ 0 := pre.fit.nonempty
  refine ⟨xMem m buf (u32 (u32 (img.width * img.height) * 4)), ?_, fun c hb => ⟨if_neg hb, fun i => if_neg hb⟩⟩
  rw [x11Setup, if_neg h0]
  rw [bind_ok (vec_run ..)]
  rw [if_neg hc.1]
  refine bind_throw ?_
  have : (img.cc != 3) = true := by simpa using hc.2
  rw [this]
  rfl

/-- C150 fails: without an image no picture is made, and `show` hands a null pointer to the
    X library. -/
theorem C150_empty_wrong (m : BMem) (img : Image) (buf : Nat) (h : img.data = 0) : x11Setup buf img m = .ok false m := by
  rw [x11Setup, if_pos h]
  rfl

theorem red_xpre : XPre redMem redImg 2 where
  wf := ⟨by decide, by decide, by decide⟩
  fit := ⟨by decide, by decide, by decide, by decide, by decide, by decide⟩
  fresh := by decide

theorem gray_xpre : XPre grayMem grayImg 2 where
  wf := ⟨by decide, by decide, by decide⟩
  fit := ⟨by decide, by decide, by decide, by decide, by decide, by decide⟩
  fresh := by decide

example : ∃ m', x11Setup 2 redImg redMem = .ok true m' ∧ xColour (xPixel true m' 2 1 0 0) = (255, 0, 0) := by
  obtain ⟨m', e, _, h⟩ := C150_picture_partial red_xpre (.inr (by decide)) (by decide)
  exact ⟨m', e, h 0 0 (by decide) (by decide)⟩

/-- C150 fails on servers that take the most significant byte first: gray is shown yellow. -/
theorem C150_msb_wrong :
    asNats (colourAt grayMem grayImg 3 1) = (56, 56, 56) ∧
    ∃ m', x11Setup 2 grayImg grayMem = .ok true m' ∧ xColour (xPixel false m' 2 5 3 1) = (56, 56, 0) := by
  refine ⟨by decide, ?_⟩
  obtain ⟨m', e, h⟩ := C150_msb_exact gray_xpre (.inl (by decide)) (by decide)
  exact ⟨m', e, h 3 1 (by decide) (by decide)⟩

example : ∃ m', x11Setup 2 grayImg grayMem = .ok true m' ∧ xColour (xPixel true m' 2 5 3 1) = (56, 56, 56) := by
  obtain ⟨m', e, _, h⟩ := C150_picture_partial gray_xpre (.inl (by decide)) (by decide)
  exact ⟨m', e, h 3 1 (by decide) (by decide)⟩

/-- An image of 32768 x 32768 pixels. -/
def xHugeMem : BMem := ⟨fun b => if b = 1 then 1073741824 else 0, fun _ _ => 0⟩
def xHugeImg : Image := ⟨1, 32768, 32768, 1, 32768⟩

example : x11Setup 2 xHugeImg xHugeMem = .ub :=
  C150_large_ub ⟨⟨by decide, by decide, by decide⟩,
    ⟨by decide, by decide, by decide, by decide, by decide, by decide⟩, by decide⟩ (.inl rfl) (by decide)

example : ∃ m', x11Setup 2 { redImg with cc := 4, rowSize := 4 } { redMem with size := fun _ => 4 } = .throw m' := by
  obtain ⟨m', e, _⟩ := C150_rgba_rejects (m := { redMem with size := fun _ => 4 })
    (img := { redImg with cc := 4, rowSize := 4 }) (buf := 2)
    ⟨⟨by decide, by decide, by decide⟩, ⟨by decide, by decide, by decide, by decide, by decide, by decide⟩, by decide⟩
    (by decide)
  exact ⟨m', e⟩

/-! ## C151 -/

section Calls

variable {I K C : Type} [Add K] [Sub K]

/-- The image that was set last. -/
def lastImage (i : I) : List (Call I K C) → I
  | [] => i
  | .setImage j :: cs => lastImage j cs
  | _ :: cs => lastImage i cs

/-- What one call asks to paint; a rectangle is four lines. -/
def strokesOf : Call I K C → List (Stroke K C)
  | .setImage _ => []
  | .point x y c => [.point x y c]
  | .line x y x' y' c => [.line x y x' y' c]
  | .ellipse x y rx ry c => [.ellipse (x - rx) (y - ry) (x + rx) (y + ry) c]
  | .rectangle x y w h c =>
    [.line x y (x + w) y c, .line x y x (y + h) c, .line (x + w) y (x + w) (y + h) c, .line x (y + h) (x + w) (y + h) c]

/-- Everything the calls ask to paint, in the order of the calls. -/
def asked (cs : List (Call I K C)) : List (Stroke K C) := cs.flatMap strokesOf

def isPoint : Stroke K C → Bool
  | .point .. => true
  | _ => false

def isLine : Stroke K C → Bool
  | .line .. => true
  | _ => false

def isEllipse : Stroke K C → Bool
  | .ellipse .. => true
  | _ => false

theorem win_history (s : Win I K C) (cs : List (Call I K C)) :
    cs.foldl winCall s = ⟨lastImage s.image cs, s.points ++ (asked cs).filter isPoint,
      s.lines ++ (asked cs).filter isLine, s.ellipses ++ (asked cs).filter isEllipse⟩ := by
  induction cs generalizing s with
  | nil => simp [lastImage, asked]
  | cons c cs ih =>
    rw [List.foldl_cons, ih]
    cases c <;>
      simp [winCall, lastImage, asked, strokesOf, isPoint, isLine, isEllipse, List.filter_cons]

/-- C151 on Windows: after any calls the window shows the image set last, and over it exactly what
    was asked for: the points, the lines and the ellipses, each in the order of the calls.

    Full statement: the last image, and over it all drawings in the order of the calls.  Missing:
    all points are painted before all lines and these before all ellipses (`C151_order_wrong`). -/
theorem C151_win_partial (i : I) (cs : List (Call I K C)) :
    winPaint (cs.foldl winCall (winNew i)) =
      (lastImage i cs, (asked cs).filter isPoint ++ (asked cs).filter isLine ++ (asked cs).filter isEllipse) := by
  rw [win_history]
  rfl

/-- C151 on Windows: nothing is lost and nothing is added. -/
theorem C151_win_complete (i : I) (cs : List (Call I K C)) :
    (winPaint (cs.foldl winCall (winNew i))).2.Perm (asked cs) := by
  rw [C151_win_partial]
  show List.Perm _ _
  generalize asked cs = l
  induction l with
  | nil => exact .refl _
  | cons s l ih =>
    cases s with
    | point => simpa [List.filter_cons, isPoint, isLine, isEllipse] using ih
    | line x y x' y' c =>
      refine List.Perm.trans ?_ (ih.cons _)
      simp only [List.filter_cons, isPoint, isLine, isEllipse, Bool.false_eq_true, if_false, if_true, List.append_assoc,
        List.cons_append]
      exact List.perm_middle
    | ellipse l' t r b c =>
      refine List.Perm.trans ?_ (ih.cons _)
      simp only [List.filter_cons, isPoint, isLine, isEllipse, Bool.false_eq_true, if_false, if_true]
      exact List.perm_middle

theorem qt_history (s : Qt I K C) (cs : List (Call I K C)) :
    cs.foldl qtCall s = ⟨lastImage s.base cs, s.image, s.strokes ++ asked cs⟩ := by
  induction cs generalizing s with
  | nil => simp [lastImage, asked]
  | cons c cs ih =>
    rw [List.foldl_cons, ih]
    cases c <;> simp [qtCall, lastImage, asked, strokesOf]

/-- C151 with Qt: after any calls the window shows all drawings in the order of the calls, but over
    the image given to the constructor, whatever images were set since.

    Full statement as above.  Missing: `setImage` (`C151_set_wrong`). -/
theorem C151_qt_partial (i : I) (cs : List (Call I K C)) :
    qtPaint (cs.foldl qtCall (qtNew i)) = (i, asked cs) := by
  rw [qt_history]
  rfl

theorem x11_history (s : X11 I K C) (cs : List (Call I K C)) :
    cs.foldl x11Call s = ⟨lastImage s.base cs, s.image, s.points ++ (asked cs).filter isPoint⟩ := by
  induction cs generalizing s with
  | nil => simp [lastImage, asked]
  | cons c cs ih =>
    rw [List.foldl_cons, ih]
    cases c <;> simp [x11Call, lastImage, asked, strokesOf, isPoint, List.filter_cons]

/-- C151 with X11: after any calls the window shows the image given to the constructor and the
    points in the order of the calls.

    Full statement as above.  Missing: `setImage`, lines, ellipses and rectangles
    (`C151_set_wrong`, `C151_lines_wrong`). -/
theorem C151_x11_partial (i : I) (cs : List (Call I K C)) :
    x11Paint (cs.foldl x11Call (x11New i)) = (i, (asked cs).filter isPoint) := by
  rw [x11_history]
  rfl

end Calls

/-- C151 fails with X11 and Qt: after `setImage` the former image is still shown. -/
theorem C151_set_wrong :
    (x11Paint ([Call.setImage 2].foldl x11Call (x11New 1 : X11 Nat Int Nat))).1 = 1 ∧
    (qtPaint ([Call.setImage 2].foldl qtCall (qtNew 1 : Qt Nat Int Nat))).1 = 1 ∧
    lastImage 1 ([Call.setImage 2] : List (Call Nat Int Nat)) = 2 := by decide

/-- C151 fails with X11: a line is not shown. -/
theorem C151_lines_wrong :
    (x11Paint ([Call.line 0 0 9 9 7].foldl x11Call (x11New 1 : X11 Nat Int Nat))).2 = [] ∧
    asked ([Call.line 0 0 9 9 7] : List (Call Nat Int Nat)) = [.line 0 0 9 9 7] := by decide

/-- C151 fails on Windows: a point drawn after an ellipse is painted before it. -/
theorem C151_order_wrong :
    (winPaint ([Call.ellipse 5 5 2 2 1, Call.point 5 3 2].foldl winCall (winNew 1 : Win Nat Int Nat))).2
      = [.point 5 3 2, .ellipse 3 3 7 7 1] ∧
    asked ([Call.ellipse 5 5 2 2 1, Call.point 5 3 2] : List (Call Nat Int Nat))
      = [.ellipse 3 3 7 7 1, .point 5 3 2] := by decide

example : winPaint ([Call.rectangle 1 2 3 4 5, Call.setImage 2].foldl winCall (winNew 1 : Win Nat Int Nat)) =
    (2, [.line 1 2 4 2 5, .line 1 2 1 6 5, .line 4 2 4 6 5, .line 1 6 4 6 5]) := by decide

/-! ## C152 -/

/-- What Qt shows for a `QImage` over memory of the caller: gray for `Format_Grayscale8`; for
    `Format_RGB888` three bytes per pixel - red, green, blue; rows are `bytesPerLine` apart. -/
def qtColour (m : BMem) (q : QImage) (x y : Nat) : UInt8 × UInt8 × UInt8 :=
  let v := fun i => m.byte q.data (y * q.bytesPerLine + i)
  match q.format with
  | .gray8 => (v x, v x, v x)
  | .rgb888 => (v (3 * x), v (3 * x + 1), v (3 * x + 2))

/-- C152: gray-scale images are shown by Qt as they are, in their size.

    Full statement: the window shows every image with its colours.  Missing: images of three colours
    as loaded from bitmap and PNG files (`C152_colour_exact`), and four colours (`C152_rgba_wrong`). -/
theorem C152_gray_partial (m : BMem) (img : Image) (hgray : img.cc = 1) :
    (qtImage img).width = img.width ∧ (qtImage img).height = img.height ∧
    ∀ x y, qtColour m (qtImage img) x y = colourAt m img x y := by
  refine ⟨rfl, rfl, fun x y => ?_⟩
  have e : (qtImage img).format = .gray8 := if_pos hgray
  unfold qtColour colourAt
  rw [e, if_pos hgray]
  simp only [View.get, View.cell, hgray, Nat.zero_add, Nat.mul_one, Nat.add_zero]
  rfl

/-- C152, what happens to images of three colours: red and blue are exchanged. -/
theorem C152_colour_exact (m : BMem) (img : Image) (hc : img.cc = 3) (x y : Nat) :
    qtColour m (qtImage img) x y = exchanged (colourAt m img x y) := by
  have e : (qtImage img).format = .rgb888 := if_neg (by omega)
  unfold qtColour colourAt
  rw [e, if_neg (by omega)]
  simp only [View.get, View.cell, hc, Nat.zero_add, exchanged, Nat.add_zero, Nat.mul_comm 3 x, Nat.add_assoc]
  rfl

/-- C152 fails: a red image loaded from a file is shown blue. -/
theorem C152_colour_wrong :
    colourAt redMem redImg 0 0 = (255, 0, 0) ∧ qtColour redMem (qtImage redImg) 0 0 = (0, 0, 255) := by decide

/-- Two black pixels with opacity 255 in block 1. -/
def blackMem : BMem := ⟨fun b => if b = 1 then 8 else 0, fun _ i => if i = 3 ∨ i = 7 then 255 else 0⟩
def blackImg : Image := ⟨1, 2, 1, 4, 8⟩

/-- C152 fails: with four colours the opacity of a pixel is taken for a colour of the next one. -/
theorem C152_rgba_wrong :
    colourAt blackMem blackImg 1 0 = (0, 0, 0) ∧ qtColour blackMem (qtImage blackImg) 1 0 = (255, 0, 0) := by decide

example : qtColour grayMem (qtImage grayImg) 3 1 = (56, 56, 56) := by decide

end PV.Props
