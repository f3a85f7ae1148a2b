import Verif.Resize
import Verif.Channel
/-
  The windows that show images: src/ui/ui.cpp, src/ui/win/win_ui.cpp, src/ui/x11/x11_ui.cpp and
  src/ui/qt/qt_ui.cpp.

  What the window systems do with the pictures handed to them is specified in PropsUi.lean:
  only the preparation of the picture and the bookkeeping of the drawings belong to penguinV.
  Message loops, the creation of windows and the painting of lines are not modelled.
-/
namespace PV.Ui

open PV

/-! ### The image object of a window

`UiWindow::_image` (src/ui/ui.h 60): the container of src/image_buffer.h reduced to one object.
The number of the block that an allocation returns is a parameter. -/

/-- Not in the code: machinery of the model. -/
structure Own where
  img : Image
  align : Nat
deriving DecidableEq, Repr

/-- `_deallocate`, src/image_buffer.h 294-297: the block cannot be used any more. -/
def freeBlock (b : Nat) : M BMem Unit := fun m =>
  .ok () (if b = 0 then m else { m with size := fun c => if c = b then 0 else m.size c })

/-- `_allocate`, src/image_buffer.h 289-292: the contents are arbitrary. -/
def allocBlock (b n : Nat) : M BMem Unit := fun m =>
  .ok () { m with size := fun c => if c = b then n else m.size c }

/-- `clear`, src/image_buffer.h 100-110 -/
def ownClear (o : Own) : M BMem Own := do
  freeBlock o.img.data
  pure { o with img := { o.img with data := 0, width := 0, height := 0, rowSize := 0 } }

/-- The row size, src/image_buffer.h 91-94. -/
def roundUp (align n : Nat) : Nat :=
  if n % align ≠ 0 then u32 (u32 (n / align + 1) * align) else n

/-- `resize`, src/image_buffer.h 83-98; `b` is the block that `_allocate` returns. -/
def ownResize (b w h : Nat) (o : Own) : M BMem Own :=
  if 0 < w ∧ 0 < h ∧ (w ≠ o.img.width ∨ h ≠ o.img.height) then do
    let o ← ownClear o
    allocBlock b (h * roundUp o.align (u32 (w * o.img.cc)))
    pure { o with img := { o.img with
      data := b, width := w, height := h, rowSize := roundUp o.align (u32 (w * o.img.cc)) } }
  else pure o

/-- `setColorCount`, src/image_buffer.h 169-175 -/
def ownSetColorCount (cc : Nat) (o : Own) : M BMem Own :=
  if 0 < cc ∧ o.img.cc ≠ cc then do
    let o ← ownClear o
    pure { o with img := { o.img with cc := cc } }
  else pure o

/-- `setAlignment`, src/image_buffer.h 182-188 -/
def ownSetAlignment (align : Nat) (o : Own) : M BMem Own :=
  if 0 < align ∧ align ≠ o.align then do
    let o ← ownClear o
    pure { o with align := align }
  else pure o

/-! ### Windows -/

/-- `n - 1` for an unsigned 32-bit number. -/
def pred32 (n : Nat) : Nat := u32 (n + 4294967295)

/-- `memcpy` from a pointer that may lie before its block. src/ui/win/win_ui.cpp 290. -/
def memcpyFromI (bo o bi : Nat) (i : Int) (n : Nat) : M BMem Unit :=
  if 0 ≤ i then memcpyC bo o bi i.toNat n else ubE

/-- The picture in its own size, upside down: src/ui/win/win_ui.cpp 281-290.  The input pointer
    starts in the last row and moves backwards. -/
def winCopyRows (bo bi rowIn rowOut n h : Nat) : M BMem Unit :=
  loop (fun s : Nat × Int => s.1 != 0 + u32 (h * rowOut)) (fun s => (s.1 + rowOut, s.2 - rowIn))
    (fun s _ => memcpyFromI bo s.1 bi s.2 n) fuelMax (0, (u32 (rowIn * pred32 h) : Nat)) ()

/-- One pixel: src/ui/win/win_ui.cpp 272-273. -/
def winPixel (bo bi cc : Nat) (pos : List Nat) (inX outX idX : Nat) : M BMem Unit :=
  match pos[idX]? with
  | none => ubE
  | some p => memcpyC bo outX bi (inX + p) cc

/-- The start of the row to read, src/ui/win/win_ui.cpp 269:
    `( heightIn - 1 - ( idY * heightIn / heightOut ) ) * rowSizeIn`. -/
def winRow (heightIn heightOut rowIn idY : Nat) : Nat :=
  u32 (u32 (heightIn + 4294967295 + 4294967296 - sample heightIn heightOut idY) * rowIn)

/-- The picture reduced, upside down: src/ui/win/win_ui.cpp 247-274; `positionX` of 257-259 is
    the same as in `Resize`. -/
def winScaleRows (bo bi cc rowIn rowOut : Nat) (pos : List Nat) (heightIn heightOut width : Nat) : M BMem Unit :=
  loop (fun s : Nat × Nat => s.1 != 0 + u32 (heightOut * rowOut)) (fun s => (s.1 + rowOut, s.2 + 1))
    (fun s _ => loop (fun t : Nat × Nat => t.1 != s.1 + width) (fun t => (t.1 + cc, t.2 + 1))
      (fun t _ => winPixel bo bi cc pos (winRow heightIn heightOut rowIn s.2) t.1 t.2) fuelMax (s.1, 0) ())
    fuelMax (0, 0) ()

/-- The members of `BITMAPINFO` that `setImage` fills and that matter for the picture,
    src/ui/win/win_ui.cpp 293-319. -/
structure Header where
  biWidth : Nat
  biHeight : Nat
  biBitCount : Nat
  biSizeImage : Nat
  biClrUsed : Nat
  /-- red, green, blue -/
  palette : List (UInt8 × UInt8 × UInt8)
deriving DecidableEq, Repr

/-- src/ui/win/win_ui.cpp 293-319 -/
def winHeader (img : Image) : Header :=
  { biWidth := img.width, biHeight := img.height, biBitCount := img.cc * 8
    biSizeImage := u32 (img.rowSize * img.height)
    biClrUsed := if img.cc ≠ 1 then 0 else 256
    palette := if img.cc ≠ 1 then []
      else (List.range 256).map fun i => (UInt8.ofNat i, UInt8.ofNat i, UInt8.ofNat i) }

/-- Is the image larger than the window may be?  src/ui/win/win_ui.cpp 229-232; the arguments are
    the sizes of the screen. -/
def winLarge (screenW screenH : Int) (img : Image) : Bool :=
  let maxW := Int.tdiv (screenW * 95) 100
  let maxH := Int.tdiv (screenH * 95) 100
  (decide (0 < maxW) && decide (maxW < img.width)) || (decide (0 < maxH) && decide (maxH < img.height))

/-- src/ui/win/win_ui.cpp 233-274.  The size of the reduced picture is computed with doubles and
    truncated; here it is a parameter (`sw`, `sh`). -/
def winScaled (sw sh b : Nat) (img : Image) (o : Own) : M BMem Own := do
  let o ← ownResize b sw sh o
  winScaleRows o.img.data img.data img.cc img.rowSize o.img.rowSize
    (positionX img.width o.img.width img.cc) img.height o.img.height (u32 (o.img.width * img.cc))
  pure o

/-- src/ui/win/win_ui.cpp 277-290 -/
def winPlain (b : Nat) (img : Image) (o : Own) : M BMem Own := do
  let o ← ownResize b img.width img.height o
  winCopyRows o.img.data img.data img.rowSize o.img.rowSize (u32 (img.width * img.cc)) img.height
  pure o

/-- `UiWindowWin::setImage`, src/ui/win/win_ui.cpp 221-329, without moving the window. -/
def winSetImage (screenW screenH : Int) (sw sh b : Nat) (img : Image) (o : Own) : M BMem (Own × Header) := do
  let o ← ownSetAlignment 4 o
  let o ← ownSetColorCount img.cc o
  let o ← if winLarge screenW screenH img then winScaled sw sh b img o else winPlain b img o
  pure (o, winHeader o.img)

/-! ### X11 -/

/-- `_data.resize( n )` of an empty vector. src/ui/x11/x11_ui.cpp 89. -/
def vecResize (b n : Nat) : M BMem Unit := fun m =>
  .ok () { size := fun c => if c = b then n else m.size c
           byte := fun c i => if c = b then 0 else m.byte c i }

/-- One gray pixel, src/ui/x11/x11_ui.cpp 102-105; the value is the pointer behind it. -/
def x11Gray (buf bi imageX imageData : Nat) : M BMem Nat := do
  let v ← readC bi imageX
  memsetC buf imageData v 3
  writeC buf (imageData + 3) 0
  pure (imageData + 4)

/-- One colour pixel, src/ui/x11/x11_ui.cpp 117-120. -/
def x11Rgb (buf bi imageX imageData : Nat) : M BMem Nat := do
  memcpyC buf imageData bi imageX 3
  writeC buf (imageData + 3) 0
  pure (imageData + 4)

/-- `UiWindowX11::_setupImage`, src/ui/x11/x11_ui.cpp 84-128, for a window of the size of the
    image (the constructor, 34-35).  The value tells whether `_image` was created. -/
def x11Setup (buf : Nat) (img : Image) : M BMem Bool :=
  if img.data = 0 then pure false
  else do
    vecResize buf (u32 (u32 (img.width * img.height) * 4))
    if img.cc = 1 then do
      let _ ← rowLoop1 img.rowSize 1 (x11Gray buf img.data) 0 img.width img.height 0
      pure true
    else do
      throwIf (img.cc != 3)
      let _ ← rowLoop1 img.rowSize 3 (x11Rgb buf img.data) 0 (u32 (img.width * 3)) img.height 0
      pure true

/-! ### Qt -/

/-- The formats used, src/ui/qt/qt_ui.cpp 30. -/
inductive QFormat where
  | gray8
  | rgb888
deriving DecidableEq, Repr

/-- The arguments of the constructor of `QImage`. src/ui/qt/qt_ui.cpp 29-30. -/
structure QImage where
  data : Nat
  width : Nat
  height : Nat
  bytesPerLine : Nat
  format : QFormat
deriving DecidableEq, Repr

/-- src/ui/qt/qt_ui.cpp 29-30 for images of less than 2^31 columns and rows. -/
def qtImage (img : Image) : QImage :=
  ⟨img.data, img.width, img.height, img.rowSize, if img.cc = 1 then .gray8 else .rgb888⟩

/-! ### Calls on a window

`I` stands for images, `K` for coordinates, `C` for colours. -/

/-- The calls of src/ui/ui.h 47-52. -/
inductive Call (I K C : Type) where
  | setImage (i : I)
  | point (x y : K) (c : C)
  | line (x y x' y' : K) (c : C)
  | ellipse (x y rx ry : K) (c : C)
  | rectangle (x y w h : K) (c : C)
deriving DecidableEq, Repr

/-- What is painted over a picture. src/ui/x11/x11_ui.h 51, src/ui/win/win_ui.h 53-75. -/
inductive Stroke (K C : Type) where
  | point (x y : K) (c : C)
  | line (x y x' y' : K) (c : C)
  /-- the bounding box of an ellipse: left, top, right, bottom -/
  | ellipse (l t r b : K) (c : C)
deriving DecidableEq, Repr

/-- `UiWindowWin`: the picture and the lists of drawings, src/ui/win/win_ui.h 94-96. -/
structure Win (I K C : Type) where
  image : I
  points : List (Stroke K C)
  lines : List (Stroke K C)
  ellipses : List (Stroke K C)
deriving DecidableEq, Repr

variable {I K C : Type} [Add K] [Sub K]

/-- The constructor shows the image given, src/ui/win/win_ui.cpp 198. -/
def winNew (i : I) : Win I K C := ⟨i, [], [], []⟩

/-- src/ui/win/win_ui.cpp 221 (a picture is made of the image), 331-367 -/
def winCall (s : Win I K C) : Call I K C → Win I K C
  | .setImage i => { s with image := i }
  | .point x y c => { s with points := s.points ++ [.point x y c] }
  | .line x y x' y' c => { s with lines := s.lines ++ [.line x y x' y' c] }
  | .ellipse x y rx ry c => { s with ellipses := s.ellipses ++ [.ellipse (x - rx) (y - ry) (x + rx) (y + ry) c] }
  | .rectangle x y w h c => { s with lines := s.lines ++
      [.line x y (x + w) y c, .line x y x (y + h) c, .line (x + w) y (x + w) (y + h) c,
       .line x (y + h) (x + w) (y + h) c] }

/-- What WM_PAINT paints in order: the picture, then points, lines and ellipses:
    src/ui/win/win_ui.cpp 53-101, 118-131. -/
def winPaint (s : Win I K C) : I × List (Stroke K C) := (s.image, s.points ++ s.lines ++ s.ellipses)

/-- `UiWindowX11`: the member of the base class, the picture made by the constructor and the
    points, src/ui/x11/x11_ui.h 42-52. -/
structure X11 (I K C : Type) where
  base : I
  image : I
  points : List (Stroke K C)
deriving DecidableEq, Repr

/-- src/ui/x11/x11_ui.cpp 27-52. -/
def x11New (i : I) : X11 I K C := ⟨i, i, []⟩

/-- `drawPoint` is overridden (src/ui/x11/x11_ui.cpp 130-133); everything else is
    src/ui/ui.cpp 37-60. -/
def x11Call (s : X11 I K C) : Call I K C → X11 I K C
  | .setImage i => { s with base := i }
  | .point x y c => { s with points := s.points ++ [.point x y c] }
  | .line .. => s
  | .ellipse .. => s
  | .rectangle .. => s

/-- The answer to an expose event, src/ui/x11/x11_ui.cpp 68-78. -/
def x11Paint (s : X11 I K C) : I × List (Stroke K C) := (s.image, s.points)

/-- `UiWindowQt`: the member of the base class and the pixmap, src/ui/qt/qt_ui.h. src/ui/qt/qt_ui.h 27-44. -/
structure Qt (I K C : Type) where
  base : I
  image : I
  strokes : List (Stroke K C)
deriving DecidableEq, Repr

/-- src/ui/qt/qt_ui.cpp 26-34 -/
def qtNew (i : I) : Qt I K C := ⟨i, i, []⟩

/-- src/ui/qt/qt_ui.cpp 46-86 paint into the pixmap; `setImage` is src/ui/ui.cpp 37-41.  The
    truncation of coordinates to integers is left to the painting. -/
def qtCall (s : Qt I K C) : Call I K C → Qt I K C
  | .setImage i => { s with base := i }
  | .point x y c => { s with strokes := s.strokes ++ [.point x y c] }
  | .line x y x' y' c => { s with strokes := s.strokes ++ [.line x y x' y' c] }
  | .ellipse x y rx ry c => { s with strokes := s.strokes ++ [.ellipse (x - rx) (y - ry) (x + rx) (y + ry) c] }
  | .rectangle x y w h c => { s with strokes := s.strokes ++
      [.line x y (x + w) y c, .line x y x (y + h) c, .line (x + w) y (x + w) (y + h) c,
       .line x (y + h) (x + w) (y + h) c] }

/-- src/ui/qt/qt_ui.cpp 31-32, 38-44. -/
def qtPaint (s : Qt I K C) : I × List (Stroke K C) := (s.image, s.strokes)

end PV.Ui
