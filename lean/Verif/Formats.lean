import Verif.Bmp
/-
  Model of src/file/png_image.cpp, src/file/jpeg_image.cpp and src/file/file_image.cpp.

  Files and memory are those of Raw.lean.  The libraries libpng and libjpeg are not modelled: they are functions between pictures and the bytes
  of files.  Their default error handlers end the process; this is not told apart from undefined behaviour here.  Temporary rows are lists.
-/
namespace PV.Formats
open PV PV.Raw

/-! ### PNG -/

/-- What libpng is given: 8 bits, gray-scale or RGB (src/file/png_image.cpp 182-186), and the rows -/
structure Picture where
  width : Nat
  height : Nat
  gray : Bool
  rows : List (List UInt8)

/-- What libpng gives: the rows with four bytes for every pixel - red, green, blue and alpha - after the transformations asked for in
    src/file/png_image.cpp 90-110; `gray` is whether the file is gray-scale, with or without alpha (121). -/
structure Decoded where
  width : Nat
  height : Nat
  gray : Bool
  rows : List (List UInt8)

/-- libpng. src/file/png_image.cpp 70-119, 172-224. -/
structure PngLib where
  encode : Picture → List UInt8
  decode : List UInt8 → Option Decoded

/-- A gray-scale row with three equal colours and an opaque alpha channel. src/file/png_image.cpp 105-108. -/
def expandGray : List UInt8 → List UInt8
  | [] => []
  | g :: l => g :: g :: g :: 255 :: expandGray l

/-- A row of red, green and blue values with an opaque alpha channel. src/file/png_image.cpp 105. -/
def expandRgb : List UInt8 → List UInt8
  | r :: g :: b :: l => r :: g :: b :: 255 :: expandRgb l
  | _ => []

/-- A picture as it is read: src/file/png_image.cpp 103-108 -/
def expand (p : Picture) : Decoded := ⟨p.width, p.height, p.gray, p.rows.map (if p.gray then expandGray else expandRgb)⟩

/-- src/file/png_image.cpp 207-211: three bytes of the image are stored in the opposite order. -/
def bgrRow (b : Nat) : Nat → Nat → M BMem (List UInt8)
  | _, 0 => pure []
  | p, n + 1 => do
    let v0 ← readC b p
    let v1 ← readC b (p + 1)
    let v2 ← readC b (p + 2)
    let l ← bgrRow b (p + 3) n
    pure (v2 :: v1 :: v0 :: l)

/-- One row, src/file/png_image.cpp 199-212 -/
def pngRow (img : Image) (w p : Nat) : M BMem (List UInt8) := if img.cc = 1 then fetch img.data p w else bgrRow img.data p w

/-- All rows, src/file/png_image.cpp 198-213 -/
def pngRows (img : Image) (w : Nat) : Nat → Nat → M BMem (List (List UInt8))
  | _, 0 => pure []
  | p, n + 1 => do
    let r ← pngRow img w p
    let rs ← pngRows img w (p + img.rowSize) n
    pure (r :: rs)

/-- A file made by a library: the process ends when there is no room.
    src/file/png_image.cpp 215-216, src/file/jpeg_image.cpp 140-147. -/
def putAll (E : Env) (path : String) (l : List UInt8) : M Disk Unit := if l.length ≤ E.room path then setFile path l else ubE

/-- src/file/png_image.cpp 164-225, `Save` -/
def pngSave (L : PngLib) (E : Env) (path : String) (v : View) (w h : Nat) : M Disk Unit := do
  validateRoi v w h
  throwIf (!E.creates path)
  setFile path []
  let rows ← onMem (pngRows v.img w (u32 (v.y * v.img.rowSize) + u32 (v.x * v.img.cc)) h)
  putAll E path (L.encode ⟨w, h, v.img.cc == 1, rows⟩)

/-- src/file/png_image.cpp 130-133: a row of a gray-scale image; `column` is the rest of the row. -/
def grayPixels (b : Nat) : Nat → List UInt8 → Nat → M BMem Unit
  | _, _, 0 => pure ()
  | p, column, n + 1 => do
    let c ← orUb column[0]?
    writeC b p c
    grayPixels b (p + 1) (column.drop 4) n

/-- src/file/png_image.cpp 135-139: a row of a colour image -/
def bgrPixels (b : Nat) : Nat → List UInt8 → Nat → M BMem Unit
  | _, _, 0 => pure ()
  | p, column, n + 1 => do
    let c2 ← orUb column[2]?
    writeC b p c2
    let c1 ← orUb column[1]?
    writeC b (p + 1) c1
    let c0 ← orUb column[0]?
    writeC b (p + 2) c0
    bgrPixels b (p + 3) (column.drop 4) n

/-- src/file/png_image.cpp 127-140 -/
def pngPixelRow (img : Image) (gray : Bool) (p : Nat) (r : List UInt8) : M BMem Unit :=
  if gray then grayPixels img.data p r img.width else bgrPixels img.data p r img.width

/-- src/file/png_image.cpp 126-141 -/
def pngPixels (img : Image) (gray : Bool) : Nat → List (List UInt8) → M BMem Unit
  | _, [] => pure ()
  | p, r :: rs => do
    pngPixelRow img gray p r
    pngPixels img gray (p + img.rowSize) rs

/-- src/file/png_image.cpp 61-152, `Load` -/
def pngLoad (L : PngLib) (path : String) : M Disk Image := do
  throwIf (path == "")
  match ← getFile path with
  | none => pure noImage
  | some bytes =>
    let d ← orUb (L.decode bytes)
    let img ← newImage 1 d.width d.height (if d.gray then 1 else 3)
    onMem (pngPixels img d.gray 0 d.rows)
    pure img

/-! ### JPEG -/

/-- What libjpeg is given and gives: lines of `width * components` bytes. src/file/jpeg_image.cpp 98-108, 142-145. -/
structure Scan where
  width : Nat
  height : Nat
  components : Nat
  rows : List (List UInt8)

/-- libjpeg; the first argument of `encode` is the quality. src/file/jpeg_image.cpp 90-111, 123-151. -/
structure JpegLib where
  encode : Int → Scan → List UInt8
  decode : List UInt8 → Option Scan

/-- src/file/jpeg_image.cpp 142-145, from line `y` on: `image.data() + image.rowSize() * next_scanline`, whatever `startX` and `startY` are -/
def jpegRows (img : Image) (w : Nat) : Nat → Nat → M BMem (List (List UInt8))
  | _, 0 => pure []
  | y, n + 1 => do
    let r ← fetch img.data (u32 (img.rowSize * y)) (w * img.cc)
    let rs ← jpegRows img w (y + 1) n
    pure (r :: rs)

/-- src/file/jpeg_image.cpp 115-152, `Save`; four components are refused by the library, which ends the process (135). -/
def jpegSave (L : JpegLib) (quality : Int) (E : Env) (path : String) (v : View) (w h : Nat) : M Disk Unit := do
  validateRoi v w h
  throwIf (!E.creates path)
  setFile path []
  if v.img.cc = 4 then ubE else do
    let rows ← onMem (jpegRows v.img w 0 h)
    putAll E path (L.encode quality ⟨w, h, v.img.cc, rows⟩)

/-- src/file/jpeg_image.cpp 105-108, from line `y` on -/
def jpegLines (img : Image) : Nat → List (List UInt8) → M BMem Unit
  | _, [] => pure ()
  | y, r :: rs => do
    store img.data (u32 (img.rowSize * y)) r
    jpegLines img (y + 1) rs

/-- src/file/jpeg_image.cpp 32-38 and 81-113, `Load` into a new image -/
def jpegLoad (L : JpegLib) (path : String) : M Disk Image := do
  throwIf (path == "")
  match ← getFile path with
  | none => throwE
  | some bytes =>
    let s ← orUb (L.decode bytes)
    let img ← newImage 1 s.width s.height (if 0 < s.components ∧ s.components < 256 then s.components else 1)
    onMem (jpegLines img 0 s.rows)
    pure img

/-- src/file/jpeg_image.cpp 45-51, `SetImageQuality`; the state is `jpegQuality`. -/
def setImageQuality (quality : Int) : M Int Unit := do
  throwIf (decide (quality < 1) || decide (quality > 100))
  fun _ => .ok () quality

/-- src/file/jpeg_image.cpp 53-56, `GetImageQuality` -/
def getImageQuality : M Int Int := fun q => .ok q q

/-! ### Any format -/

/-- Which libraries the program was built with. src/file/png_image.cpp 24, 52, src/file/jpeg_image.cpp 59, 74. -/
structure Build where
  jpeg : Bool
  png : Bool

/-- src/file/file_image.cpp 29-32: the last characters of the path are compared. -/
def sameExtension (path ext : String) : Bool :=
  decide (ext.toList.length ≤ path.toList.length) && path.toList.drop (path.toList.length - ext.toList.length) == ext.toList

/-- src/file/file_image.cpp 35-45 -/
def isJpeg (B : Build) (path : String) : Bool := B.jpeg && (sameExtension path ".jpg" || sameExtension path ".jpeg")

/-- src/file/file_image.cpp 47-57 -/
def isPng (B : Build) (path : String) : Bool := B.png && sameExtension path ".png"

/-- The libraries and the quality. src/file/png_image.cpp 54, src/file/jpeg_image.cpp 76-77. -/
structure Libs where
  png : PngLib
  jpeg : JpegLib
  quality : Int

/-- `File_Operation::Load`, src/file/file_image.cpp 62-83 -/
def load (B : Build) (L : Libs) (path : String) : M Disk Image :=
  if isJpeg B path then jpegLoad L.jpeg path else if isPng B path then pngLoad L.png path else Bmp.Load path

/-- `File_Operation::Save`, src/file/file_image.cpp 90-103 -/
def save (B : Build) (L : Libs) (E : Env) (path : String) (v : View) (w h : Nat) : M Disk Unit :=
  if isJpeg B path then jpegSave L.jpeg L.quality E path v w h else if isPng B path then pngSave L.png E path v w h else Bmp.Save E path v w h

end PV.Formats
