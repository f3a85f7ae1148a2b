import Verif.Raw
import Verif.Validation
/-
  Model of src/file/bmp_image.cpp.

  Files and memory are those of Raw.lean.  Objects of type `std::vector<uint8_t>` are lists; an access outside of one is undefined behaviour.
  `sizeof( BitmapFileHeader )` is 20 and `sizeof( BitmapInfoHeader )` is 56 (64-bit machines); numbers are stored with the lowest byte first.
  `get_value` reads through a cast pointer; alignment and aliasing rules are ignored.
-/
namespace PV.Bmp
open PV PV.Raw

/-- Conversion to `int32_t` -/
def toI32 (n : Nat) : Int := if n < 2147483648 then n else (n : Int) - 4294967296

/-- Conversion of an `int32_t` to `uint32_t` -/
def ofI32 (z : Int) : Nat := (z % 4294967296).toNat

/-- The bytes of a number. In memory, src/file/bmp_image.cpp 78-83. -/
def le : Nat → Nat → List UInt8
  | 0, _ => []
  | n + 1, v => UInt8.ofNat (v % 256) :: le n (v / 256)

/-- The number made of bytes. In memory, src/file/bmp_image.cpp 71-76. -/
def word : List UInt8 → Nat
  | [] => 0
  | b :: l => b.toNat + 256 * word l

/-- `get_value`, src/file/bmp_image.cpp 71-76, for a type of `n` bytes: the value and the new offset -/
def getValue {μ : Type} (n : Nat) (data : List UInt8) (o : Nat) : M μ (Nat × Nat) :=
  if o + n ≤ data.length then pure (word ((data.drop o).take n), o + n) else ubE

/-- Bytes copied into a vector. src/file/bmp_image.cpp 81, 409-490. -/
def putAt {μ : Type} (data : List UInt8) (o : Nat) (l : List UInt8) : M μ (List UInt8) :=
  if o + l.length ≤ data.length then pure (data.take o ++ l ++ data.drop (o + l.length)) else ubE

/-- `set_value`, src/file/bmp_image.cpp 78-83: the vector and the new offset -/
def setValue {μ : Type} (n : Nat) (data : List UInt8) (o v : Nat) : M μ (List UInt8 × Nat) := do
  let d ← putAt data o (le n v)
  pure (d, o + n)

/-- `std::vector::resize`. src/file/bmp_image.cpp 418, 433, 577. -/
def resize (l : List UInt8) (n : Nat) : List UInt8 := l.take n ++ List.replicate (n - l.length) 0

/-- `file.read( data.data() + o, n )` at position `pos` of a file: the bytes the file has are stored.
    src/file/bmp_image.cpp 409-490. -/
def readInto {μ : Type} (data : List UInt8) (o : Nat) (bytes : List UInt8) (pos n : Nat) : M μ (List UInt8) := putAt data o ((bytes.drop pos).take n)

/-- src/file/bmp_image.cpp 54-68, `generateGrayScalePallete`; the loop is written as a list. -/
def grayPallete : List UInt8 := (List.range 256).flatMap fun i => [UInt8.ofNat i, UInt8.ofNat i, UInt8.ofNat i, 0]

/-- src/file/bmp_image.cpp 85-123 -/
structure FileHeader where
  bfType : Nat
  bfSize : Nat
  bfReserved1 : Nat
  bfReserved2 : Nat
  bfOffBits : Nat

/-- src/file/bmp_image.cpp 104-112 -/
def FileHeader.set {μ : Type} (data : List UInt8) : M μ FileHeader := do
  let (a, o) ← getValue 2 data 0
  let (b, o) ← getValue 4 data o
  let (c, o) ← getValue 2 data o
  let (d, o) ← getValue 2 data o
  let (e, _) ← getValue 4 data o
  pure ⟨a, b, c, d, e⟩

/-- src/file/bmp_image.cpp 114-122 -/
def FileHeader.get {μ : Type} (h : FileHeader) (data : List UInt8) : M μ (List UInt8) := do
  let (data, o) ← setValue 2 data 0 h.bfType
  let (data, o) ← setValue 4 data o h.bfSize
  let (data, o) ← setValue 2 data o h.bfReserved1
  let (data, o) ← setValue 2 data o h.bfReserved2
  let (data, _) ← setValue 4 data o h.bfOffBits
  pure data

/-- src/file/bmp_image.cpp 148-165 -/
structure CoreHeader where
  bcSize : Nat
  bcWidth : Nat
  bcHeight : Nat
  bcPlanes : Nat
  bcBitCount : Nat

/-- src/file/bmp_image.cpp 167-175 -/
def CoreHeader.set {μ : Type} (data : List UInt8) : M μ CoreHeader := do
  let (a, o) ← getValue 4 data 0
  let (b, o) ← getValue 2 data o
  let (c, o) ← getValue 2 data o
  let (d, o) ← getValue 2 data o
  let (e, _) ← getValue 2 data o
  pure ⟨a, b, c, d, e⟩

/-- src/file/bmp_image.cpp 238-269 -/
structure InfoHeader where
  biSize : Nat
  biWidth : Int
  biHeight : Int
  biPlanes : Nat
  biBitCount : Nat
  biCompress : Nat
  biSizeImage : Nat
  biXPelsPerMeter : Nat
  biYPelsPerMeter : Nat
  biClrUsed : Nat
  biClrImportant : Nat
  flipped : Bool

/-- src/file/bmp_image.cpp 286-292: the height is made positive. The smallest `int32_t` has no negation. -/
def InfoHeader.orient {μ : Type} (h : InfoHeader) : M μ InfoHeader :=
  if h.biHeight < 0 then
    if h.biHeight = -2147483648 then ubE else pure { h with biHeight := -h.biHeight, flipped := false }
  else pure { h with flipped := true }

/-- src/file/bmp_image.cpp 271-293 -/
def InfoHeader.set {μ : Type} (data : List UInt8) : M μ InfoHeader := do
  let (a, o) ← getValue 4 data 0
  let (b, o) ← getValue 4 data o
  let (c, o) ← getValue 4 data o
  let (d, o) ← getValue 2 data o
  let (e, o) ← getValue 2 data o
  let (f, o) ← getValue 4 data o
  let (g, o) ← getValue 4 data o
  let (h, o) ← getValue 4 data o
  let (i, o) ← getValue 4 data o
  let (j, o) ← getValue 4 data o
  let (k, _) ← getValue 4 data o
  InfoHeader.orient ⟨a, toI32 b, toI32 c, d, e, f, g, h, i, j, k, true⟩

/-- src/file/bmp_image.cpp 295-309 -/
def InfoHeader.get {μ : Type} (h : InfoHeader) (data : List UInt8) : M μ (List UInt8) := do
  let (data, o) ← setValue 4 data 0 h.biSize
  let (data, o) ← setValue 4 data o (ofI32 h.biWidth)
  let (data, o) ← setValue 4 data o (ofI32 (if h.flipped then h.biHeight else -h.biHeight))
  let (data, o) ← setValue 2 data o h.biPlanes
  let (data, o) ← setValue 2 data o h.biBitCount
  let (data, o) ← setValue 4 data o h.biCompress
  let (data, o) ← setValue 4 data o h.biSizeImage
  let (data, o) ← setValue 4 data o h.biXPelsPerMeter
  let (data, o) ← setValue 4 data o h.biYPelsPerMeter
  let (data, o) ← setValue 4 data o h.biClrUsed
  let (data, _) ← setValue 4 data o h.biClrImportant
  pure data

/-- The two classes derived from `BitmapDibHeader`. src/file/bmp_image.cpp 125, 148, 238. -/
inductive Dib
  | core (h : CoreHeader)
  | info (h : InfoHeader)

namespace Dib

/-- src/file/bmp_image.cpp 187-190 and 311-314 -/
def width : Dib → Nat
  | core h => h.bcWidth
  | info h => ofI32 h.biWidth

/-- src/file/bmp_image.cpp 192-195 and 316-319 -/
def height : Dib → Nat
  | core h => h.bcHeight
  | info h => ofI32 h.biHeight

/-- src/file/bmp_image.cpp 197-200 and 321-324; the result is a `uint8_t`. -/
def colorCount : Dib → Nat
  | core h => h.bcBitCount / 8 % 256
  | info h => h.biBitCount / 8 % 256

/-- src/file/bmp_image.cpp 202-205 and 326-329 -/
def size : Dib → Nat
  | core _ => 12
  | info _ => 40

/-- src/file/bmp_image.cpp 217-220 and 341-344 -/
def setColorCount (c : Nat) : Dib → Dib
  | core h => core { h with bcBitCount := c * 8 % 65536 }
  | info h => info { h with biBitCount := c * 8 % 65536 }

/-- src/file/bmp_image.cpp 224-227 and 351-354 -/
def isFlipped : Dib → Bool
  | core _ => true
  | info h => h.flipped

end Dib

/-- Row sizes are made multiples of BITMAP_ALIGNMENT (src/file/bmp_image.cpp 363-365, 443-445 and 551-553; src/image_buffer.h 92-94). -/
def aligned (n : Nat) : Nat := if n % 4 ≠ 0 then u32 ((n / 4 + 1) * 4) else n

/-- src/file/bmp_image.cpp 231-235 and 361-370, `validate`: true means a wrong header. -/
def Dib.validate (f : FileHeader) : Dib → Bool
  | core h => !(h.bcBitCount == 8 || h.bcBitCount == 24 || h.bcBitCount == 32) || h.bcWidth == 0 || h.bcHeight == 0 || h.bcSize != 12
      || h.bcPlanes != 1 || decide (f.bfOffBits < 26)
  | info h => !(h.biBitCount == 8 || h.biBitCount == 24 || h.biBitCount == 32) || decide (h.biWidth ≤ 0) || decide (h.biHeight ≤ 0) || h.biSize != 40
      || (h.biSizeImage != u32 (aligned (u32 (ofI32 h.biWidth * (h.biBitCount / 8 % 256))) * ofI32 h.biHeight) && h.biSizeImage != 0)
      || h.biPlanes != 1 || decide (f.bfOffBits < 54)

/-- `getInfoHeader` and `info->set( data )`, src/file/bmp_image.cpp 373-383 and 438; the first argument is one of 12 and 40. -/
def Dib.set {μ : Type} (size : Nat) (data : List UInt8) : M μ Dib :=
  if size = 12 then do
    let h ← CoreHeader.set data
    pure (core h)
  else do
    let h ← InfoHeader.set data
    pure (info h)

/-- An access through a pointer which may point before the block. src/file/bmp_image.cpp 586-600. -/
def ptr {μ α : Type} (p : Int) (f : Nat → M μ α) : M μ α := if p < 0 then ubE else f p.toNat

/-- src/file/bmp_image.cpp 47-51: one round of the loop of `flipData`; `memcpy` of overlapping rows is undefined. -/
def swapRows (b n : Nat) (s e : Int) : M BMem Unit :=
  ptr s fun s => ptr e fun e => do
    let temp ← fetch b s n
    memcpyC b s b e n
    store b e temp

/-- src/file/bmp_image.cpp 32-52, `flipData` -/
def flipData (img : Image) : M BMem Unit :=
  if img.empty || decide (img.height < 2) then pure ()
  else loop (fun q : Nat × Int × Int => decide (q.1 < img.height / 2)) (fun q => (q.1 + 1, q.2.1 + img.rowSize, q.2.2 - img.rowSize))
    (fun q _ => swapRows img.data img.rowSize q.2.1 q.2.2) fuelMax (0, 0, (u32 (img.rowSize * (img.height - 1)) : Nat)) ()

/-- src/file/bmp_image.cpp 508-511: one pixel of a 256-colour image -/
def convertPixel (b : Nat) (pallete : List UInt8) (i o : Int) : M BMem Unit := do
  let v ← ptr i fun i => readC b i
  let p0 ← orUb pallete[v.toNat * 4]?
  ptr o fun o => writeC b o p0
  let p1 ← orUb pallete[v.toNat * 4 + 1]?
  ptr (o + 1) fun o => writeC b o p1
  let p2 ← orUb pallete[v.toNat * 4 + 2]?
  ptr (o + 2) fun o => writeC b o p2

/-- src/file/bmp_image.cpp 503-515: one row, from the right to the left, the first pixel included -/
def convertRow (b w : Nat) (pallete : List UInt8) (inY outY : Int) : M BMem Unit :=
  loop (fun q : Int × Int × Bool => !q.2.2) (fun q => (q.1 - 1, q.2.1 - 3, decide (q.1 = inY)))
    (fun q _ => convertPixel b pallete q.1 q.2.1) fuelMax (inY + (u32 (w + 4294967295) : Nat), outY + (u32 (3 * u32 (w + 4294967295)) : Nat), false) ()

/-- src/file/bmp_image.cpp 498-516: rows from the last to the second one -/
def convert256 (img : Image) (rowSize : Nat) (pallete : List UInt8) : M BMem Unit :=
  loop (fun q : Int × Int => decide (q.1 ≠ 0)) (fun q => (q.1 - rowSize, q.2 - img.rowSize))
    (fun q _ => convertRow img.data img.width pallete q.1 q.2) fuelMax
    ((u32 (rowSize * (img.height - 1)) : Nat), (u32 (img.rowSize * (img.height - 1)) : Nat)) ()

/-- `ImageTemplate( width, height, colorCount, 4 )` with sizes above zero (src/image_buffer.h 38-45 and 83-98): a new block with
    arbitrary contents. -/
def newImage4 (w h cc : Nat) : M Disk Image := fun d =>
  .ok ⟨d.next, w, h, cc, aligned (u32 (w * cc))⟩
    { d with mem := { d.mem with size := fun b => if b = d.next then h * aligned (u32 (w * cc)) else d.mem.size b }, next := d.next + 1 }

/-- src/file/bmp_image.cpp 450-468: the pallete is read by blocks of 4 MB -/
def readPallete {μ : Type} (bytes : List UInt8) (pos size : Nat) : M μ (List UInt8) :=
  loop (fun q : Nat × Nat => decide (0 < q.1)) (fun q => (q.1 - part q.1, q.2 + part q.1))
    (fun q p => readInto p q.2 bytes (pos + q.2) (part q.1)) fuelMax (size, 0) (List.replicate size 0)

/-- src/file/bmp_image.cpp 470-477: is it a 256-colour image? -/
def is256 (info : Dib) (pallete : List UInt8) : Bool := pallete.length == 1024 && info.colorCount == 1 && pallete != grayPallete

/-- src/file/bmp_image.cpp 482-494: pixels are read by blocks of 4 MB -/
def readPixels (b : Nat) (bytes : List UInt8) (pos total : Nat) : M Disk Unit :=
  loop (fun q : Nat × Nat => decide (0 < q.1)) (fun q => (q.1 - part q.1, q.2 + part q.1))
    (fun q _ => onMem (store b q.2 ((bytes.drop (pos + q.2)).take (part q.1)))) fuelMax (total, 0) ()

/-- src/file/bmp_image.cpp 497-517 -/
def convertIf (convert : Bool) (img : Image) (rowSize : Nat) (pallete : List UInt8) : M BMem Unit :=
  if convert then convert256 img rowSize pallete else pure ()

/-- src/file/bmp_image.cpp 496-521: after reading the pixels -/
def finish (img : Image) (rowSize : Nat) (pallete : List UInt8) (convert flipped : Bool) : M BMem Unit := do
  convertIf convert img rowSize pallete
  if flipped then flipData img else pure ()

/-- src/file/bmp_image.cpp 443-523; the heights of `info` and the image are the same number. -/
def loadPixels (bytes : List UInt8) (header : FileHeader) (info : Dib) : M Disk Image := do
  let rowSize := aligned (u32 (info.width * info.colorCount))
  let pallete ← readPallete bytes (14 + info.size) (header.bfOffBits - info.size - 14)
  let info' := if is256 info pallete then info.setColorCount 3 else info
  let img ← newImage4 info'.width info'.height info'.colorCount
  readPixels img.data bytes header.bfOffBits (u64 (rowSize * info'.height))
  onMem (finish img rowSize pallete (is256 info pallete) info'.isFlipped)
  pure img

/-- src/file/bmp_image.cpp 433-448: the second header -/
def loadInfo (bytes : List UInt8) (header : FileHeader) (data : List UInt8) (dibSize : Nat) : M Disk Image := do
  let data ← readInto (resize data dibSize) 4 bytes 18 (dibSize - 4)
  let info ← Dib.set dibSize data
  if info.validate header || bytes.length != u32 (header.bfOffBits + u32 (aligned (u32 (info.width * info.colorCount)) * info.height)) then pure noImage
  else loadPixels bytes header info

/-- src/file/bmp_image.cpp 417-431: the size of the second header -/
def loadDib (bytes : List UInt8) (header : FileHeader) (data : List UInt8) : M Disk Image := do
  let data ← readInto (resize data 4) 0 bytes 14 4
  let (dibSize, _) ← getValue 4 data 0
  if dibSize ≠ 12 ∧ dibSize ≠ 40 then pure noImage else loadInfo bytes header data dibSize

/-- src/file/bmp_image.cpp 397-415: the first header -/
def loadBytes (bytes : List UInt8) : M Disk Image :=
  if bytes.length < 76 then pure noImage else do
    let data ← readInto (List.replicate 20 0) 0 bytes 0 14
    let header ← FileHeader.set data
    if header.bfType ≠ 0x4D42 ∨ bytes.length ≤ header.bfOffBits then pure noImage else loadDib bytes header data

/-- src/file/bmp_image.cpp 385-524, `Load` -/
def Load (path : String) : M Disk Image := do
  throwIf (path == "")
  match ← getFile path with
  | none => pure noImage
  | some bytes => loadBytes bytes

/-! ### Save -/

/-- `file.write( … )`: nothing happens when the stream is in a bad state; when there is no room for all bytes the stream goes into a bad
    state. Returns whether the state is good. src/file/bmp_image.cpp 575-598. -/
def put (E : Env) (path : String) (vs : List UInt8) (good : Bool) : M Disk Bool :=
  if good then do
    let old ← getFile path
    setFile path (old.getD [] ++ vs.take (E.room path - (old.getD []).length))
    pure (decide ((old.getD []).length + vs.length ≤ E.room path))
  else pure false

/-- `file.write` of `n` bytes of the image. src/file/bmp_image.cpp 597. -/
def putRow (E : Env) (path : String) (b n : Nat) (p : Int) (good : Bool) : M Disk Bool :=
  if good then do
    let vs ← ptr p fun p => onMem (fetch b p n)
    put E path vs true
  else pure false

/-- `file.write( &zero, n )`: `zero` has four bytes. src/file/bmp_image.cpp 594, 598. -/
def putZero (E : Env) (path : String) (n : Nat) (good : Bool) : M Disk Bool := if 4 < n then ubE else put E path (List.replicate n 0) good

/-- src/file/bmp_image.cpp 596-600: one row -/
def saveRow (E : Env) (path : String) (b n diff : Nat) (p : Int) (good : Bool) : M Disk Bool := do
  let good ← putRow E path b n p good
  putZero E path diff good

/-- src/file/bmp_image.cpp 555-564, the headers for a pallete of `pal` bytes and lines of `line` bytes -/
def fileHeader (pal line h : Nat) : FileHeader := ⟨0x4D42, u32 (u32 (14 + 40 + pal) + u32 (line * h)), 0, 0, u32 (14 + 40 + pal)⟩

/-- The header `info` which is saved, src/file/bmp_image.cpp 556-572. -/
def infoHeader (w h cc line : Nat) : InfoHeader := ⟨40, toI32 w, toI32 h, 1, cc * 8 % 65536, 0, u32 (line * h), 0, 0, 0, 0, true⟩

/-- src/file/bmp_image.cpp 572-603: writing the file -/
def saveFile (E : Env) (path : String) (v : View) (w h : Nat) (pallete : List UInt8) (line : Nat) : M Disk Unit := do
  let data ← (fileHeader pallete.length line h).get (List.replicate 20 0)
  let good ← put E path (data.take 14) true
  let data ← (infoHeader w h v.img.cc line).get (resize data 56)
  let good ← put E path (data.take 40) good
  let good ← put E path pallete good
  let good ← loop (fun q : Nat × Int => decide (q.1 < h)) (fun q => (q.1 + 1, q.2 - v.img.rowSize))
    (fun q good => saveRow E path v.img.data (w * v.img.cc) (u64 (line + 18446744073709551616 - w * v.img.cc)) q.2 good) fuelMax
    (0, ((u32 (u32 (u32 (v.y + h) + 4294967295) * v.img.rowSize) + u32 (v.x * v.img.cc) : Nat) : Int)) good
  throwIf (!good)

/-- src/file/bmp_image.cpp 536-604, `Save`.  An empty pallete is not written; writing no bytes is the same. -/
def Save (E : Env) (path : String) (v : View) (w h : Nat) : M Disk Unit := do
  validateRoi v w h
  throwIf (!E.creates path)
  setFile path []
  saveFile E path v w h (if v.img.cc = 1 then grayPallete else []) (aligned (u32 (w * v.img.cc)))

end PV.Bmp
