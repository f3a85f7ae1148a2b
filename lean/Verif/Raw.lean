import Verif.PixelFn
import Verif.Haar
/-
  Model of src/file/raw_image.h for an element type of `s` bytes.

  The state are the bytes of memory, the number of the next free block, and the files.
  Streams: opening for writing may fail and a file may have room for some bytes only, both
  given by an arbitrary `Env`; reading an existing file does not fail.  Cells of memory are bytes, the members of
  `Image` count elements.
-/
namespace PV.Raw
open PV

/-- Not in the code: machinery of the model. -/
structure Disk where
  mem : BMem
  next : Nat
  file : String → Option (List UInt8)

/-- Which files can be created and how many bytes they can hold. Not in the code: machinery of the model. -/
structure Env where
  creates : String → Bool
  room : String → Nat

/-- A statement that works on memory only. Not in the code: machinery of the model. -/
def onMem {α : Type} (x : M BMem α) : M Disk α := fun d =>
  match x d.mem with
  | .ok a m => .ok a { d with mem := m }
  | .throw m => .throw { d with mem := m }
  | .ub => .ub

/-- The bytes from cell `p` of block `b` on; undefined behaviour outside of the block. src/file/raw_image.h 90. -/
def fetch (b : Nat) : Nat → Nat → M BMem (List UInt8)
  | _, 0 => pure []
  | p, n + 1 => do
    let v ← readC b p
    let vs ← fetch b (p + 1) n
    pure (v :: vs)

/-- Store bytes from cell `p` of block `b` on. src/file/raw_image.h 61. -/
def store (b : Nat) : Nat → List UInt8 → M BMem Unit
  | _, [] => pure ()
  | p, v :: vs => do
    writeC b p v
    store b (p + 1) vs

/-- `blockSize` (src/file/raw_image.h 55 and 84) -/
def blockSize : Nat := 4 * 1024 * 1024

/-- `toDo > blockSize ? blockSize : toDo` (src/file/raw_image.h, lines 58 and 88) -/
def part (toDo : Nat) : Nat := if blockSize < toDo then blockSize else toDo

/-- The content of the file `path` becomes `l`. Not in the code: machinery of the model. -/
def setFile (path : String) (l : List UInt8) : M Disk Unit := fun d =>
  .ok () { d with file := fun q => if q = path then some l else d.file q }

/-- Not in the code: machinery of the model. -/
def getFile (path : String) : M Disk (Option (List UInt8)) := fun d => .ok (d.file path) d

/-- `file.write( output + pos, n ); file.flush();` (src/file/raw_image.h, lines 90-91): nothing happens when the stream is in a bad state; when
    there is no room for all bytes the stream goes into a bad state. Returns whether the state is good. -/
def writePart (E : Env) (path : String) (b pos n : Nat) (good : Bool) : M Disk Bool :=
  if good then do
    let vs ← onMem (fetch b pos n)
    let old ← getFile path
    setFile path (old.getD [] ++ vs.take (E.room path - (old.getD []).length))
    pure (decide ((old.getD []).length + n ≤ E.room path))
  else pure false

/-- src/file/raw_image.h 71-98 -/
def Save (E : Env) (s : Nat) (path : String) (img : Image) : M Disk Unit := do
  validateImage img
  throwIf (!E.creates path)
  setFile path []
  let good ← loop (fun q : Nat × Nat => decide (0 < q.1)) (fun q => (q.1 - part q.1, q.2 + part q.1))
    (fun q good => writePart E path img.data q.2 (part q.1) good) fuelMax (u64 (u64 (s * img.rowSize) * img.height), 0) true
  throwIf (!good)

/-- An image without pixels. src/file/raw_image.h 38, 46. -/
def noImage : Image := ⟨0, 0, 0, 1, 0⟩

/-- `ImageTemplate( width, height, colorCount )` with sizes above zero (src/image_buffer.h 38-45 and 83-98): a new block with
    arbitrary contents. -/
def newImage (s w h cc : Nat) : M Disk Image := fun d =>
  .ok ⟨d.next, w, h, cc, u32 (w * cc)⟩
    { d with mem := { d.mem with size := fun b => if b = d.next then h * u32 (w * cc) * s else d.mem.size b }, next := d.next + 1 }

/-- src/file/raw_image.h 29-67 -/
def Load (s : Nat) (path : String) (w h cc : Nat) : M Disk Image := do
  throwIf (path == "" || w == 0 || h == 0 || cc == 0)
  match ← getFile path with
  | none => pure noImage
  | some bytes =>
    if bytes.length ≠ u32 (u32 (u32 (w * h) * cc) * s) then pure noImage
    else do
      let img ← newImage s w h cc
      loop (fun q : Nat × Nat => decide (0 < q.1)) (fun q => (q.1 - part q.1, q.2 + part q.1))
        (fun q _ => onMem (store img.data q.2 ((bytes.drop q.2).take (part q.1)))) fuelMax (u32 (u32 (u32 (w * h) * cc) * s), 0) ()
      pure img

/-- src/file/raw_image.h 111-119: the bytes of one element are reversed; `l` and `r` are `left` and `right`. -/
def swapElement (b l r : Nat) : M BMem Unit :=
  loop (fun q : Nat × Nat => decide (q.1 < q.2)) (fun q => (q.1 + 1, q.2 - 1)) (fun q _ => do
    let t ← readC b q.1
    let v ← readC b q.2
    writeC b q.1 v
    writeC b q.2 t) fuelMax (l, r) ()

/-- src/file/raw_image.h 101-120 -/
def LittleEndianToBigEndian (s : Nat) (img : Image) : M BMem Unit := do
  validateImage img
  if s < 2 then pure () else
    loop (fun p => p != u32 (img.rowSize * img.height) * s) (fun p => p + s)
      (fun p _ => swapElement img.data p (p + s - 1)) fuelMax 0 ()

end PV.Raw
