import Verif.Core
/-
  Model of complex data for Fourier transforms as objects which own memory: `BaseComplexData` of src/math/fft_base.h 48-148 with
  `ComplexData` of src/fft.cpp 24-141 (`cpu`) and of src/cuda/cuda_fft.cu 91-169 (`cuda`).

  The state is the memory, the objects which exist and the next address.  An allocation may fail (`room`) and gives arbitrary contents
  (`junk`); copies and kernels on a device may fail (`copies`), those of the host do not.  Releasing a block which does not exist and access
  outside of a block are undefined.  An exception leaves what was changed before; a constructor which throws leaves no object, and its
  destructor does not run (the destructor of the base class releases nothing).  Assignments are those of the base class (`ComplexData`
  itself has no assignment, as it declares a move constructor), and the copy constructor of `cpu` takes a reference to the base class.
  Images are given by their size and the values of their pixels: rows and the conversion are modelled in Fft.lean.
-/
namespace PV.CplxData
open PV

variable {α : Type}

/-- `_data` (0 is nullptr), `_width` and `_height`. src/math/fft_base.h 113-115. -/
structure Obj where
  data : Nat
  width : Nat
  height : Nat
deriving DecidableEq

/-- Not in the code: machinery of the model. -/
structure World (α : Type) where
  objs : Nat → Option Obj
  heap : Nat → Option (List α)
  next : Nat

/-- What happens to one operation. Not in the code: machinery of the model. -/
structure Env (α : Type) where
  room : Bool
  copies : Bool
  junk : Nat → α

/-- `FFT::ComplexData` (src/fft.h 32) or `FFT_Cuda::ComplexData` (src/cuda/cuda_fft.cuh 35). -/
inductive Kind where
  | cpu
  | cuda
deriving DecidableEq

/-- An image: `gray` if it is not empty and has one channel. src/fft.cpp 54-71. -/
structure Img (α : Type) where
  gray : Bool
  width : Nat
  height : Nat
  px : List α

/-- Not in the code: machinery of the model. -/
def upd {β : Type} (f : Nat → β) (i : Nat) (x : β) : Nat → β := fun j => if j = i then x else f j

/-- The object named i: using an object which does not exist is undefined. Not in the code: machinery of the model. -/
def obj (i : Nat) : M (World α) Obj := fun w =>
  match w.objs i with
  | some o => .ok o w
  | none => .ub

/-- Not in the code: machinery of the model. -/
def setObj (i : Nat) (o : Obj) : M (World α) Unit := fun w => .ok () { w with objs := upd w.objs i (some o) }

/-- `allocate( size )` or `cudaMalloc` for n values. src/fft.cpp 128-131, src/cuda/cuda_fft.cu 155-158. -/
def allocBlock (e : Env α) (n : Nat) : M (World α) Nat := fun w =>
  if e.room then .ok w.next { w with heap := upd w.heap w.next (some ((List.range n).map e.junk)), next := w.next + 1 } else .throw w

/-- `_freeData` (fft.cpp 133-136, cuda_fft.cu 160-163) -/
def freeBlock (b : Nat) : M (World α) Unit := fun w =>
  match w.heap b with
  | some _ => .ok () { w with heap := upd w.heap b none }
  | none => .ub

/-- The block at an address. Not in the code: machinery of the model. -/
def block (b : Nat) : M (World α) (List α) := fun w =>
  match w.heap b with
  | some l => .ok l w
  | none => .ub

/-- Not in the code: machinery of the model. -/
def setBlock (b : Nat) (l : List α) : M (World α) Unit := fun w => .ok () { w with heap := upd w.heap b (some l) }

/-- `_clean` (fft_base.h 121-130) -/
def clean (i : Nat) : M (World α) Unit := do
  let o ← obj i
  if o.data ≠ 0 then freeBlock o.data else pure ()
  setObj i ⟨0, 0, 0⟩

/-- `_allocateData` (fft.cpp 128-131, cuda_fft.cu 155-158) and the assignments of width and height (fft_base.h 79-83, fft.cpp 61-66):
    the number of values is a `uint32_t`. -/
def allocate (e : Env α) (i w h : Nat) : M (World α) Unit := do
  let b ← allocBlock e (u32 (w * h))
  setObj i ⟨b, w, h⟩

/-- `resize` (fft_base.h 74-85) -/
def resize (e : Env α) (i w h : Nat) : M (World α) Unit := do
  let o ← obj i
  if (o.width ≠ w ∨ o.height ≠ h) ∧ w ≠ 0 ∧ h ≠ 0 then do
    clean i
    allocate e i w h
  else pure ()

/-- The first n values of a block are written. src/fft.cpp 72-99. -/
def fill (b n : Nat) (v : List α) : M (World α) Unit := do
  let k ← block b
  if n ≤ k.length ∧ n ≤ v.length then setBlock b (v.take n ++ k.drop n) else ubE

/-- How many values `_copyData` copies: `sizeof * _width * _height` is a product of `size_t` (fft.cpp 140), `_width * _height * sizeof`
    one of `uint32_t` first (cuda_fft.cu 167). -/
def copyCount (kind : Kind) (w h : Nat) : Nat :=
  match kind with
  | .cpu => w * h
  | .cuda => u32 (w * h)

/-- What fails on the device only. src/cuda/cuda_fft.cu 115-129. -/
def onDevice (kind : Kind) (e : Env α) (x : M (World α) Unit) : M (World α) Unit := if kind = .cuda ∧ e.copies = false then throwE else x

/-- `_copyData` (fft.cpp 138-141, cuda_fft.cu 165-169) between different blocks -/
def copyData (kind : Kind) (e : Env α) (o p : Obj) : M (World α) Unit :=
  if o.data = p.data then ubE
  else onDevice kind e do
    let l ← block p.data
    fill o.data (copyCount kind o.width o.height) l

/-- `_copy` (fft_base.h 132-140) -/
def copyO (kind : Kind) (e : Env α) (i j : Nat) : M (World α) Unit := do
  clean i
  let p ← obj j
  resize e i p.width p.height
  let o ← obj i
  let p ← obj j
  if o.data ≠ 0 then copyData kind e o p else pure ()

/-- `_swap` (fft_base.h 142-147) -/
def swapO (i j : Nat) : M (World α) Unit := do
  let o ← obj i
  let p ← obj j
  setObj i p
  setObj j o

/-- `set( image )` (fft.cpp 54-85, cuda_fft.cu 115-129) -/
def setImage (kind : Kind) (e : Env α) (i : Nat) (m : Img α) : M (World α) Unit := do
  throwIf (!m.gray)
  clean i
  allocate e i m.width m.height
  let o ← obj i
  onDevice kind e (fill o.data (m.width * m.height) m.px)

/-- `set( vector )` (fft.cpp 87-100), `set( array )` (cuda_fft.cu 131-138) -/
def setVector (kind : Kind) (e : Env α) (i : Nat) (v : List α) : M (World α) Unit := do
  let o ← obj i
  throwIf (v.isEmpty || o.width == 0 || o.height == 0 || v.length != u32 (o.width * o.height))
  onDevice kind e (fill o.data (u32 (o.width * o.height)) v)

/-- `width`, `height`, `empty` (fft_base.h 97-110) -/
def width (i : Nat) : M (World α) Nat := do
  let o ← obj i
  pure o.width

/-- src/math/fft_base.h 107-110. -/
def height (i : Nat) : M (World α) Nat := do
  let o ← obj i
  pure o.height

/-- src/math/fft_base.h 97-100. -/
def empty (i : Nat) : M (World α) Bool := do
  let o ← obj i
  pure (o.data == 0)

/-- `data()[k]` (fft_base.h 87-95) -/
def read (i k : Nat) : M (World α) α := do
  let o ← obj i
  let l ← block o.data
  orUb l[k]?

/-- `data()[k] = x`, and what kernels and transforms do. src/math/fft_base.h 87-90. -/
def write (i k : Nat) (x : α) : M (World α) Unit := do
  let o ← obj i
  let l ← block o.data
  if k < l.length then setBlock o.data (l.set k x) else ubE

/-- A constructor: members are nullptr and 0 (fft_base.h 52-56), then `body` runs.  If it throws there is no object. -/
def ctor (i : Nat) (body : M (World α) Unit) : M (World α) Unit := fun w =>
  match w.objs i with
  | some _ => .ub
  | none =>
    match body { w with objs := upd w.objs i (some ⟨0, 0, 0⟩) } with
    | .throw w' => .throw { w' with objs := upd w'.objs i none }
    | r => r

/-- Not in the code: machinery of the model. -/
def dropObj (i : Nat) : M (World α) Unit := fun w => .ok () { w with objs := upd w.objs i none }

/-- What a program can do. -/
inductive Op (α : Type) where
  /-- `ComplexData()` (fft.cpp 26) -/
  | new (i : Nat)
  /-- `ComplexData( image )` (fft.cpp 28-31) -/
  | newImage (i : Nat) (m : Img α)
  /-- `ComplexData( data, width, height )` (fft.cpp 33-37), not for CUDA -/
  | newVector (i : Nat) (v : List α) (w h : Nat)
  /-- `ComplexData( data )` (fft.cpp 39-42, cuda_fft.cu 100-103) -/
  | copyNew (i j : Nat)
  /-- `ComplexData( std::move( data ) )` (fft.cpp 44-47) -/
  | moveNew (i j : Nat)
  /-- `operator=( data )` (fft_base.h 60-65) -/
  | copy (i j : Nat)
  /-- `operator=( std::move( data ) )` (fft_base.h 67-72) -/
  | move (i j : Nat)
  /-- `resize` -/
  | resize (i w h : Nat)
  /-- `set( image )` -/
  | setImage (i : Nat) (m : Img α)
  /-- `set( vector )` -/
  | setVector (i : Nat) (v : List α)
  /-- a value is changed -/
  | write (i k : Nat) (x : α)
  /-- the destructor (fft.cpp 49-52) -/
  | destroy (i : Nat)

/-- Not in the code: machinery of the model. -/
def step (kind : Kind) (e : Env α) : Op α → M (World α) Unit
  | .new i => ctor i (pure ())
  | .newImage i m => ctor i (setImage kind e i m)
  | .newVector i v w h => ctor i do
      resize e i w h
      setVector kind e i v
  | .copyNew i j => ctor i (copyO kind e i j)
  | .moveNew i j => ctor i (swapO i j)
  | .copy i j => copyO kind e i j
  | .move i j => swapO i j
  | .resize i w h => resize e i w h
  | .setImage i m => setImage kind e i m
  | .setVector i v => setVector kind e i v
  | .write i k x => write i k x
  | .destroy i => do
      clean i
      dropObj i

end PV.CplxData
