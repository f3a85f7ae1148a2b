import Verif.Core
/-
  Model of the arrays on devices: `Array` of src/cuda/cuda_types.cuh 167-328 and src/opencl/opencl_types.h (class Array).

  The state is the memory of the device, the objects which exist and the next address.  An allocation may fail (`room`) and gives
  arbitrary contents (`junk`); so may copies between host and device or inside of the device (`copies`).  The pool behind `MemoryManager`
  is modelled in DeviceAlloc.lean; here an allocation gives a new block.  Releasing a block which does not exist, copying between the
  same range and access outside of a block are undefined.  An exception leaves what was changed before; a constructor which throws
  leaves no object, and its destructor does not run.  Sizes in bytes do not overflow.
-/
namespace PV.DevArray
open PV

variable {α : Type}

/-- `_data` (0 is NULL) and `_size`. src/cuda/cuda_types.cuh 264-265, src/opencl/opencl_types.h 240-241. -/
structure Obj where
  data : Nat
  size : Nat
deriving DecidableEq

/-- Not in the code: machinery of the model. -/
structure World (α : Type) where
  objs : Nat → Option Obj
  heap : Nat → Option (List α)
  next : Nat

/-- What happens to one operation. Not in the code: machinery of the model. -/
structure Env (α : Type) where
  room : Bool
  copies : Bool
  junk : Nat → α

/-- `multiCuda` (src/cuda/cuda_types.cuh 168) or `multiCL` (src/opencl/opencl_types.h 157). -/
inductive Kind where
  | cuda
  | openCl
deriving DecidableEq

/-- Not in the code: machinery of the model. -/
def upd {β : Type} (f : Nat → β) (i : Nat) (x : β) : Nat → β := fun j => if j = i then x else f j

/-- The object named i: using an object which does not exist is undefined. Not in the code: machinery of the model. -/
def obj (i : Nat) : M (World α) Obj := fun w =>
  match w.objs i with
  | some o => .ok o w
  | none => .ub

/-- Not in the code: machinery of the model. -/
def setObj (i : Nat) (o : Obj) : M (World α) Unit := fun w => .ok () { w with objs := upd w.objs i (some o) }

/-- `MemoryManager::memory().allocate<TData>( size )`. src/cuda/cuda_types.cuh 275-285. -/
def allocBlock (e : Env α) (n : Nat) : M (World α) Nat := fun w =>
  if e.room then .ok w.next { w with heap := upd w.heap w.next (some ((List.range n).map e.junk)), next := w.next + 1 } else .throw w

/-- `MemoryManager::memory().free( _data )`. src/cuda/cuda_types.cuh 267-273. -/
def freeBlock (b : Nat) : M (World α) Unit := fun w =>
  match w.heap b with
  | some _ => .ok () { w with heap := upd w.heap b none }
  | none => .ub

/-- The block at an address. Not in the code: machinery of the model. -/
def block (b : Nat) : M (World α) (List α) := fun w =>
  match w.heap b with
  | some l => .ok l w
  | none => .ub

/-- Not in the code: machinery of the model. -/
def setBlock (b : Nat) (l : List α) : M (World α) Unit := fun w => .ok () { w with heap := upd w.heap b (some l) }

/-- `_free` (cuda_types.cuh 267-273) -/
def freeO (i : Nat) : M (World α) Unit := do
  let o ← obj i
  if o.data ≠ 0 then do
    freeBlock o.data
    setObj i ⟨0, o.size⟩
  else pure ()

/-- The allocation of `_allocate` (cuda_types.cuh 280-281) -/
def newBlock (e : Env α) (i n : Nat) : M (World α) Unit :=
  if n ≠ 0 then do
    let b ← allocBlock e n
    let o ← obj i
    setObj i ⟨b, o.size⟩
  else pure ()

/-- `_allocate` (cuda_types.cuh 275-285) -/
def allocateO (e : Env α) (i n : Nat) : M (World α) Unit := do
  let o ← obj i
  if o.size ≠ n then do
    freeO i
    newBlock e i n
    let o ← obj i
    setObj i ⟨o.data, n⟩
  else pure ()

/-- `cudaMemcpy` of n values inside of the device: an error if it fails or if the destination is NULL, undefined for overlapping ranges
    and for blocks which are too small. src/cuda/cuda_types.cuh 292. -/
def copyBlock (e : Env α) (dst src n : Nat) : M (World α) Unit :=
  if dst = 0 ∨ e.copies = false then throwE
  else if dst = src then ubE
  else do
    let l ← block src
    let k ← block dst
    if n ≤ l.length ∧ n ≤ k.length then setBlock dst (l.take n ++ k.drop n) else ubE

/-- `_copy` of CUDA (cuda_types.cuh 287-299); OpenCL always throws (opencl_types.h, `_copy`). -/
def copyO (kind : Kind) (e : Env α) (i j : Nat) : M (World α) Unit :=
  match kind with
  | .openCl => throwE
  | .cuda => do
    let p ← obj j
    allocateO e i p.size
    let p ← obj j
    let o ← obj i
    if p.data ≠ 0 then copyBlock e o.data p.data o.size else throwE

/-- `_swap` (cuda_types.cuh 301-305) -/
def swapO (i j : Nat) : M (World α) Unit := do
  let o ← obj i
  let p ← obj j
  setObj i p
  setObj j o

/-- `_copyFrom` (cuda_types.cuh 307-314) -/
def copyFrom (e : Env α) (i : Nat) (v : List α) : M (World α) Unit := do
  let o ← obj i
  if o.data ≠ 0 ∧ o.size = v.length then
    if e.copies then do
      let k ← block o.data
      if o.size ≤ k.length then setBlock o.data (v ++ k.drop o.size) else ubE
    else throwE
  else pure ()

/-- `get` (cuda_types.cuh 244-247, 316-327): the vector is made of zeros first. -/
def get [Inhabited α] (e : Env α) (i : Nat) : M (World α) (List α) := do
  let o ← obj i
  if o.data ≠ 0 then
    if e.copies then do
      let k ← block o.data
      if o.size ≤ k.length then pure (k.take o.size) else ubE
    else throwE
  else pure (List.replicate o.size default)

/-- `size` and `empty` (cuda_types.cuh 249-257) -/
def size (i : Nat) : M (World α) Nat := do
  let o ← obj i
  pure o.size

/-- src/cuda/cuda_types.cuh 254-257. -/
def empty (i : Nat) : M (World α) Bool := do
  let o ← obj i
  pure (o.data == 0)

/-- A constructor: members are set to NULL and 0, then `body` runs.  If it throws there is no object.  Two objects in the same place
    are undefined. src/cuda/cuda_types.cuh 171-205. -/
def ctor (i : Nat) (body : M (World α) Unit) : M (World α) Unit := fun w =>
  match w.objs i with
  | some _ => .ub
  | none =>
    match body { w with objs := upd w.objs i (some ⟨0, 0⟩) } with
    | .throw w' => .throw { w' with objs := upd w'.objs i none }
    | r => r

/-- What a program can do with arrays. -/
inductive Op (α : Type) where
  /-- `Array()` (171-175) -/
  | new (i : Nat)
  /-- `Array( data )` (177-183) -/
  | newVec (i : Nat) (v : List α)
  /-- `Array( size )` (185-190) -/
  | newSize (i n : Nat)
  /-- `Array( in )`, CUDA only (192-197) -/
  | copyNew (i j : Nat)
  /-- `Array( std::move( in ) )` (199-204) -/
  | moveNew (i j : Nat)
  /-- `a = in` (211-216) -/
  | copy (i j : Nat)
  /-- `a = std::move( in )` (218-223) -/
  | move (i j : Nat)
  /-- `a = data` (225-231) -/
  | assign (i : Nat) (v : List α)
  /-- `resize( size )` (259-262) -/
  | resize (i n : Nat)
  /-- the destructor (206-209) -/
  | destroy (i : Nat)
  /-- a kernel writes `data()[k]` -/
  | write (i k : Nat) (x : α)

/-- Not in the code: machinery of the model. -/
def dropObj (i : Nat) : M (World α) Unit := fun w => .ok () { w with objs := upd w.objs i none }

/-- A kernel writes one value. Not in the code: machinery of the model. -/
def writeO (i k : Nat) (x : α) : M (World α) Unit := do
  let o ← obj i
  let l ← block o.data
  if k < l.length then setBlock o.data (l.set k x) else ubE

/-- Not in the code: machinery of the model. -/
def step (kind : Kind) (e : Env α) : Op α → M (World α) Unit
  | .new i => ctor i (pure ())
  | .newVec i v => ctor i do
      allocateO e i v.length
      copyFrom e i v
  | .newSize i n => ctor i (allocateO e i n)
  | .copyNew i j => match kind with
    | .cuda => ctor i (copyO .cuda e i j)
    | .openCl => ubE
  | .moveNew i j => ctor i (swapO i j)
  | .copy i j => copyO kind e i j
  | .move i j => swapO i j
  | .assign i v => do
      allocateO e i v.length
      copyFrom e i v
  | .resize i n => allocateO e i n
  | .destroy i => do
      freeO i
      dropObj i
  | .write i k x => writeO i k x

end PV.DevArray
