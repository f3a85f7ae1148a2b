import Verif.DevArray
/-
  Model of single values on devices: `Type` of src/cuda/cuda_types.cuh 31-164 and of src/opencl/opencl_types.h 33-153.

  The memory, the objects and what may fail are those of DevArray.lean; a value is a block of length 1.  The size in an object is only
  used to say so: 1 with a block, 0 without one.
-/
namespace PV.DevType
open PV PV.DevArray

variable {α : Type}

/-- `_allocate` (cuda_types.cuh 113-118) -/
def allocateT (e : Env α) (i : Nat) : M (World α) Unit := do
  freeO i
  let b ← allocBlock e 1
  setObj i ⟨b, 1⟩

/-- `_copy` of CUDA (cuda_types.cuh 120-130); OpenCL always throws (opencl_types.h, `_copy`). -/
def copyT (kind : Kind) (e : Env α) (i j : Nat) : M (World α) Unit :=
  match kind with
  | .openCl => throwE
  | .cuda => do
    let o ← obj i
    let p ← obj j
    if o.data ≠ 0 ∧ p.data ≠ 0 then copyBlock e o.data p.data 1 else throwE

/-- `_copyFrom` (cuda_types.cuh 137-147) -/
def copyFromT (e : Env α) (i : Nat) (x : α) : M (World α) Unit := do
  let o ← obj i
  if o.data ≠ 0 then
    if e.copies then do
      let k ← block o.data
      if 1 ≤ k.length then setBlock o.data (x :: k.drop 1) else ubE
    else throwE
  else throwE

/-- The first value of a block. src/cuda/cuda_types.cuh 149-163. -/
def firstOf : List α → M (World α) α
  | x :: _ => pure x
  | [] => ubE

/-- `get` (cuda_types.cuh 98-101, 149-163) -/
def getT (e : Env α) (i : Nat) : M (World α) α := do
  let o ← obj i
  if o.data ≠ 0 then
    if e.copies then do
      let k ← block o.data
      firstOf k
    else throwE
  else throwE

/-- What a program can do with values. -/
inductive TOp (α : Type) where
  /-- `Type()` (35-39) -/
  | new (i : Nat)
  /-- `Type( in )` of a value (41-46) -/
  | newVal (i : Nat) (x : α)
  /-- `Type( in )`, CUDA only (48-53) -/
  | copyNew (i j : Nat)
  /-- `Type( std::move( in ) )` (55-59) -/
  | moveNew (i j : Nat)
  /-- `a = in` (66-71) -/
  | copy (i j : Nat)
  /-- `a = std::move( in )` (73-78) -/
  | move (i j : Nat)
  /-- `a = x` (80-85) -/
  | assign (i : Nat) (x : α)
  /-- the destructor (61-64) -/
  | destroy (i : Nat)
  /-- a kernel writes `*data()` -/
  | write (i : Nat) (x : α)

/-- Not in the code: machinery of the model. -/
def stepT (kind : Kind) (e : Env α) : TOp α → M (World α) Unit
  | .new i => ctor i (allocateT e i)
  | .newVal i x => ctor i do
      allocateT e i
      copyFromT e i x
  | .copyNew i j => match kind with
    | .cuda => ctor i do
        allocateT e i
        copyT .cuda e i j
    | .openCl => ubE
  | .moveNew i j => ctor i (swapO i j)
  | .copy i j => copyT kind e i j
  | .move i j => swapO i j
  | .assign i x => copyFromT e i x
  | .destroy i => do
      freeO i
      dropObj i
  | .write i x => writeO i 0 x

end PV.DevType
