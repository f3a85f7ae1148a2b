import Verif.Mem
/-
  Images in the memory of devices: src/image_buffer.h 34-416 with the functions registered for every type of
  device, and the classes src/cuda/image_buffer_cuda.cuh 28-87, src/cuda/image_buffer_cuda_pinned.cuh 28-81 and
  src/opencl/image_buffer_opencl.h 37-100.  Different from Buffer.lean (which has `assign` and `mutate` that are
  not repeated here): memory belongs to a device, allocations and copies may fail, and constructors of derived
  classes are modelled with their base classes.

  Memory released to another device than it came from is undefined here (pools of devices refuse such memory,
  in destructors this ends the program).  Element numbers instead of bytes are used for sizes.
-/
namespace PV.BufDev

open PV

/-- The members of `ImageTemplate`, src/image_buffer.h 329-350, and the class of the variable: 0 is
    `ImageTemplate`, 1 `ImageTemplateCuda`, 2 `ImageTemplateCudaPinned`, 3 `ImageTemplateOpenCL`. -/
structure Obj where
  width : Nat
  height : Nat
  cc : Nat
  align : Nat
  row : Nat
  data : Nat
  type : Nat
  cls : Nat
deriving DecidableEq, Repr

/-- A place of memory: the type of device and its number. `_deviceType`, src/image_buffer.h 350. -/
abbrev Place := Nat × Nat

/-- The program: objects, blocks with their contents and places, the active device of the thread
    (`getDefaultDeviceId()`), and the types that have functions (`FunctionFacade`, 352-415). -/
structure St (α : Type) where
  obj : Nat → Option Obj
  mem : Mem α
  live : Nat → Bool
  place : Nat → Place
  next : Nat
  active : Nat
  reg : Nat → Bool

/-- What fails during a call: the allocation of memory, the copying of memory.
    src/cuda/image_buffer_cuda.cuh 64-86, src/opencl/image_buffer_opencl.h 74-99. -/
structure Fails where
  alloc : Bool
  copy : Bool
deriving DecidableEq, Repr

/-- Nothing fails. Not in the code: machinery of the model. -/
def noFail : Fails := ⟨false, false⟩

variable {α : Type}

/-- Not in the code: machinery of the model. -/
def getObj (i : Nat) : M (St α) Obj := fun s =>
  match s.obj i with
  | some o => .ok o s
  | none => .ub

/-- Not in the code: machinery of the model. -/
def St.put (s : St α) (i : Nat) (o : Option Obj) : St α :=
  { s with obj := fun j => if j = i then o else s.obj j }

/-- Not in the code: machinery of the model. -/
def setObj (i : Nat) (o : Obj) : M (St α) Unit := fun s => .ok () (s.put i (some o))

/-- CUDA and OpenCL take memory from the active device (cuda_device.cu 78-81, opencl_device.cpp 101-104);
    main memory and pinned memory have one place. -/
def placeOf (type active : Nat) : Place := if type = 1 ∨ type = 3 then (type, active) else (type, 0)

/-- `_getFunction`, src/image_buffer.h 401-409 -/
def needReg (type : Nat) : M (St α) Unit := fun s => if s.reg type then .ok () s else .throw s

/-- `initialize`, src/image_buffer.h 361-369 -/
def register (type : Nat) : M (St α) Unit := fun s =>
  .ok () { s with reg := fun t => if t = type then true else s.reg t }

/-- A block which was never used before, with arbitrary contents.
    src/cuda/image_buffer_cuda.cuh 64-67, src/image_buffer.h 289-292, 309-312. -/
def allocNow (f : Fails) (type n : Nat) : M (St α) Nat := fun s =>
  if f.alloc then .throw s
  else .ok s.next { s with
    mem := { s.mem with size := fun b => if b = s.next then n else s.mem.size b }
    live := fun b => if b = s.next then true else s.live b
    place := fun b => if b = s.next then placeOf type s.active else s.place b
    next := s.next + 1 }

/-- `_allocate`, src/image_buffer.h 289-292, 309-312; image_buffer_cuda.cuh 64-67, image_buffer_cuda_pinned.cuh
    64-73, image_buffer_opencl.h 74-77 -/
def allocate (f : Fails) (type n : Nat) : M (St α) Nat := do
  needReg type
  allocNow f type n

/-- A block is given back: undefined unless it is in use and came from the same place.
    src/cuda/image_buffer_cuda.cuh 69-72, src/image_buffer.h 294-297, 314-317. -/
def freeNow (type b : Nat) : M (St α) Unit := fun s =>
  if s.live b ∧ s.place b = placeOf type s.active then
    .ok () { s with live := fun c => if c = b then false else s.live c } else .ub

/-- `_deallocate`, src/image_buffer.h 294-297, 314-317; image_buffer_cuda.cuh 69-72,
    image_buffer_cuda_pinned.cuh 75-80, image_buffer_opencl.h 79-82 -/
def deallocate (type b : Nat) : M (St α) Unit := do
  needReg type
  freeNow type b

/-- Elements are copied between two blocks of one place.
    src/cuda/image_buffer_cuda.cuh 74-79, src/image_buffer.h 299-302, 319-322. -/
def copyNow (f : Fails) (type dst src n : Nat) : M (St α) Unit := fun s =>
  if f.copy then .throw s
  else if s.live dst ∧ s.live src ∧ s.place dst = placeOf type s.active ∧ s.place src = placeOf type s.active ∧
      n ≤ s.mem.size dst ∧ n ≤ s.mem.size src ∧ dst ≠ src then
    .ok () { s with mem := { s.mem with byte := fun b k =>
      if b = dst ∧ k < n then s.mem.byte src k else s.mem.byte b k } }
  else .ub

/-- `_copy`, src/image_buffer.h 299-302, 319-322; image_buffer_cuda.cuh 74-79, image_buffer_opencl.h 84-92 -/
def copyBlock (f : Fails) (type dst src n : Nat) : M (St α) Unit := do
  needReg type
  copyNow f type dst src n

/-- The first `n` elements of a block are set. src/cuda/image_buffer_cuda.cuh 81-86, src/image_buffer.h 304-307, 324-327. -/
def setNow (type dst : Nat) (v : α) (n : Nat) : M (St α) Unit := fun s =>
  if s.live dst ∧ s.place dst = placeOf type s.active ∧ n ≤ s.mem.size dst then
    .ok () { s with mem := { s.mem with byte := fun b k => if b = dst ∧ k < n then v else s.mem.byte b k } }
  else .ub

/-- `_set`, src/image_buffer.h 304-307, 324-327; image_buffer_cuda.cuh 81-86, image_buffer_opencl.h 94-99;
    `splat type v` is the element that the function of the type writes for the value `v`. -/
def setBlock (splat : Nat → α → α) (type dst : Nat) (v : α) (n : Nat) : M (St α) Unit := do
  needReg type
  setNow type dst (splat type v) n

/-- What is written for elements of one byte: the value. src/cuda/image_buffer_cuda.cuh 83. -/
def splat8 (_type : Nat) (v : UInt8) : UInt8 := v

/-- What is written for elements of two bytes: `cudaMemset` writes the low byte everywhere
    (image_buffer_cuda.cuh 83), the functions of other types the value. -/
def splat16 (type : Nat) (v : UInt16) : UInt16 := if type = 1 then (v % 256) * 257 else v

/-- The row size, src/image_buffer.h 91-94 -/
def rowSize (w cc align : Nat) : M (St α) Nat :=
  if align = 0 then ubE
  else pure (if u32 (w * cc) % align ≠ 0 then u32 (u32 (u32 (w * cc) / align + 1) * align) else u32 (w * cc))

/-- `clear`, src/image_buffer.h 100-110 -/
def clear (i : Nat) : M (St α) Unit := do
  let o ← getObj i
  if o.data ≠ 0 then deallocate o.type o.data else pure ()
  setObj i { o with data := 0, width := 0, height := 0, row := 0 }

/-- `resize`, src/image_buffer.h 83-98: sizes are stored before the allocation. -/
def resize (f : Fails) (i w h : Nat) : M (St α) Unit := do
  let o ← getObj i
  if 0 < w ∧ 0 < h ∧ (w ≠ o.width ∨ h ≠ o.height) then do
    clear i
    let o ← getObj i
    let r ← rowSize w o.cc o.align
    setObj i { o with width := w, height := h, row := r }
    let b ← allocate f o.type (h * r)
    setObj i { o with width := w, height := h, row := r, data := b }
  else pure ()

/-- `setColorCount`, src/image_buffer.h 169-175 -/
def setColorCount (i cc : Nat) : M (St α) Unit := do
  let o ← getObj i
  if 0 < cc ∧ o.cc ≠ cc then do
    clear i
    let o ← getObj i
    setObj i { o with cc := cc }
  else pure ()

/-- `setAlignment`, src/image_buffer.h 182-188 -/
def setAlignment (i align : Nat) : M (St α) Unit := do
  let o ← getObj i
  if 0 < align ∧ align ≠ o.align then do
    clear i
    let o ← getObj i
    setObj i { o with align := align }
  else pure ()

/-- `copy`, src/image_buffer.h 212-232 -/
def copy (f : Fails) (i j : Nat) : M (St α) Unit := do
  let o ← getObj i
  let p ← getObj j
  throwIf (o.type != p.type)
  clear i
  let o ← getObj i
  let p ← getObj j
  let q := { o with width := p.width, height := p.height, cc := p.cc, row := p.row, align := p.align }
  setObj i q
  let p ← getObj j
  if p.data ≠ 0 then do
    let b ← allocate f q.type (q.height * q.row)
    setObj i { q with data := b }
    let p ← getObj j
    copyBlock f q.type b p.data (q.height * q.row)
  else pure ()

/-- `swap`, src/image_buffer.h 199-210; the class of a variable does not change. -/
def swap (i j : Nat) : M (St α) Unit := do
  let o ← getObj i
  let p ← getObj j
  setObj i { p with cls := o.cls }
  let o' ← getObj j
  setObj j { o with cls := o'.cls }

/-- `fill`, src/image_buffer.h 190-197 -/
def fill (splat : Nat → α → α) (i : Nat) (v : α) : M (St α) Unit := do
  let o ← getObj i
  if o.data = 0 then pure () else setBlock splat o.type o.data v (o.height * o.row)

/-- The object is gone. Not in the code: machinery of the model. -/
def drop (i : Nat) : M (St α) Unit := fun s => .ok () (s.put i none)

/-- Destructor, src/image_buffer.h 78-81 -/
def destroy (i : Nat) : M (St α) Unit := do
  clear i
  drop i

/-- An exception in a constructor of `ImageTemplate`: there is no object and no destructor is called. src/image_buffer.h 38-45. -/
def inBase (i : Nat) (act : M (St α) Unit) : M (St α) Unit := fun s =>
  match act s with
  | .throw s' => .throw (s'.put i none)
  | r => r

/-- An exception when `ImageTemplate` has been constructed already: its destructor is called (an exception in
    it would end the program). src/cuda/image_buffer_cuda.cuh 32-48. -/
def inDerived (i : Nat) (act : M (St α) Unit) : M (St α) Unit := fun s =>
  match act s with
  | .throw s' =>
    match destroy i s' with
    | .ok _ s'' => .throw s''
    | _ => .ub
  | r => r

/-- Default member values, src/image_buffer.h 329-350 -/
def fresh (type cls : Nat) : Obj := ⟨0, 0, 1, 1, 0, 0, type, cls⟩

/-- The last three lines of all constructors and of `generate`.
    src/image_buffer.h 42-44, 268-270, src/cuda/image_buffer_cuda.cuh 35-37. -/
def shape (f : Fails) (i w h cc align : Nat) : M (St α) Unit := do
  setColorCount i cc
  setAlignment i align
  resize f i w h

/-- The default constructor of `ImageTemplate`, src/image_buffer.h 38-45 without arguments -/
def defaultBase (i cls : Nat) : M (St α) Unit := do
  setObj i (fresh 0 cls)
  register 0

/-- The constructors, src/image_buffer.h 38-45, image_buffer_cuda.cuh 32-38, image_buffer_cuda_pinned.cuh 32-38,
    image_buffer_opencl.h 41-47 -/
def construct (f : Fails) (cls i w h cc align : Nat) : M (St α) Unit :=
  if cls = 0 then inBase i do
    defaultBase i 0
    shape f i w h cc align
  else inDerived i do
    defaultBase i cls
    setObj i (fresh cls cls)
    register cls
    shape f i w h cc align

/-- The copy constructors, src/image_buffer.h 47-51, image_buffer_cuda.cuh 40-43,
    image_buffer_cuda_pinned.cuh 40-43, image_buffer_opencl.h 49-52: those of derived classes start with the
    default constructor of the base class. -/
def copyConstruct (f : Fails) (cls i j : Nat) : M (St α) Unit :=
  if cls = 0 then inBase i do
    let p ← getObj j
    setObj i (fresh p.type 0)
    copy f i j
  else inDerived i do
    defaultBase i cls
    copy f i j

/-- The move constructors, src/image_buffer.h 52-55, image_buffer_cuda.cuh 45-48,
    image_buffer_cuda_pinned.cuh 45-48, image_buffer_opencl.h 54-57 -/
def moveConstruct (cls i j : Nat) : M (St α) Unit :=
  if cls = 0 then do
    setObj i (fresh 0 0)
    swap i j
  else do
    defaultBase i cls
    swap i j

/-- `generate`, src/image_buffer.h 263-273 -/
def generate (f : Fails) (i j w h cc align : Nat) : M (St α) Unit := do
  let p ← getObj j
  inDerived i do
    defaultBase i 0
    setObj i (fresh p.type 0)
    shape f i w h cc align

/-- One element of a block is set. Not in the code: machinery of the model. -/
def storeNow (b k : Nat) (v : α) : M (St α) Unit := fun s =>
  if s.live b ∧ k < s.mem.size b then .ok () { s with mem := s.mem.set b k v } else .ub

/-- A program writes an element (by a kernel or through `data()`). src/image_buffer.h 112-115 (`data()`). -/
def write (i k : Nat) (v : α) : M (St α) Unit := do
  let o ← getObj i
  storeNow o.data k v

/-- `setDefaultDeviceId`: another device becomes active. src/cuda/cuda_device.cu 37-40, src/opencl/opencl_device.cpp 40-43. -/
def activate (d : Nat) : M (St α) Unit := fun s => .ok () { s with active := d }

/-- The calls. Not in the code: machinery of the model. -/
inductive Op (α : Type) where
  | construct (f : Fails) (cls i w h cc align : Nat)
  | copyConstruct (f : Fails) (cls i j : Nat)
  | moveConstruct (cls i j : Nat)
  | generate (f : Fails) (i j w h cc align : Nat)
  | copyAssign (f : Fails) (i j : Nat)
  | moveAssign (i j : Nat)
  | resize (f : Fails) (i w h : Nat)
  | clear (i : Nat)
  | setColorCount (i cc : Nat)
  | setAlignment (i align : Nat)
  | fill (i : Nat) (v : α)
  | destroy (i : Nat)
  | write (i k : Nat) (v : α)
  | activate (d : Nat)

/-- Not in the code: machinery of the model. -/
def Op.exec (splat : Nat → α → α) : Op α → M (St α) Unit
  | .construct f cls i w h cc align => BufDev.construct f cls i w h cc align
  | .copyConstruct f cls i j => BufDev.copyConstruct f cls i j
  | .moveConstruct cls i j => BufDev.moveConstruct cls i j
  | .generate f i j w h cc align => BufDev.generate f i j w h cc align
  | .copyAssign f i j => copy f i j
  | .moveAssign i j => swap i j
  | .resize f i w h => BufDev.resize f i w h
  | .clear i => BufDev.clear i
  | .setColorCount i cc => BufDev.setColorCount i cc
  | .setAlignment i align => BufDev.setAlignment i align
  | .fill i v => BufDev.fill splat i v
  | .destroy i => BufDev.destroy i
  | .write i k v => BufDev.write i k v
  | .activate d => BufDev.activate d

/-- The state after a call, an exception included. Not in the code: machinery of the model. -/
def after : Res (St α) Unit → Option (St α)
  | .ok _ s => some s
  | .throw s => some s
  | .ub => none

/-- A sequence of calls, every exception is caught. Not in the code: machinery of the model. -/
def run (splat : Nat → α → α) : List (Op α) → St α → Option (St α)
  | [], s => some s
  | op :: ops, s =>
    match after (op.exec splat s) with
    | some s' => run splat ops s'
    | none => none

/-- Before the first call. Not in the code: machinery of the model. -/
def start (mem : Mem α) : St α := ⟨fun _ => none, mem, fun _ => false, fun _ => (0, 0), 1, 0, fun _ => false⟩

end PV.BufDev
