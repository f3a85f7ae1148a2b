import Verif.Mem
/-
  Model of the image container (src/image_buffer.h 33-364): ownership of storage.

  Objects live in a store indexed by object identities, so that calls such as `a = a` really
  work on one object.  Blocks of memory have identities as well; block 0 is the null pointer.
  Allocation returns a block that was never used before with arbitrary contents; that the
  memory pool never returns an address in use is C37/C38.  Copying and filling work on
  elements, so the element type stands for `TColorDepth`.  `_deviceType` is kept as a number,
  but the functions registered for the types are those of main memory.
-/
namespace PV.Buffer

open PV

/-- The members of `ImageTemplate`, src/image_buffer.h 329-350. -/
structure Obj where
  width : Nat
  height : Nat
  cc : Nat
  align : Nat
  row : Nat
  data : Nat
  type : Nat
deriving DecidableEq, Repr

/-- The program state: the living objects, the blocks of memory with their contents, which of
    them are allocated, and which of these belong to the caller directly. Not in the code: machinery of the model. -/
structure St (α : Type) where
  obj : Nat → Option Obj
  mem : Mem α
  live : Nat → Bool
  ext : Nat → Bool
  next : Nat

variable {α : Type}

/-- Not in the code: machinery of the model. -/
def getObj (i : Nat) : M (St α) Obj := fun s =>
  match s.obj i with
  | some o => .ok o s
  | none => .ub

/-- Not in the code: machinery of the model. -/
def setObj (i : Nat) (o : Obj) : M (St α) Unit := fun s =>
  .ok () { s with obj := fun j => if j = i then some o else s.obj j }

/-- `_allocate`, src/image_buffer.h 289-292 and 309-312 -/
def allocate (n : Nat) : M (St α) Nat := fun s =>
  .ok s.next { s with
    mem := { s.mem with size := fun b => if b = s.next then n else s.mem.size b }
    live := fun b => if b = s.next then true else s.live b
    next := s.next + 1 }

/-- `_deallocate`, src/image_buffer.h 294-297: a block that is not allocated is undefined
    behaviour. -/
def deallocate (b : Nat) : M (St α) Unit := fun s =>
  if s.live b then .ok () { s with live := fun c => if c = b then false else s.live c } else .ub

/-- `_copy` with `memcpy`, src/image_buffer.h 299-302, 319-322; `n` counts elements. -/
def copyBlock (dst src n : Nat) : M (St α) Unit := fun s =>
  if s.live dst ∧ s.live src ∧ n ≤ s.mem.size dst ∧ n ≤ s.mem.size src ∧ dst ≠ src then
    .ok () { s with mem := { s.mem with byte := fun b i =>
      if b = dst ∧ i < n then s.mem.byte src i else s.mem.byte b i } }
  else .ub

/-- `_set` with `std::fill`, src/image_buffer.h 304-307, 324-327 -/
def setBlock (dst : Nat) (v : α) (n : Nat) : M (St α) Unit := fun s =>
  if s.live dst ∧ n ≤ s.mem.size dst then
    .ok () { s with mem := { s.mem with byte := fun b i =>
      if b = dst ∧ i < n then v else s.mem.byte b i } }
  else .ub

/-- The computation of the row size, src/image_buffer.h 91-94, 138-141, 237-240; the division
    by an alignment of zero is undefined behaviour. -/
def rowSize (w cc align : Nat) : M (St α) Nat :=
  if align = 0 then ubE
  else
    let r := u32 (w * cc)
    pure (if r % align ≠ 0 then u32 (u32 (r / align + 1) * align) else r)

/-- `clear`, src/image_buffer.h 100-110 -/
def clear (i : Nat) : M (St α) Unit := do
  let o ← getObj i
  if o.data ≠ 0 then deallocate o.data else pure ()
  setObj i { o with data := 0, width := 0, height := 0, row := 0 }

/-- `resize`, src/image_buffer.h 83-98 -/
def resize (i w h : Nat) : M (St α) Unit := do
  let o ← getObj i
  if 0 < w ∧ 0 < h ∧ (w ≠ o.width ∨ h ≠ o.height) then do
    clear i
    let o ← getObj i
    let r ← rowSize w o.cc o.align
    let b ← allocate (h * r)
    setObj i { o with width := w, height := h, row := r, data := b }
  else pure ()

/-- `setColorCount`, src/image_buffer.h 169-175 -/
def setColorCount (i cc : Nat) : M (St α) Unit := do
  let o ← getObj i
  if 0 < cc ∧ o.cc ≠ cc then do
    clear i
    let o ← getObj i
    setObj i { o with cc := cc }
  else pure ()

/-- `setAlignment`, src/image_buffer.h 182-188 -/
def setAlignment (i align : Nat) : M (St α) Unit := do
  let o ← getObj i
  if 0 < align ∧ align ≠ o.align then do
    clear i
    let o ← getObj i
    setObj i { o with align := align }
  else pure ()

/-- Default member values, src/image_buffer.h 329-350. -/
def fresh (type : Nat) : Obj := ⟨0, 0, 1, 1, 0, 0, type⟩

/-- The constructor, src/image_buffer.h 38-45, and `generate`, 263-273 (which sets the type
    afterwards; here the type is a parameter). -/
def construct (i w h cc align type : Nat) : M (St α) Unit := do
  setObj i (fresh type)
  setColorCount i cc
  setAlignment i align
  resize i w h

/-- `copy`, src/image_buffer.h 212-232.  The other image is looked up again after `clear`: it
    may be the same object. -/
def copy (i j : Nat) : M (St α) Unit := do
  let o ← getObj i
  let p ← getObj j
  throwIf (o.type != p.type)
  clear i
  let o ← getObj i
  let p ← getObj j
  let o := { o with width := p.width, height := p.height, cc := p.cc, row := p.row, align := p.align }
  setObj i o
  let p ← getObj j
  if p.data ≠ 0 then do
    let b ← allocate (o.height * o.row)
    setObj i { o with data := b }
    let p ← getObj j
    copyBlock b p.data (o.height * o.row)
  else pure ()

/-- The copy constructor, src/image_buffer.h 47-51 -/
def copyConstruct (i j : Nat) : M (St α) Unit := do
  let p ← getObj j
  setObj i (fresh p.type)
  copy i j

/-- `swap`, src/image_buffer.h 199-210 -/
def swap (i j : Nat) : M (St α) Unit := do
  let o ← getObj i
  let p ← getObj j
  setObj i p
  setObj j o

/-- The move constructor, src/image_buffer.h 53-56 -/
def moveConstruct (i j : Nat) : M (St α) Unit := do
  setObj i (fresh 0)
  swap i j

/-- `fill`, src/image_buffer.h 190-197 -/
def fill (i : Nat) (v : α) : M (St α) Unit := do
  let o ← getObj i
  if o.data = 0 then pure () else setBlock o.data v (o.height * o.row)

/-- `assign`, src/image_buffer.h 122-142; `b` is the pointer given by the caller, whose block
    belongs to the image afterwards. -/
def assign (i b w h cc align : Nat) : M (St α) Unit := do
  throwIf (b == 0 || w == 0 || h == 0 || cc == 0 || align == 0)
  clear i
  let o ← getObj i
  let r ← rowSize w cc align
  (fun s => .ok () { s with ext := fun c => if c = b then false else s.ext c } : M (St α) Unit)
  setObj i { o with width := w, height := h, cc := cc, align := align, data := b, row := r }

/-- `mutate`, src/image_buffer.h 234-256 -/
def mutate (i w h cc align : Nat) : M (St α) Bool := do
  let o ← getObj i
  if 0 < cc ∧ 0 < align then do
    let r ← rowSize w cc align
    if u32 (r * h) ≠ u32 (o.row * o.height) then pure false
    else do
      setObj i { o with width := w, height := h, cc := cc, align := align, row := r }
      pure true
  else pure false

/-- The destructor, src/image_buffer.h 78-81 -/
def destroy (i : Nat) : M (St α) Unit := do
  clear i
  fun s => .ok () { s with obj := fun j => if j = i then none else s.obj j }

/-- The caller allocates a block of their own. Not in the code: machinery of the model. -/
def callerBlock (n : Nat) : M (St α) Unit := do
  let b ← allocate n
  fun s => .ok () { s with ext := fun c => if c = b then true else s.ext c }

/-- The caller writes an element of an image through `data()`. src/image_buffer.h 112-115 (`data()`). -/
def write (i k : Nat) (v : α) : M (St α) Unit := do
  let o ← getObj i
  fun s => if s.live o.data ∧ k < s.mem.size o.data then
    .ok () { s with mem := s.mem.set o.data k v } else .ub

/-- The calls. Not in the code: machinery of the model. -/
inductive Op (α : Type) where
  | construct (i w h cc align type : Nat)
  | copyConstruct (i j : Nat)
  | moveConstruct (i j : Nat)
  | copyAssign (i j : Nat)
  | moveAssign (i j : Nat)
  | resize (i w h : Nat)
  | clear (i : Nat)
  | setColorCount (i cc : Nat)
  | setAlignment (i align : Nat)
  | fill (i : Nat) (v : α)
  | swap (i j : Nat)
  | assign (i b w h cc align : Nat)
  | mutate (i w h cc align : Nat)
  | destroy (i : Nat)
  | callerBlock (n : Nat)
  | write (i k : Nat) (v : α)

/-- Not in the code: machinery of the model. -/
def Op.exec : Op α → M (St α) Unit
  | .construct i w h cc align type => Buffer.construct i w h cc align type
  | .copyConstruct i j => Buffer.copyConstruct i j
  | .moveConstruct i j => Buffer.moveConstruct i j
  | .copyAssign i j => copy i j
  | .moveAssign i j => Buffer.swap i j
  | .resize i w h => Buffer.resize i w h
  | .clear i => Buffer.clear i
  | .setColorCount i cc => Buffer.setColorCount i cc
  | .setAlignment i align => Buffer.setAlignment i align
  | .fill i v => Buffer.fill i v
  | .swap i j => Buffer.swap i j
  | .assign i b w h cc align => Buffer.assign i b w h cc align
  | .mutate i w h cc align => do let _ ← Buffer.mutate i w h cc align; pure ()
  | .destroy i => Buffer.destroy i
  | .callerBlock n => Buffer.callerBlock n
  | .write i k v => Buffer.write i k v

/-- A call, after which the program goes on; an exception is caught by the caller. Not in the code: machinery of the model. -/
def Op.step (op : Op α) (s : St α) : Option (St α) :=
  match op.exec s with
  | .ok _ s' => some s'
  | .throw s' => some s'
  | .ub => none

/-- A sequence of calls. Not in the code: machinery of the model. -/
def run : List (Op α) → St α → Option (St α)
  | [], s => some s
  | op :: ops, s =>
    match op.step s with
    | some s' => run ops s'
    | none => none

/-- Before the first call. Not in the code: machinery of the model. -/
def start (mem : Mem α) : St α := ⟨fun _ => none, mem, fun _ => false, fun _ => false, 1⟩

end PV.Buffer
