import Verif.Core
/-
  Function tables of image types: src/image_function_helper.cpp 26-75 and 1023-1099,
  src/penguinv/penguinv.cpp 25-63, src/penguinv/image_manager.h.

  A function pointer is a number (`none` is `nullptr`), an image type a number below 256.
-/
namespace PV.TypeManager
open PV

/-- The members of `FunctionTableHolder`, src/image_function_helper.h 484-523 -/
inductive Slot
  | AbsoluteDifference | Accumulate | BitwiseAnd | BitwiseOr | BitwiseXor | ConvertTo16Bit | ConvertTo8Bit | ConvertToGrayScale | ConvertToRgb | Copy
  | ExtractChannel | Fill | Flip | GammaCorrection | GetPixel | Histogram | Invert | IsEqual | LookupTable | Maximum | Merge | Minimum | Normalize
  | ProjectionProfile | Resize | RgbToBgr | RgbToRgba | RgbaToRgb | SetPixel | SetPixel2 | Shift | Split | Subtract | Sum | Threshold | Threshold2 | Transpose
deriving DecidableEq

/-- `FunctionTableHolder`. src/image_function_helper.h 484-523. -/
abbrev Table := Slot → Option Nat

/-- `setFunction`, src/image_function_helper.cpp 28-34 -/
def setFunction (f1 f2 : Option Nat) (force : Bool) : Option Nat := if f1.isNone || (force && f2.isSome) then f2 else f1

/-- The members `setupTable` names, src/image_function_helper.cpp 38-74 -/
def merged : Slot → Bool
  | .RgbToRgba => false
  | .RgbaToRgb => false
  | .Shift => false
  | _ => true

/-- `setupTable`, src/image_function_helper.cpp 38-74 -/
def setupTable (old new : Table) (force : Bool) : Table := fun s => if merged s then setFunction (old s) (new s) force else old s

/-- The members of `ImageTypeManager`, src/image_function_helper.h 546-549.  Of the functions converting images only their presence matters here. -/
structure Mgr where
  tables : Nat → Option Table
  convert : Nat × Nat → Bool
  images : Nat → Bool
  enabled : Bool

/-- src/image_function_helper.cpp 1023-1025 -/
def newMgr : Mgr := ⟨fun _ => none, fun _ => false, fun _ => false, false⟩

/-- `setFunctionTable`, src/image_function_helper.cpp 1033-1040 -/
def setFunctionTable (m : Mgr) (type : Nat) (table : Table) (force : Bool) : Mgr :=
  match m.tables type with
  | some old => { m with tables := fun t => if t = type then some (setupTable old table force) else m.tables t }
  | none => { m with tables := fun t => if t = type then some table else m.tables t }

/-- `setConvertFunction`, src/image_function_helper.cpp 1051-1060; `none` is an exception. -/
def setConvertFunction (m : Mgr) (i o : Nat) : Option Mgr :=
  if i = o then none
  else some { m with convert := fun p => if p = (i, o) then true else m.convert p, images := fun t => if t = i ∨ t = o then true else m.images t }

/-- `imageTypes`, src/image_function_helper.cpp 1081-1089: the keys of a `std::map` in increasing order. -/
def imageTypes (m : Mgr) : List Nat := (List.range 256).filter fun t => (m.tables t).isSome

/-- What other code may do with the manager.  An exception of `setConvertFunction` changes nothing.
    Not in the code: machinery of the model. -/
inductive Op
  | setTable (type : Nat) (table : Table) (force : Bool)
  | setConvert (i o : Nat)
  | enable (b : Bool)

/-- Not in the code: machinery of the model. -/
def step (m : Mgr) : Op → Mgr
  | .setTable t tb f => setFunctionTable m t tb f
  | .setConvert i o => (setConvertFunction m i o).getD m
  | .enable b => { m with enabled := b }

/-- The manager after a history of calls. Not in the code: machinery of the model. -/
def run (ops : List Op) : Mgr := ops.foldl step newMgr

/-- The macro `initialize`, src/penguinv/penguinv.cpp 46-62, up to the construction of the ImageManager: the function called and the type of
    images it is made for; `none` is an exception. -/
def select (m : Mgr) (s : Slot) (type : Nat) : Option (Nat × Nat) :=
  match m.tables type with
  | none => none
  | some tb =>
    match tb s with
    | some f => some (f, type)
    | none =>
      if m.enabled then
        (imageTypes m).findSome? fun t => ((m.tables t).bind fun tb => tb s).map fun f => (f, t)
      else none

/-! ### Conversion of images -/

/-- An image: its type and its size and pixels (`α`). Not in the code: machinery of the model. -/
structure Img (α : Type) where
  type : Nat
  val : α

/-- `std::vector<ImageTemplate>`: `gen` counts the reallocations, which end the lifetime of all elements and so of all references to them.
    src/penguinv/image_manager.h 98-99. -/
structure Clones (α : Type) where
  gen : Nat
  cap : Nat
  elems : List α

/-- `push_back`; `grow` is the unspecified new capacity. src/penguinv/image_manager.h 72, 84. -/
def Clones.push {α : Type} (grow : Nat → Nat) (c : Clones α) (a : α) : Clones α :=
  if c.elems.length < c.cap then { c with elems := c.elems ++ [a] } else ⟨c.gen + 1, grow c.cap, c.elems ++ [a]⟩

/-- A reference passed to a function: the caller's image or an element of `_inputClone` or `_outputClone`.
    src/penguinv/image_manager.h 69-90. -/
inductive Ref
  | direct (id : Nat)
  | input (gen k : Nat)
  | output (gen k : Nat)

/-- The images of the caller and the members of ImageManager, src/penguinv/image_manager.h 93-99; `outputs` are the images referred to by `_output`. -/
structure State (α : Type) where
  imgs : Nat → Img α
  ins : Clones α
  outs : Clones α
  outputs : List Nat

variable {α : Type}

/-- `_clone`, src/penguinv/image_manager.h 101-106: throws if no image of the type or no conversion is registered. -/
def clone (m : Mgr) (type : Nat) (i : Img α) : M (State α) α := fun s =>
  if m.images type && m.convert (i.type, type) then .ok i.val s else .throw s

/-- `_inputClone.push_back( v ); return _inputClone.back();` (src/penguinv/image_manager.h, lines 72-73) -/
def pushIn (grow : Nat → Nat) (v : α) : M (State α) Ref := fun s =>
  .ok (.input (s.ins.push grow v).gen s.ins.elems.length) { s with ins := s.ins.push grow v }

/-- `_outputClone.push_back( v ); return _outputClone.back();` (src/penguinv/image_manager.h, lines 84-85) -/
def pushOut (grow : Nat → Nat) (v : α) : M (State α) Ref := fun s =>
  .ok (.output (s.outs.push grow v).gen s.outs.elems.length) { s with outs := s.outs.push grow v }

/-- `_output.push_back( … )` (src/penguinv/image_manager.h, line 83) -/
def addOutput (id : Nat) : M (State α) Unit := fun s => .ok () { s with outputs := s.outputs ++ [id] }

/-- An image of the caller. Not in the code: machinery of the model. -/
def image (id : Nat) : M (State α) (Img α) := fun s => .ok (s.imgs id) s

/-- `operator()`, src/penguinv/image_manager.h 69-90; `const` images are inputs. -/
def manage (m : Mgr) (grow : Nat → Nat) (type : Nat) (isConst : Bool) (id : Nat) : M (State α) Ref := do
  let i ← image id
  if i.type ≠ type then
    if isConst then do
      let v ← clone m type i
      pushIn grow v
    else do
      addOutput id
      let v ← clone m type i
      pushOut grow v
  else pure (.direct id)

/-- The function reads an argument. Not in the code: machinery of the model. -/
def deref (r : Ref) : M (State α) α := fun s =>
  match r with
  | .direct id => .ok (s.imgs id).val s
  | .input g k =>
    match s.ins.elems[k]? with
    | some v => if g = s.ins.gen then .ok v s else .ub
    | none => .ub
  | .output g k =>
    match s.outs.elems[k]? with
    | some v => if g = s.outs.gen then .ok v s else .ub
    | none => .ub

/-- The function writes an argument. Not in the code: machinery of the model. -/
def assign (r : Ref) (v : α) : M (State α) Unit := fun s =>
  match r with
  | .direct id => .ok () { s with imgs := fun k => if k = id then ⟨(s.imgs id).type, v⟩ else s.imgs k }
  | .input _ _ => .ub
  | .output g k => if g = s.outs.gen ∧ k < s.outs.elems.length then .ok () { s with outs := { s.outs with elems := s.outs.elems.set k v } } else .ub

/-- `_restore( _outputClone[i], _output[i]->data )`, src/penguinv/image_manager.h 63 and 108-111.  An exception in a destructor ends the
    program: undefined here. -/
def restore (m : Mgr) (type k id : Nat) : M (State α) Unit := fun s =>
  if m.convert (type, (s.imgs id).type) then
    match s.outs.elems[k]? with
    | some v => .ok () { s with imgs := fun j => if j = id then ⟨(s.imgs id).type, v⟩ else s.imgs j }
    | none => .ub
  else .ub

/-- `~ImageManager`, src/penguinv/image_manager.h 57-67 -/
def destroy (m : Mgr) (type : Nat) : M (State α) Unit := fun s =>
  fold (fun (p : Nat × Nat) _ => restore m type p.1 p.2) ((List.range s.outputs.length).zip s.outputs) () s

/-- The manager is a local variable: it is destroyed at the end of the call, also by an exception.
    src/penguinv/penguinv.cpp 62, src/penguinv/image_manager.h 57-67. -/
def managed (m : Mgr) (type : Nat) (body : M (State α) Unit) : M (State α) Unit := fun s =>
  match body s with
  | .ok _ s => destroy m type s
  | .throw s =>
    match destroy m type s with
    | .ok _ s => .throw s
    | _ => .ub
  | .ub => .ub

/-- The arguments of a call with one input and one output.  C++ does not say which argument is evaluated first: `outFirst`.
    src/penguinv/penguinv.cpp 62, 87. -/
def args (m : Mgr) (grow : Nat → Nat) (type : Nat) (outFirst : Bool) (i o : Nat) : M (State α) (Ref × Ref) :=
  if outFirst then do
    let ro ← manage m grow type false o
    let ri ← manage m grow type true i
    pure (ri, ro)
  else do
    let ri ← manage m grow type true i
    let ro ← manage m grow type false o
    pure (ri, ro)

/-- A call like src/penguinv/penguinv.cpp 591: `func( manager( in ), …, manager( out ), … )`.  `F` is what the function does to the output. -/
def call1 (m : Mgr) (grow : Nat → Nat) (type : Nat) (outFirst : Bool) (F : α → α → α) (i o : Nat) : M (State α) Unit :=
  managed m type (do
    let r ← args m grow type outFirst i o
    let a ← deref r.1
    let b ← deref r.2
    assign r.2 (F a b))

/-- A call like src/penguinv/penguinv.cpp 86-87 with two inputs and an output, arguments evaluated from left to right. -/
def call2 (m : Mgr) (grow : Nat → Nat) (type : Nat) (F : α → α → α → α) (i1 i2 o : Nat) : M (State α) Unit :=
  managed m type (do
    let r1 ← manage m grow type true i1
    let r2 ← manage m grow type true i2
    let ro ← manage m grow type false o
    let a ← deref r1
    let b ← deref r2
    let c ← deref ro
    assign ro (F a b c))

/-- A call like src/penguinv/penguinv.cpp 118 which passes the images as they are: a function must not be given images of another type, whose
    memory it cannot access. -/
def callPlain (type : Nat) (F : α → α → α) (i o : Nat) : M (State α) Unit := fun s =>
  if (s.imgs i).type = type ∧ (s.imgs o).type = type then
    .ok () { s with imgs := fun k => if k = o then ⟨type, F (s.imgs i).val (s.imgs o).val⟩ else s.imgs k }
  else .ub

/-- A caller with these images and a new ImageManager. src/penguinv/image_manager.h 51-55. -/
def start (imgs : Nat → Img α) : State α := ⟨imgs, ⟨0, 0, []⟩, ⟨0, 0, []⟩, []⟩

end PV.TypeManager
