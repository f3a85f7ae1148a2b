import Verif.Core
/-
  Model of OpenCL devices and their manager: src/opencl/opencl_device.cpp, src/opencl/opencl_device.h, the programs kept by
  src/opencl/image_function_opencl.cpp 374-389, and `CreateProgramFromFile` of src/opencl/opencl_helper.cpp.

  The state are the supported devices (`cl_device_id` as number), the devices which were initialised, the default device of every thread
  and the programs kept for devices.  A context is a number, new for each `clCreateContext`.  Calls of the OpenCL library may fail (`Env`).
  Calls of several threads do not overlap here (the manager has no lock); see ClFill.lean for `memorySet` in several threads.
  Setters are calls on `device( id )`: references kept after the device was closed are not modelled.
-/
namespace PV.ClDevice
open PV

/-- `OpenCLDevice`: `_deviceId`, `_context`, `_currentQueueId` and the number of queues. src/opencl/opencl_device.h 283-289. -/
structure Dev where
  cl : Nat
  ctx : Nat
  cur : Nat
  queues : Nat
deriving DecidableEq

/-- The manager (`_supportedDeviceId`, `_device`), the default devices of threads, the next context; and for `cl_device_id` the context
    of the program kept by `GetProgram` (`some none` is an entry without program) and of the kernel kept by `getMemsetKernel`.
    src/opencl/opencl_device.h 354-357, src/opencl/opencl_device.cpp 38-48. -/
structure Mgr where
  supported : List Nat
  devs : List Dev
  active : Nat → Nat
  next : Nat
  prog : Nat → Option (Option Nat)
  memset : Nat → Option Nat

/-- Whether calls of the OpenCL library succeed. -/
structure Env where
  ctx : Bool
  mem : Bool
  /-- whether the k-th queue can be created -/
  queue : Nat → Bool
  build : Bool
  run : Bool
  /-- whether in `a[k] = f()` the element is made before the call (unspecified before C++17) -/
  leftFirst : Bool

/-- Not in the code: machinery of the model. -/
def upd {β : Type} (f : Nat → β) (i : Nat) (x : β) : Nat → β := fun j => if j = i then x else f j

/-- `find_if` with the `cl_device_id` of a device. src/opencl/opencl_device.cpp 345, 359, 393, 421. -/
def find (l : List Dev) (c : Nat) : Option Dev := l.find? fun d => d.cl == c

/-- A member function changes the device. Not in the code: machinery of the model. -/
def modify (c : Nat) (f : Dev → Dev) : M Mgr Unit := fun s =>
  .ok () { s with devs := s.devs.map fun d => if d.cl = c then f d else d }

/-- `OpenCLDevice( deviceId )` (opencl_device.cpp 226-234): the context, the memory pool and one queue. An exception leaves no device. -/
def newDev (e : Env) (c : Nat) : M Mgr Dev := fun s =>
  if e.ctx then
    if e.mem ∧ e.queue 0 then .ok ⟨c, s.next, 0, 1⟩ { s with next := s.next + 1 } else .throw { s with next := s.next + 1 }
  else .throw s

/-- The new device is added (opencl_device.cpp 347-349) -/
def addDev (e : Env) (c : Nat) : M Mgr Unit := do
  let d ← newDev e c
  fun s => .ok () { s with devs := s.devs ++ [d] }

/-- `initializeDevice` (opencl_device.cpp 338-350) -/
def initializeDevice (e : Env) (id : Nat) : M Mgr Unit := fun s =>
  match s.supported[id]? with
  | none => .throw s
  | some c =>
    match find s.devs c with
    | some _ => .ok () s
    | none => addDev e c s

/-- The loop of `initializeDevices` (opencl_device.cpp 331-336): n devices from id on -/
def initFrom (e : Nat → Env) : Nat → Nat → M Mgr Unit
  | 0, _ => pure ()
  | n + 1, id => do
    initializeDevice (e id) id
    initFrom e n (id + 1)

/-- `initializeDevices` (opencl_device.cpp 331-336) -/
def initializeDevices (e : Nat → Env) : M Mgr Unit := fun s => initFrom e s.supported.length 0 s

/-- `closeDevice` (opencl_device.cpp 352-365) -/
def closeDevice (id : Nat) : M Mgr Unit := fun s =>
  match s.supported[id]? with
  | none => .throw s
  | some c => .ok () { s with devs := s.devs.eraseP fun d => d.cl == c }

/-- `closeDevices` (opencl_device.cpp 367-374) -/
def closeDevices : M Mgr Unit := fun s => .ok () { s with devs := [] }

/-- `device( deviceId )` (opencl_device.cpp 386-400): the supported device is read for the first device looked at, outside of the vector
    if there is no such device. -/
def device (id : Nat) : M Mgr Dev := fun s =>
  if s.devs = [] then .throw s
  else match s.supported[id]? with
    | none => .ub
    | some c =>
      match find s.devs c with
      | some d => .ok d s
      | none => .throw s

/-- `device()` (opencl_device.cpp 376-379) -/
def deviceOf (t : Nat) : M Mgr Dev := fun s => device (s.active t) s

/-- `setActiveDevice` (opencl_device.cpp 418-428) -/
def setActiveDevice (t : Nat) (id : Nat) : M Mgr Unit := do
  let _ ← device id
  fun s => .ok () { s with active := upd s.active t id }

/-- `setCurrentQueueId` (opencl_device.h 234-239) -/
def setCurrentQueueId (id k : Nat) : M Mgr Unit := do
  let d ← device id
  if d.cur ≠ k ∧ k < d.queues then modify d.cl fun d => { d with cur := k } else pure ()

/-- A queue is made and added (opencl_device.cpp 308). -/
def pushQueue (good : Bool) (c : Nat) : M Mgr Unit := fun s =>
  if good then modify c (fun d => { d with queues := d.queues + 1 }) s else .throw s

/-- n queues are added (opencl_device.cpp 307-309). -/
def pushQueues (e : Env) (c : Nat) : Nat → M Mgr Unit
  | 0 => pure ()
  | n + 1 => do
    pushQueue (e.queue n) c
    pushQueues e c n

/-- `setQueueCount` (opencl_device.cpp 298-323) after the limit -/
def setQueues (e : Env) (d : Dev) (n : Nat) : M Mgr Unit :=
  if n > d.queues then pushQueues e d.cl (n - d.queues)
  else if n < d.queues then modify d.cl fun d => { d with cur := if d.cur ≥ n then 0 else d.cur, queues := n }
  else pure ()

/-- `setQueueCount` (opencl_device.cpp 298-323) -/
def setQueueCount (e : Env) (id n : Nat) : M Mgr Unit := do
  let d ← device id
  setQueues e d (if n > 255 then 255 else n)

/-- `queue()` (opencl_device.h 242-250): access outside of a vector is undefined. -/
def queueOf (d : Dev) : M Mgr Nat := if d.cur < d.queues then pure d.cur else ubE

/-- A kernel of a program in a context is started in the current queue of a device (opencl_helper.cpp 76-84): an error
    (`CL_INVALID_CONTEXT`) if the contexts differ. -/
def launch (e : Env) (d : Dev) (ctx : Nat) : M Mgr Unit := do
  let _ ← queueOf d
  if ctx = d.ctx ∧ e.run then pure () else throwE

/-- `GetProgram` for a device (image_function_opencl.cpp 374-389): the context of the program -/
def programOf (e : Env) (d : Dev) : M Mgr Nat := fun s =>
  match s.prog d.cl with
  | some (some c) => .ok c s
  | some none => .ub
  | none =>
    if e.build then .ok d.ctx { s with prog := upd s.prog d.cl (some (some d.ctx)) }
    else if e.leftFirst then .throw { s with prog := upd s.prog d.cl (some none) }
    else .throw s

/-- A function on images: the program, its kernel and the launch.
    src/opencl/image_function_opencl.cpp 374-389 and every function after it. -/
def runProgram (e : Env) (t : Nat) : M Mgr Unit := do
  let d ← deviceOf t
  let c ← programOf e d
  let d ← deviceOf t
  launch e d c

/-- `getMemsetKernel` (opencl_device.cpp 74-94) for a device: the context of the kernel -/
def memsetOf (e : Env) (d : Dev) : M Mgr Nat := fun s =>
  match s.memset d.cl with
  | some c => .ok c s
  | none => if e.build then .ok d.ctx { s with memset := upd s.memset d.cl (some d.ctx) } else .throw s

/-- `memorySet` with a pattern of one byte (opencl_device.cpp 113-119) -/
def memorySet (e : Env) (t : Nat) : M Mgr Unit := do
  let d ← deviceOf t
  let c ← memsetOf e d
  let d ← deviceOf t
  launch e d c

/-- What threads can do. Not in the code: machinery of the model. -/
inductive Op where
  | init (id : Nat)
  | close (id : Nat)
  | closeAll
  | setActive (id : Nat)
  | setCurrent (id k : Nat)
  | setQueues (id n : Nat)
  | program
  | fill
deriving DecidableEq

/-- Not in the code: machinery of the model. -/
def step (e : Env) (t : Nat) : Op → M Mgr Unit
  | .init id => initializeDevice e id
  | .close id => closeDevice id
  | .closeAll => closeDevices
  | .setActive id => setActiveDevice t id
  | .setCurrent id k => setCurrentQueueId id k
  | .setQueues id n => setQueueCount e id n
  | .program => runProgram e t
  | .fill => memorySet e t

/-! ## The list of supported devices -/

/-- One platform: the result of the first `clGetDeviceIDs` (the devices of the enabled types), and whether the second one succeeds.
    src/opencl/opencl_device.cpp 453-456. -/
structure Platform where
  devices : Option (List Nat)
  second : Bool

/-- The loop which makes a context for each device (opencl_device.cpp 461-471): a failure lowers the count and the same device is tried again. -/
def checkLoop (usable : Nat → Bool) (sup : List Nat) (base : Nat) : Nat → Nat → Nat → Option Nat
  | 0, _, _ => none
  | fuel + 1, id, count =>
    if id < count then
      match sup[base + id]? with
      | none => none
      | some d => if usable d then checkLoop usable sup base fuel (id + 1) count else checkLoop usable sup base fuel id (count - 1)
    else some count

/-- One platform in the loop of `resetSupportedDevice` (opencl_device.cpp 451-475); the state are `_supportedDeviceId` and
    `supportedDeviceCount`. The second query overwrites what `resize` kept behind the count. -/
def scanPlatform (usable : Nat → Bool) (p : Platform) (s : List Nat × Nat) : Option (List Nat × Nat) :=
  match p.devices with
  | none => some s
  | some l =>
    if p.second then
      let sup := s.1.take s.2 ++ l
      match checkLoop usable sup s.2 (2 * l.length + 1) 0 l.length with
      | some n => some (sup, s.2 + n)
      | none => none
    else some (s.1.take s.2, s.2)

/-- The platforms one after another. src/opencl/opencl_device.cpp 451-475. -/
def scanPlatforms (usable : Nat → Bool) : List Platform → List Nat × Nat → Option (List Nat × Nat)
  | [], s => some s
  | p :: l, s =>
    match scanPlatform usable p s with
    | some s1 => scanPlatforms usable l s1
    | none => none

/-- `resetSupportedDevice` (opencl_device.cpp 430-476): devices are closed, the list is made new. No platforms if they cannot be found out. -/
def resetSupportedDevice (usable : Nat → Bool) (platforms : Option (List Platform)) : M Mgr Unit := fun s =>
  match scanPlatforms usable (platforms.getD []) ([], 0) with
  | some r => .ok () { s with devs := [], supported := r.1 }
  | none => .ub

/-! ## Programs in files -/

/-- The text which a library reads at an address in a block: up to the first zero; reading past the block is undefined.
    src/opencl/opencl_device.cpp 167-172 (`clCreateProgramWithSource` with `NULL` for the lengths). -/
def cText : List UInt8 → Option (List UInt8)
  | [] => none
  | x :: l => if x = 0 then some [] else (cText l).map (x :: ·)

/-- The source which `CreateProgramFromFile` compiles (opencl_helper.cpp 156-181): the file is read into a vector of its length, which is
    given as text without length (opencl_device.cpp 171); an empty text if there is no file. -/
def programText (file : Option (List UInt8)) : M Unit (List UInt8) :=
  match file with
  | none => pure []
  | some l => orUb (cText l)

end PV.ClDevice
