import Mathlib.Data.Multiset.Basic
import Mathlib.Algebra.Order.Group.Multiset
import Mathlib.Algebra.BigOperators.Group.Multiset.Basic
import Verif.Core
/-
  Model of what the classes of src/opencl/opencl_device.h take from the OpenCL driver and give back: contexts, queues, programs, kernels
  and events, and the memory allocator made for each device.

  Every call of the driver may fail: `fail n` says whether call number n does.  A handle is a number, new for each object.  Releasing a
  handle that is not held is undefined.  A history is a list of steps of the user, who catches all exceptions; objects are named by their
  place in a list, steps about objects that do not exist are left out.  Memory of the allocators: DeviceAlloc.lean; which device is
  the active one: ClDevice.lean.  `std::bad_alloc` is left out.
-/
namespace PV.ClHandles
open PV

/-- What can be held. src/opencl/opencl_device.h 77, 109, 154, 185, 289, 292; src/opencl/opencl_helper.cpp 78. -/
inductive Kind where
  | context
  | queue
  | program
  | kernel
  | event
  | allocator
deriving DecidableEq

/-- A handle. Not in the code: machinery of the model. -/
abbrev Handle := Kind × Nat

/-- `OpenCLDevice`: `_context`, `_queue`, `_allocator`. src/opencl/opencl_device.h 284-292. -/
structure Dev where
  ctx : Nat
  queues : List Nat
  alloc : Nat
deriving DecidableEq

/-- The driver (number of calls, next handle, handles held) and the objects of the library: devices, programs (none after they have been
    moved away, src/opencl/opencl_device.h 91-95) and kernels. Not in the code: machinery of the model. -/
structure State where
  calls : Nat
  next : Nat
  live : Multiset Handle
  devs : List Dev
  progs : List (Option Nat)
  kernels : List Nat

variable (fail : Nat → Bool)

/-- A call of the driver under `openCLCheck`. src/opencl/opencl_helper.cpp 139-144. -/
def check : M State Unit := fun s =>
  if fail s.calls then .throw { s with calls := s.calls + 1 } else .ok () { s with calls := s.calls + 1 }

/-- A new object of the driver or of the host. Not in the code: machinery of the model. -/
def hold (k : Kind) : M State Nat := fun s => .ok s.next { s with next := s.next + 1, live := (k, s.next) ::ₘ s.live }

/-- `clCreate…` and `openCLCheck`. src/opencl/opencl_device.cpp 135-136, 151-154, 171-172, 211-212; src/opencl/opencl_helper.cpp 80-81. -/
def create (k : Kind) : M State Nat := do
  check fail
  hold k

/-- `clRelease…` or `delete`. src/opencl/opencl_device.cpp 141, 159, 197, 204, 217, 238-241. -/
def release (h : Handle) : M State Unit := fun s => if h ∈ s.live then .ok () { s with live := s.live.erase h } else .ub

/-- An exception leaves a constructor: members that are complete are destroyed. Not in the code: machinery of the model. -/
def unwind {α : Type} (x : M State α) (cleanup : M State Unit) : M State α := fun s =>
  match x s with
  | .ok a s1 => .ok a s1
  | .throw s1 =>
    match cleanup s1 with
    | .ok _ s2 => .throw s2
    | .throw s2 => .throw s2
    | .ub => .ub
  | .ub => .ub

/-- src/opencl/opencl_device.cpp 226-234: the context is a member, the allocator a plain pointer. The size of the memory (231, 256-262), the
    alignment (src/opencl/opencl_memory.h 47-50) and the first queue (233, 308) may fail. -/
def newDevice : M State Dev := do
  let c ← create fail .context
  unwind (do
    check fail
    check fail
    let a ← hold .allocator
    let q ← create fail .queue
    pure ⟨c, [q], a⟩) (release (.context, c))

/-- src/opencl/opencl_device.cpp 236-243 -/
def deleteQueues : List Nat → M State Unit
  | [] => pure ()
  | q :: l => do
    release (.queue, q)
    deleteQueues l

/-- src/opencl/opencl_device.cpp 236-243, 140-143 -/
def deleteDevice (d : Dev) : M State Unit := do
  release (.allocator, d.alloc)
  deleteQueues d.queues
  release (.context, d.ctx)

/-- The device at place i is changed. Not in the code: machinery of the model. -/
def setDev (i : Nat) (d : Dev) : M State Unit := fun s => .ok () { s with devs := s.devs.set i d }

/-- src/opencl/opencl_device.cpp 307-309: `n` queues more -/
def pushQueues (i : Nat) : Nat → Dev → M State Unit
  | 0, _ => pure ()
  | n + 1, d => do
    let q ← create fail .queue
    setDev i { d with queues := d.queues ++ [q] }
    pushQueues i n { d with queues := d.queues ++ [q] }

/-- src/opencl/opencl_device.cpp 298-323; `_currentQueueId` is left out. -/
def setQueueCount (i : Nat) (d : Dev) (n : Nat) : M State Unit :=
  let n := if n > 255 then 255 else n
  if n > d.queues.length then pushQueues fail i (n - d.queues.length) d
  else do
    deleteQueues (d.queues.drop n)
    setDev i { d with queues := d.queues.take n }

/-- src/opencl/opencl_device.cpp 166-199: if the program cannot be built, the devices of the context are asked for (two calls), the device
    of the thread is looked up (191; an exception if it is closed) and the program is released before the exception. -/
def newProgram : M State Nat := do
  let p ← create fail .program
  fun s =>
    if fail s.calls then (do
      check fail
      check fail
      check fail
      release (.program, p)
      throwE) { s with calls := s.calls + 1 }
    else .ok p { s with calls := s.calls + 1 }

/-- src/opencl/opencl_helper.cpp 239-244, 265-268, 76-84: the size of groups, the start and the wait. The event is not released. -/
def launch : M State Unit := do
  check fail
  let _ ← create fail .event
  check fail

/-- `synchronize` of a device: each queue. src/opencl/opencl_device.cpp 162-165, 291-296. -/
def synchronize : List Nat → M State Unit
  | [] => pure ()
  | _ :: l => do
    check fail
    synchronize l

/-- What the user can do. Not in the code: machinery of the model. -/
inductive Op where
  | newDevice
  | closeDevice (i : Nat)
  | setQueueCount (i n : Nat)
  | synchronize (i : Nat)
  | newProgram (i : Nat)
  | moveProgram (i : Nat)
  | dropProgram (i : Nat)
  | newKernel (i : Nat)
  | dropKernel (i : Nat)
  | launch (i k : Nat)
deriving DecidableEq

/-- The objects of the library after a step. src/opencl/opencl_device.cpp 338-365, opencl_device.h 91-95. -/
def step : Op → M State Unit
  | .newDevice => do
    let d ← newDevice fail
    fun s => .ok () { s with devs := s.devs ++ [d] }
  | .closeDevice i => fun s =>
    match s.devs[i]? with
    | none => .ok () s
    | some d => (do
      deleteDevice d
      fun s => .ok () { s with devs := s.devs.eraseIdx i }) s
  | .setQueueCount i n => fun s =>
    match s.devs[i]? with
    | none => .ok () s
    | some d => setQueueCount fail i d n s
  | .synchronize i => fun s =>
    match s.devs[i]? with
    | none => .ok () s
    | some d => synchronize fail d.queues s
  | .newProgram i => fun s =>
    match s.devs[i]? with
    | none => .ok () s
    | some _ => (do
      let p ← newProgram fail
      fun s => .ok () { s with progs := s.progs ++ [some p] }) s
  | .moveProgram i => fun s =>
    match s.progs[i]? with
    | none => .ok () s
    | some p => .ok () { s with progs := s.progs.set i none ++ [p] }
  | .dropProgram i => fun s =>
    match s.progs[i]? with
    | none => .ok () s
    | some none => .ok () { s with progs := s.progs.eraseIdx i }
    | some (some p) => (do
      release (.program, p)
      fun s => .ok () { s with progs := s.progs.eraseIdx i }) s
  | .newKernel i => fun s =>
    match s.progs[i]? with
    | none => .ok () s
    | some none => .throw s
    | some (some _) => (do
      let k ← create fail .kernel
      fun s => .ok () { s with kernels := s.kernels ++ [k] }) s
  | .dropKernel i => fun s =>
    match s.kernels[i]? with
    | none => .ok () s
    | some k => (do
      release (.kernel, k)
      fun s => .ok () { s with kernels := s.kernels.eraseIdx i }) s
  | .launch i k => fun s =>
    match s.devs[i]?, s.kernels[k]? with
    | some _, some _ => launch fail s
    | _, _ => .ok () s

/-- A history; exceptions are caught. None if something is undefined. Not in the code: machinery of the model. -/
def run : List Op → State → Option State
  | [], s => some s
  | o :: l, s =>
    match step fail o s with
    | .ok _ s1 => run l s1
    | .throw s1 => run l s1
    | .ub => none

/-- Before anything is done. Not in the code: machinery of the model. -/
def start : State := ⟨0, 0, 0, [], [], []⟩

end PV.ClHandles
