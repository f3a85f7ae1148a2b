import Verif.Core
/-
  Model of CUDA devices and their manager: src/cuda/cuda_device.cu, src/cuda/cuda_device.cuh, and `getCudaStream` of
  src/cuda/cuda_helper.cu.

  The state are the devices which were initialised, and for every thread the default device of the library (`thread_local
  defaultDeviceId`) and the current device of the CUDA runtime.  A call of the runtime may fail (`Env`), except switching back to the
  device which was current before (`~DeviceAutoRestorer`).  Calls of several threads do not overlap (the manager has no lock).
  The memory pool of a device is modelled in DeviceAlloc.lean.  Setters and getters of a device are calls on `device( id )`: references
  kept after the device was closed are not modelled.  A failure in a destructor ends the process; it counts as undefined here.
-/
namespace PV.CudaDevice
open PV

/-- `CudaDevice`: the members which are modelled. A stream is represented by the device on which it was created.
    src/cuda/cuda_device.cuh 86-91. -/
structure Dev where
  id : Int
  /-- `_deviceProperty.maxThreadsPerBlock` -/
  threads : Int
  /-- `_backupDeviceProperty.maxThreadsPerBlock` -/
  maxThreads : Int
  /-- `_currentStreamId` -/
  cur : Nat
  /-- `_stream` -/
  streams : List Int
deriving DecidableEq

/-- The manager (`_supportedDeviceCount`, `_device`), the default devices and the runtime's current devices of all threads.
    src/cuda/cuda_device.cuh 128-129, src/cuda/cuda_device.cu 35. -/
structure Mgr where
  supported : Int
  devs : List Dev
  active : Nat → Int
  cuda : Nat → Int

/-- What one call meets: the properties of devices (threads per block), and whether calls of the runtime succeed.
    src/cuda/cuda_device.cu 57-105, 272, 394. -/
structure Env where
  hw : Int → Int
  props : Bool
  setOk : Bool
  mem : Bool
  /-- whether the k-th stream can be created -/
  stream : Nat → Bool
  sync : Bool

/-- Not in the code: machinery of the model. -/
def upd {β : Type} (f : Nat → β) (i : Nat) (x : β) : Nat → β := fun j => if j = i then x else f j

/-- `cudaCheck( cudaSetDevice( id ) )`. src/cuda/cuda_device.cu 57, 63, 272. -/
def cudaSet (e : Env) (t : Nat) (id : Int) : M Mgr Unit := fun s =>
  if e.setOk then .ok () { s with cuda := upd s.cuda t id } else .throw s

/-- `setDefaultDeviceId` (cuda_device.cu 37-40) -/
def setDefault (t : Nat) (id : Int) : M Mgr Unit := fun s => .ok () { s with active := upd s.active t id }

/-- `~DeviceAutoRestorer` (cuda_device.cu 60-66) -/
def restore (t : Nat) (prev : Int) (s : Mgr) : Mgr := { s with cuda := upd s.cuda t prev, active := upd s.active t prev }

/-- A scope with a `DeviceAutoRestorer` (cuda_device.cu 49-71): the destructor runs at the end and for exceptions. -/
def withDevice (e : Env) (t : Nat) (id : Int) (body : M Mgr Dev) : M Mgr Dev := fun s =>
  if id ≠ s.active t then
    match cudaSet e t id s with
    | .ok _ s1 =>
      match body s1 with
      | .ok d s2 => .ok d (restore t (s.active t) s2)
      | .throw s2 => .throw (restore t (s.active t) s2)
      | .ub => .ub
    | .throw s1 => .throw s1
    | .ub => .ub
  else body s

/-- `CudaDevice( deviceId_ )` (cuda_device.cu 90-112); the first `if` only makes an exception and drops it -/
def newDev (e : Env) (t : Nat) (id : Int) : M Mgr Dev :=
  if e.props then
    withDevice e t id (if e.mem then pure ⟨id, e.hw id, e.hw id, 0, []⟩ else throwE)
  else throwE

/-- `CudaDevice::setActive` (cuda_device.cu 270-274) -/
def setActive (e : Env) (t : Nat) (id : Int) : M Mgr Unit := do
  cudaSet e t id
  setDefault t id

/-- `~CudaDevice` (cuda_device.cu 123-130): an exception in a destructor ends the process. -/
def deleteDev (e : Env) (t : Nat) (id : Int) : M Mgr Unit := fun s =>
  match setActive e t id s with
  | .ok _ s1 => .ok () s1
  | _ => .ub

/-- `find_if` with the ID of a device. src/cuda/cuda_device.cu 308, 319, 360, 383. -/
def find (l : List Dev) (id : Int) : Option Dev := l.find? fun d => d.id == id

/-- `initializeDevice` (cuda_device.cu 303-312) -/
def initializeDevice (e : Env) (t : Nat) (id : Int) : M Mgr Unit := fun s =>
  if id < 0 ∨ id ≥ s.supported then .throw s
  else match find s.devs id with
    | some _ => .ok () s
    | none =>
      match newDev e t id s with
      | .ok d s1 => .ok () { s1 with devs := s1.devs ++ [d] }
      | .throw s1 => .throw s1
      | .ub => .ub

/-- The loop of `initializeDevices`: n devices from id on. src/cuda/cuda_device.cu 297-301. -/
def initFrom (e : Nat → Env) (t : Nat) : Nat → Int → M Mgr Unit
  | 0, _ => pure ()
  | n + 1, id => do
    initializeDevice (e n) t id
    initFrom e t n (id + 1)

/-- `initializeDevices` (cuda_device.cu 297-301) -/
def initializeDevices (e : Nat → Env) (t : Nat) : M Mgr Unit := fun s => initFrom e t s.supported.toNat 0 s

/-- `closeDevice` (cuda_device.cu 314-325) -/
def closeDevice (e : Env) (t : Nat) (id : Int) : M Mgr Unit := fun s =>
  if id < 0 ∨ id ≥ s.supported then .throw s
  else match find s.devs id with
    | none => .ok () s
    | some _ =>
      match deleteDev e t id s with
      | .ok _ s1 => .ok () { s1 with devs := s1.devs.eraseP fun d => d.id == id }
      | .throw s1 => .throw s1
      | .ub => .ub

/-- The loop of `closeDevices`. src/cuda/cuda_device.cu 327-333. -/
def deleteAll (e : Env) (t : Nat) : List Dev → M Mgr Unit
  | [] => pure ()
  | d :: l => do
    deleteDev e t d.id
    deleteAll e t l

/-- `closeDevices` (cuda_device.cu 327-333) -/
def closeDevices (e : Env) (t : Nat) : M Mgr Unit := fun s =>
  match deleteAll e t s.devs s with
  | .ok _ s1 => .ok () { s1 with devs := [] }
  | .throw s1 => .throw s1
  | .ub => .ub

/-- `device( deviceId )` (cuda_device.cu 355-366) -/
def device (id : Int) : M Mgr Dev := fun s =>
  if s.devs = [] then .throw s
  else match find s.devs id with
    | some d => .ok d s
    | none => .throw s

/-- `device()` (cuda_device.cu 345-348) -/
def deviceOf (t : Nat) : M Mgr Dev := fun s => device (s.active t) s

/-- `setActiveDevice` (cuda_device.cu 381-389) -/
def setActiveDevice (e : Env) (t : Nat) (id : Int) : M Mgr Unit := fun s =>
  match find s.devs id with
  | none => .throw s
  | some d => setActive e t d.id s

/-- A member function changes the device with this ID. Not in the code: machinery of the model. -/
def modify (id : Int) (f : Dev → Dev) : M Mgr Unit := fun s =>
  .ok () { s with devs := s.devs.map fun d => if d.id = id then f d else d }

/-- `static_cast<int>( uint32_t )` -/
def toInt32 (n : Nat) : Int := if n < 2147483648 then n else (n : Int) - 4294967296

/-- `static_cast<uint32_t>( int )` -/
def toUInt32 (n : Int) : Nat := (n % 4294967296).toNat

/-- `setThreadsPerBlock` (cuda_device.cu 189-198) -/
def setThreadsPerBlock (id : Int) (n : Nat) : M Mgr Unit := do
  let d ← device id
  if n = 0 ∨ n % 32 ≠ 0 then throwE
  else if toInt32 n ≤ d.maxThreads then modify id fun d => { d with threads := toInt32 n }
  else pure ()

/-- `threadsPerBlock`, `maximumThreadsPerBlock` (cuda_device.cu 160-168) -/
def threadsPerBlock (id : Int) : M Mgr Nat := do
  let d ← device id
  pure (toUInt32 d.threads)

/-- src/cuda/cuda_device.cu 165-168. -/
def maximumThreadsPerBlock (id : Int) : M Mgr Nat := do
  let d ← device id
  pure (toUInt32 d.maxThreads)

/-- `synchronize` (cuda_device.cu 200-203) waits for the runtime's current device: the result. -/
def synchronize (e : Env) (t : Nat) (id : Int) : M Mgr Int := do
  let _ ← device id
  fun s => if e.sync then .ok (s.cuda t) s else .throw s

/-- `setCurrentStreamId` (cuda_device.cu 210-214) -/
def setCurrentStreamId (id : Int) (k : Nat) : M Mgr Unit := do
  let d ← device id
  if d.cur ≠ k ∧ k < d.streams.length then modify id fun d => { d with cur := k } else pure ()

/-- `stream()` (cuda_device.cu 216-224): access outside of a vector is undefined. -/
def streamOf (d : Dev) : M Mgr Int := orUb d.streams[d.cur]?

/-- src/cuda/cuda_device.cu 216-219. -/
def stream (id : Int) : M Mgr Int := do
  let d ← device id
  streamOf d

/-- `new CudaStream()`, on the runtime's current device (cuda_device.cu 391-395), and `push_back` (cuda_device.cu 245-246) -/
def pushStream (good : Bool) (t : Nat) (id : Int) : M Mgr Unit := fun s =>
  if good then .ok () { s with devs := s.devs.map fun d => if d.id = id then { d with streams := d.streams ++ [s.cuda t] } else d } else .throw s

/-- n streams are added. src/cuda/cuda_device.cu 241-258. -/
def pushStreams (e : Env) (t : Nat) (id : Int) : Nat → M Mgr Unit
  | 0 => pure ()
  | n + 1 => do
    pushStream (e.stream n) t id
    pushStreams e t id n

/-- `setStreamCount` (cuda_device.cu 241-258) -/
def setStreamCount (e : Env) (t : Nat) (id : Int) (n : Nat) : M Mgr Unit := do
  let d ← device id
  if n > d.streams.length then pushStreams e t id (n - d.streams.length)
  else if n < d.streams.length then modify id fun d => { d with cur := if d.cur ≥ n then 0 else d.cur, streams := d.streams.take n }
  else pure ()

/-- `getCudaStream` (cuda_helper.cu 238-246): the device of the stream in which a kernel is started; `none` is the default stream. -/
def getCudaStream (t : Nat) : M Mgr (Option Int) := do
  let d ← deviceOf t
  if d.streams.length > 0 then do
    let c ← streamOf d
    pure (some c)
  else pure none

/-- What threads can do. Not in the code: machinery of the model. -/
inductive Op where
  | init (id : Int)
  | close (id : Int)
  | closeAll
  | setActive (id : Int)
  | setThreads (id : Int) (n : Nat)
  | setCurrent (id : Int) (k : Nat)
  | setStreams (id : Int) (n : Nat)
  | sync (id : Int)

/-- Not in the code: machinery of the model. -/
def step (e : Env) (t : Nat) : Op → M Mgr Unit
  | .init id => initializeDevice e t id
  | .close id => closeDevice e t id
  | .closeAll => closeDevices e t
  | .setActive id => setActiveDevice e t id
  | .setThreads id n => setThreadsPerBlock id n
  | .setCurrent id k => setCurrentStreamId id k
  | .setStreams id n => setStreamCount e t id n
  | .sync id => do
    let _ ← synchronize e t id
    pure ()

end PV.CudaDevice
