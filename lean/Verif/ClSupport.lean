import Verif.ClDevice
/-
  Model of the choice of device types and of `isOpenCLSupported`: src/opencl/opencl_helper.cpp 28-31, 88-136, and of what
  `OpenCLDeviceManager::resetSupportedDevice` (src/opencl/opencl_device.cpp 430-476, ClDevice.lean) is told by the driver for these types.

  The driver answers as the OpenCL standard demands: `clGetDeviceIDs` fails without device types (`CL_INVALID_DEVICE_TYPE`) and when there is no
  device of the types (`CL_DEVICE_NOT_FOUND`).  Apart from this any call may fail.
-/
namespace PV.ClSupport
open PV

/-- `CL_DEVICE_TYPE_GPU` and `CL_DEVICE_TYPE_CPU`. src/opencl/opencl_helper.cpp 107. -/
inductive Kind where
  | gpu | cpu
deriving DecidableEq, Repr

/-- A platform of the machine: its devices, whether the first and the second call of `clGetDeviceIDs` are answered.
    src/opencl/opencl_device.cpp 453-456. -/
structure Hw where
  devices : List (Kind × Nat)
  first : Bool
  second : Bool

/-- What the machine has: the platforms, none if a call of `clGetPlatformIDs` fails. src/opencl/opencl_helper.cpp 94-105. -/
abbrev Machine := Option (List Hw)

/-- `isGPUSupportEnabled`, `isCPUSupportEnabled`. src/opencl/opencl_helper.cpp 30-31. -/
structure Types where
  gpu : Bool
  cpu : Bool
deriving DecidableEq, Repr

/-- src/opencl/opencl_helper.cpp 30-31 -/
def Types.initial : Types := ⟨true, false⟩

/-- `enableDeviceSupport`, src/opencl/opencl_helper.cpp 126-130 -/
def enableDeviceSupport (gpu cpu : Bool) (_ : Types) : Types := ⟨gpu, cpu⟩

/-- `getDeviceSupportStatus`, src/opencl/opencl_helper.cpp 132-136 -/
def getDeviceSupportStatus (t : Types) : Bool × Bool := (t.gpu, t.cpu)

/-- Whether a device type is in `deviceType`. src/opencl/opencl_helper.cpp 107. -/
def Types.has (t : Types) : Kind → Bool
  | .gpu => t.gpu
  | .cpu => t.cpu

/-- The devices of the types in a platform. Not in the code: what the driver does. -/
def Hw.matching (p : Hw) (t : Types) : List Nat := (p.devices.filter fun d => t.has d.1).map Prod.snd

/-- `clGetDeviceIDs( platform, deviceType, 0, NULL, &deviceCount )`. src/opencl/opencl_helper.cpp 112, src/opencl/opencl_device.cpp 453. -/
def Hw.query (p : Hw) (t : Types) : Option (List Nat) :=
  if !t.gpu && !t.cpu then none
  else if !p.first then none
  else if p.matching t = [] then none
  else some (p.matching t)

/-- The loop over platforms, src/opencl/opencl_helper.cpp 109-121 -/
def anyDevice (t : Types) : List Hw → Bool
  | [] => false
  | p :: l =>
    match p.query t with
    | none => anyDevice t l
    | some ds => if 0 < ds.length then true else anyDevice t l

/-- `isOpenCLSupported`, src/opencl/opencl_helper.cpp 88-124 -/
def isOpenCLSupported (m : Machine) (t : Types) : Bool :=
  if !t.gpu && !t.cpu then false
  else
    match m with
    | none => false
    | some ps => if ps.length = 0 then false else anyDevice t ps

/-- What `resetSupportedDevice` is told. src/opencl/opencl_device.cpp 430-456. -/
def platforms (m : Machine) (t : Types) : Option (List ClDevice.Platform) := m.map fun ps => ps.map fun p => ⟨p.query t, p.second⟩

/-- `resetSupportedDevice` on a machine. src/opencl/opencl_device.cpp 430-476. -/
def reset (usable : Nat → Bool) (m : Machine) (t : Types) : M ClDevice.Mgr Unit := ClDevice.resetSupportedDevice usable (platforms m t)

/-- Types after a history of `enableDeviceSupport`. src/opencl/opencl_helper.cpp 126-130. -/
def history : List (Bool × Bool) → Types → Types
  | [], t => t
  | e :: l, t => history l (enableDeviceSupport e.1 e.2 t)

end PV.ClSupport
