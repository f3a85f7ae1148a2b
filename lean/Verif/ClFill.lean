import Verif.Core
/-
  Model of `memorySet` with a pattern of one byte (src/opencl/opencl_device.cpp 50-57, 74-94, 113-119) in several threads: the kernel is
  one object for all threads which use the device; the mutex only guards the map of kernels.

  A call is the sequence of actions reset, four arguments, launch; actions of different threads may be interleaved in any order, each
  action is atomic (real threads can interleave inside of `_setArgument` too).  An argument with a wrong index or of a wrong kind is an
  error of the library.  A launch which meets a missing argument is an error.  The kernel writes the bytes at the given place.
-/
namespace PV.ClFill
open PV

/-- A value given to the kernel: memory, a 32 bit number or a byte -/
inductive Arg where
  | mem (b : Nat)
  | num (n : Nat)
  | byte (v : UInt8)
deriving DecidableEq

/-- One call of `memorySet`. src/opencl/opencl_device.cpp 111. -/
structure Call where
  data : Nat
  offset : Nat
  size : Nat
  value : UInt8
deriving DecidableEq

/-- `OpenCLKernel`: `_parameterId` and the arguments of `_kernel`. src/opencl/opencl_device.h 112-158. -/
structure Kern where
  param : Nat
  args : Nat → Option Arg

/-- The kernel and the memory of the device: the byte at a place of a block. src/opencl/opencl_device.cpp 60-84. -/
structure State where
  kern : Kern
  bytes : Nat → Nat → UInt8

/-- Actions of a call. src/opencl/opencl_device.cpp 113-119. -/
inductive Act where
  | reset
  | arg (a : Arg)
  | launch (threads : Nat)
deriving DecidableEq

/-- What one call does (opencl_device.cpp 113-119; `setArgument`, opencl_device.h 138-151): offset and size are converted to 32 bits. -/
def actions (c : Call) : List Act := [.reset, .arg (.mem c.data), .arg (.num (u32 c.offset)), .arg (.num (u32 c.size)), .arg (.byte c.value), .launch c.size]

/-- Whether `clSetKernelArg` accepts a value: the parameters of `memsetOpenCL` (opencl_device.cpp 51) -/
def accepts (i : Nat) : Arg → Bool
  | .mem _ => i == 0
  | .num _ => i == 1 || i == 2
  | .byte _ => i == 3

/-- The kernel (opencl_device.cpp 50-57) in at least n threads; threads behind the size do nothing. -/
def memset (b off size n : Nat) (v : UInt8) (m : Nat → Nat → UInt8) : Nat → Nat → UInt8 := fun b' i =>
  if b' = b ∧ off ≤ i ∧ i < off + min size n then v else m b' i

/-- The launch with the arguments as they are. src/opencl/opencl_device.cpp 113-119. -/
def launchArgs (n : Nat) (s : State) : Option Arg → Option Arg → Option Arg → Option Arg → Option State
  | some (.mem b), some (.num off), some (.num size), some (.byte v) => some { s with bytes := memset b off size n v s.bytes }
  | _, _, _, _ => none

/-- One action: `none` is an exception. src/opencl/opencl_device.cpp 113-119. -/
def act (s : State) : Act → Option State
  | .reset => some { s with kern := { s.kern with param := 0 } }
  | .arg a =>
    if accepts s.kern.param a then some { s with kern := ⟨s.kern.param + 1, fun i => if i = s.kern.param then some a else s.kern.args i⟩ }
    else none
  | .launch n => launchArgs n s (s.kern.args 0) (s.kern.args 1) (s.kern.args 2) (s.kern.args 3)

/-- Actions one after another. src/opencl/opencl_device.cpp 113-119. -/
def acts (s : State) : List Act → Option State
  | [] => some s
  | a :: l =>
    match act s a with
    | some s1 => acts s1 l
    | none => none

end PV.ClFill
