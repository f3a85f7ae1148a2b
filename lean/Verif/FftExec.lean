import Verif.Core
/-
  Model of executors of Fourier transforms as objects which own plans: `BaseFFTExecutor` of src/math/fft_base.h 155-174 and
  src/math/fft_base.cpp, with `FFTExecutor` of src/fft.cpp 143-220 (`cpu`, a plan for each direction) and of src/cuda/cuda_fft.cu 171-232
  (`cuda`, one plan).

  The state is the plans which exist, the executors which exist and the next handle (handles are not 0).  Making a plan may fail: on the host
  it gives 0, on the device an exception.  Releasing or using a plan which does not exist is undefined.  What a plan does with data is the
  matter of the library (see Kiss.lean for the host); here a transform is the plan and the direction with which the library is called.
-/
namespace PV.FftExec
open PV

/-- `FFT::FFTExecutor` (src/fft.h 59) or `FFT_Cuda::FFTExecutor` (src/cuda/cuda_fft.cuh 61). -/
inductive Kind where
  | cpu
  | cuda
deriving DecidableEq

/-- A plan: its two sizes, and the direction (`true` is inverse) if it is for one only.
    src/fft.cpp 203-208, src/cuda/cuda_fft.cu 228-231. -/
structure Plan where
  nx : Nat
  ny : Nat
  dir : Option Bool
deriving DecidableEq

/-- `_planDirect` (`plan false`) and `_planInverse` (`plan true`), or `_plan` (`plan false`); `_width`, `_height`.
    src/fft.h 76-77, src/math/fft_base.h 167-168. -/
structure Exec where
  plan : Bool → Nat
  width : Nat
  height : Nat

/-- Not in the code: machinery of the model. -/
structure World where
  execs : Nat → Option Exec
  plans : Nat → Option Plan
  next : Nat

/-- What happens to one operation: the first and the second plan can be made, the transform on the device works.
    Not in the code: machinery of the model. -/
structure Env where
  make : Bool → Bool
  run : Bool

/-- Not in the code: machinery of the model. -/
def upd {κ β : Type} [DecidableEq κ] (f : κ → β) (i : κ) (x : β) : κ → β := fun j => if j = i then x else f j

/-- The executor named i: using an executor which does not exist is undefined. Not in the code: machinery of the model. -/
def exec (i : Nat) : M World Exec := fun w =>
  match w.execs i with
  | some o => .ok o w
  | none => .ub

/-- Not in the code: machinery of the model. -/
def setExec (i : Nat) (o : Exec) : M World Unit := fun w => .ok () { w with execs := upd w.execs i (some o) }

/-- `kiss_fft_free`, `cufftDestroy`. src/fft.cpp 213, 219, src/cuda/cuda_fft.cu 222. -/
def freePlan (h : Nat) : M World Unit := fun w =>
  match w.plans h with
  | some _ => .ok () { w with plans := upd w.plans h none }
  | none => .ub

/-- The plan of a handle. src/fft.cpp 165, 178. -/
def planOf (h : Nat) : M World Plan := fun w =>
  match w.plans h with
  | some p => .ok p w
  | none => .ub

/-- A new plan. src/fft.cpp 206-207, src/cuda/cuda_fft.cu 230. -/
def newPlan (p : Plan) : M World Nat := fun w => .ok w.next { w with plans := upd w.plans w.next (some p), next := w.next + 1 }

/-- One `if` of `_cleanPlans` (fft.cpp 210-223; cuda_fft.cu 219-226) -/
def cleanPlan (i : Nat) (k : Bool) : M World Unit := do
  let o ← exec i
  if o.plan k ≠ 0 then do
    freePlan (o.plan k)
    setExec i { o with plan := upd o.plan k 0 }
  else pure ()

/-- `_clean` (fft_base.cpp 54-59); the executor for CUDA has only the first plan. -/
def clean (i : Nat) : M World Unit := do
  cleanPlan i false
  cleanPlan i true
  let o ← exec i
  setExec i { o with width := 0, height := 0 }

/-- One line of `_makePlans` on the host (fft.cpp 206-207) -/
def makePlan (e : Env) (i : Nat) (k : Bool) : M World Unit := do
  let o ← exec i
  let h ← if e.make k then newPlan ⟨o.width, o.height, some k⟩ else pure 0
  setExec i { o with plan := upd o.plan k h }

/-- `_makePlans` (fft.cpp 203-208; cuda_fft.cu 228-232) -/
def makePlans (kind : Kind) (e : Env) (i : Nat) : M World Unit :=
  match kind with
  | .cpu => do
    makePlan e i false
    makePlan e i true
  | .cuda => do
    let o ← exec i
    throwIf (!e.make false)
    let h ← newPlan ⟨o.width, o.height, none⟩
    setExec i { o with plan := upd o.plan false h }

/-- `initialize` (fft_base.cpp 33-42) -/
def initialise (kind : Kind) (e : Env) (i w h : Nat) : M World Unit := do
  throwIf (w == 0 || h == 0)
  clean i
  let o ← exec i
  setExec i { o with width := w, height := h }
  makePlans kind e i

/-- The constructor (fft.cpp 143-148; cuda_fft.cu 171-175).  If it throws there is no executor, and its destructor does not run. -/
def construct (kind : Kind) (e : Env) (i w h : Nat) : M World Unit := fun s =>
  match s.execs i with
  | some _ => .ub
  | none =>
    match initialise kind e i w h { s with execs := upd s.execs i (some ⟨fun _ => 0, 0, 0⟩) } with
    | .throw s' => .throw { s' with execs := upd s'.execs i none }
    | r => r

/-- The copy constructor, which every compiler makes: all members are copied. src/fft.h 59-81 declares none. -/
def copyExec (i j : Nat) : M World Unit := fun s =>
  match s.execs i, s.execs j with
  | none, some o => .ok () { s with execs := upd s.execs i (some o) }
  | _, _ => .ub

/-- Not in the code: machinery of the model. -/
def dropExec (i : Nat) : M World Unit := fun s => .ok () { s with execs := upd s.execs i none }

/-- The destructor (fft.cpp 150-153; cuda_fft.cu 177-180) -/
def destroy (i : Nat) : M World Unit := do
  clean i
  dropExec i

/-- `directTransform`, `inverseTransform` (fft.cpp 155-179; cuda_fft.cu 182-208) of data of size a to data of size b: what the library is told to do. -/
def transform (kind : Kind) (e : Env) (i : Nat) (inv : Bool) (a b : Nat × Nat) : M World (Nat × Nat × Bool) := do
  let o ← exec i
  let h := o.plan (inv && decide (kind = .cpu))
  throwIf (h == 0 || !(o.width == a.1 && o.height == a.2) || !(a.1 == b.1 && a.2 == b.2))
  let p ← planOf h
  throwIf (decide (kind = .cuda) && !e.run)
  pure (p.nx, p.ny, p.dir.getD inv)

/-- What a program can do with executors. Not in the code: machinery of the model. -/
inductive Op where
  | new (i w h : Nat)
  | initialise (i w h : Nat)
  | copy (i j : Nat)
  | destroy (i : Nat)
  | transform (i : Nat) (inv : Bool) (a b : Nat × Nat)

/-- Not in the code: machinery of the model. -/
def step (kind : Kind) (e : Env) : Op → M World (Option (Nat × Nat × Bool))
  | .new i w h => do
    construct kind e i w h
    pure none
  | .initialise i w h => do
    FftExec.initialise kind e i w h
    pure none
  | .copy i j => do
    copyExec i j
    pure none
  | .destroy i => do
    FftExec.destroy i
    pure none
  | .transform i inv a b => do
    let r ← FftExec.transform kind e i inv a b
    pure (some r)

end PV.FftExec
