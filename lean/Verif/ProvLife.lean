import Verif.Core
/-
  Model of the life of task providers beside several pools, src/thread_pool.cpp 25-143 and
  206-256: construction, copies, assignment, change of the pool, destruction.

  Here every call, and the execution of one task by a worker, is one step (the interleavings
  inside of them are the subject of Threads.lean).  Using an object whose life has not begun or
  has ended is `ub`, so is calling the pure virtual `_task` of an object whose derived part has
  been destroyed.  `none` stands for a call that blocks.
-/
namespace PV.PL

/-- The life of an object of a class derived from `TaskProvider`. src/thread_pool.h 69-96. -/
inductive Life where
  /-- no object here: not constructed or destroyed completely -/
  | absent
  | alive
  /-- the destructors of the derived class and of `TaskProvider` have ended, the one of
      `AbstractTaskProvider` has begun -/
  | dying
deriving DecidableEq, Repr

/-- `TaskProvider`, src/thread_pool.h 34-88.  (`TaskProviderSingleton`, 143-154 and
    src/thread_pool.cpp 325-346, is a provider whose pool is always the one of the application.) -/
structure Prov where
  life : Life := .absent
  pool : Option Nat := none
  taskCount : Nat := 0
  given : Nat := 0
  completed : Nat := 0
  running : Bool := false
  exc : Bool := false
deriving DecidableEq, Repr

/-- `ThreadPool`, src/thread_pool.h 90-123: whether it exists, its number of threads, `_task`. -/
structure Pool where
  alive : Bool := false
  threads : Nat := 0
  queue : List Nat := []
deriving DecidableEq, Repr

/-- Not in the code: machinery of the model. -/
structure State where
  prov : Nat → Prov
  pool : Nat → Pool

/-- Not in the code: machinery of the model. -/
def State.setProv (s : State) (p : Nat) (P : Prov) : State :=
  { s with prov := fun q => if q = p then P else s.prov q }

/-- Not in the code: machinery of the model. -/
def State.setPool (s : State) (k : Nat) (K : Pool) : State :=
  { s with pool := fun j => if j = k then K else s.pool j }

/-- No object exists. Not in the code: machinery of the model. -/
def State.init : State := ⟨fun _ => {}, fun _ => {}⟩

/-- What can happen. Not in the code: machinery of the model. -/
inductive Op where
  /-- `ThreadPool( n )` -/
  | newPool (k n : Nat)
  /-- `~ThreadPool()` -/
  | endPool (k : Nat)
  /-- `TaskProvider()` and `TaskProvider( pool )` -/
  | newProv (p : Nat) (k : Option Nat)
  /-- `TaskProvider( other )` -/
  | copy (p q : Nat)
  /-- `p = q` -/
  | assign (p q : Nat)
  | setThreadPool (p : Nat) (k : Option Nat)
  | run (p n : Nat)
  | wait (p : Nat)
  /-- the destructors of the derived class and of `TaskProvider` -/
  | destroy (p : Nat)
  /-- the destructor of `AbstractTaskProvider` -/
  | destroyed (p : Nat)
  /-- a worker of pool `k` executes the first task of the list -/
  | work (k : Nat) (throws : Bool)
deriving DecidableEq, Repr

/-- `AbstractTaskProvider()`, `TaskProvider( pool )`, src/thread_pool.cpp 25-31, 95-101. -/
def fresh (k : Option Nat) : Prov := { life := .alive, pool := k }

/-- `TaskProvider::_run`, src/thread_pool.cpp 128-137, with `_ready`, 139-142, and
    `ThreadPool::add`, 206-226: the counters are set before `add` throws. -/
def run (s : State) (p n : Nat) : Res State Unit :=
  let P := s.prov p
  match P.pool with
  | none => .ok () s
  | some k =>
    if P.running = false ∧ 0 < n then
      let P' := { P with taskCount := n, given := 0, completed := 0 }
      if (s.pool k).alive then
        if (s.pool k).threads = 0 then .throw (s.setProv p P')
        else .ok () ((s.setProv p { P' with running := true }).setPool k
          { s.pool k with queue := (s.pool k).queue ++ List.replicate n p })
      else .ub
    else .ok () s

/-- `AbstractTaskProvider::_taskRun( false )`, src/thread_pool.cpp 51-78. -/
def taskRun (s : State) (p : Nat) (throws : Bool) : Res State Unit :=
  let P := s.prov p
  match P.life with
  | .absent => .ub
  | life =>
    if P.given < P.taskCount then
      if life = .dying then .ub
      else .ok () (s.setProv p { P with
        given := P.given + 1
        completed := P.completed + 1
        exc := P.exc || throws
        running := P.running && !(P.completed + 1 == P.taskCount) })
    else .ok () (s.setProv p { P with given := P.given + 1 })

/-- `ThreadPool::clear` as called by `stop` and the destructor, src/thread_pool.cpp 150-153,
    248-260: `_task( true )`, the body with id 1, for every entry, without a change of counters. -/
def clear (s : State) (l : List Nat) : Res State Unit :=
  if ∀ p ∈ l, (s.prov p).life = .alive then .ok () s else .ub

/-- One step; `none`: the call blocks, or there is nothing to do for a worker. -/
def step (s : State) : Op → Option (Res State Unit)
  /- 144-148 -/
  | .newPool k n =>
    if (s.pool k).alive then some .ub
    else some (.ok () (s.setPool k { alive := true, threads := n }))
  /- 150-153 -/
  | .endPool k =>
    if (s.pool k).alive then
      match clear s (s.pool k).queue with
      | .ok () s' => some (.ok () (s'.setPool k {}))
      | r => some r
    else some .ub
  /- 95-101 -/
  | .newProv p k =>
    if (s.prov p).life = .absent then some (.ok () (s.setProv p (fresh k))) else some .ub
  /- 33-39, 103-106 -/
  | .copy p q =>
    if (s.prov p).life = .absent ∧ (s.prov q).life = .alive then
      some (.ok () (s.setProv p (fresh (s.prov q).pool)))
    else some .ub
  /- 46-49, 114-120 -/
  | .assign p q =>
    if (s.prov p).life = .alive ∧ (s.prov q).life = .alive then
      some (.ok () (if p = q then s else s.setProv p { s.prov p with pool := (s.prov q).pool }))
    else some .ub
  /- 122-125 -/
  | .setThreadPool p k =>
    if (s.prov p).life = .alive then some (.ok () (s.setProv p { s.prov p with pool := k }))
    else some .ub
  | .run p n => if (s.prov p).life = .alive then some (run s p n) else some .ub
  /- 80-89 -/
  | .wait p =>
    if (s.prov p).life = .alive then
      if (s.prov p).running then none
      else some (.ok () (s.setProv p { s.prov p with exc := false }))
    else some .ub
  /- 108-112, `ThreadPool::remove` 239-246 -/
  | .destroy p =>
    if (s.prov p).life = .alive then
      match (s.prov p).pool with
      | none => some (.ok () (s.setProv p { s.prov p with life := .dying }))
      | some k =>
        if (s.pool k).alive then
          some (.ok () ((s.setProv p { s.prov p with life := .dying }).setPool k
            { s.pool k with queue := (s.pool k).queue.filter fun q => q != p }))
        else some .ub
    else some .ub
  /- 41-44 -/
  | .destroyed p =>
    if (s.prov p).life = .dying then
      if (s.prov p).running then none
      else some (.ok () (s.setProv p {}))
    else some .ub
  /- 287-311 -/
  | .work k throws =>
    if (s.pool k).alive ∧ 0 < (s.pool k).threads then
      match (s.pool k).queue with
      | [] => none
      | p :: l => some (taskRun (s.setPool k { s.pool k with queue := l }) p throws)
    else none

/-- The bodies of tasks executed by a step: provider and id. Not in the code: machinery of the model. -/
def bodies (s : State) : Op → List (Nat × Nat)
  | .endPool k => (s.pool k).queue.map fun p => (p, 1)
  | .work k _ =>
    if (s.pool k).alive ∧ 0 < (s.pool k).threads then
      match (s.pool k).queue with
      | [] => []
      | p :: _ => if (s.prov p).given < (s.prov p).taskCount then [(p, (s.prov p).given)] else []
    else []
  | _ => []

end PV.PL
