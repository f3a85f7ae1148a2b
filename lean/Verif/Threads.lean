import Verif.Core
/-
  Model of src/thread_pool.cpp: worker threads, task providers, the pool.

  A state transition system: every transition is one access to shared data, or one block
  executed under one mutex (waiting for a condition variable is a check of the predicate under
  the mutex that either passes or puts the thread to sleep; `notify` makes a sleeping thread
  check again).  Memory is sequentially consistent; the unlocked reads of `_exit` and
  `_running`, which are data races in C++, are modelled as ordinary reads.  The body of a task
  terminates, possibly with an exception.  Counters do not reach 2^64.
-/
namespace PV.Thr

/-- Where a worker is, `ThreadPool::_workerThread`, src/thread_pool.cpp 278-314, and inside of
    `AbstractTaskProvider::_taskRun`, 51-78. -/
inductive WPc where
  /-- 287: evaluate `while ( !_exit[id] )` -/
  | top
  /-- 288-289: lock `_taskInfo`, evaluate the predicate `_run[id]` -/
  | wait
  /-- blocked in the condition variable -/
  | asleep
  /-- 292: `if ( _exit[id] ) break;` -/
  | woken
  /-- 295-311: take a task from the list under `_taskInfo` or clear `_run[id]` -/
  | fetch
  /-- 53: `taskId = _givenTaskCount++` and the comparison in 55 -/
  | give (p : Nat)
  /-- 58: `_task( taskId )` -/
  | body (p id : Nat)
  /-- 67: `++_completedTaskCount` -/
  | done (p : Nat)
  /-- 69: `completedTasks == _taskCount` with the local value read before -/
  | cmp (p k : Nat)
  /-- 70-75: `_running = false` and notify under `_completion` -/
  | fin (p : Nat)
  /-- the thread has ended -/
  | gone
deriving DecidableEq, Repr

/-- Where the thread using a provider is: `TaskProvider::_run( n )`, src/thread_pool.cpp
    128-137, `ThreadPool::add`, 206-226, then `_wait()`, 80-89. -/
inductive UPc where
  | idle
  /-- 131 -/
  | setCount (n : Nat)
  /-- 132 -/
  | resetGiven (n : Nat)
  /-- 133 -/
  | resetCompleted (n : Nat)
  /-- 211-216: the check for threads and `_running = true` -/
  | addRunning (n : Nat)
  /-- 218-225 -/
  | addTasks (n : Nat)
  /-- `add` has thrown -/
  | failed
  /-- 82-83: evaluate `!_running` under `_completion` -/
  | waitPred
  | asleep
  /-- `_wait` has returned this value -/
  | returned (ok : Bool)
deriving DecidableEq, Repr

/-- `AbstractTaskProvider`, src/thread_pool.h 34-66, its user's thread, and three values for
    the specification only: the ids whose bodies were run since `_run` was called, whether one
    of them threw, and the number of tasks asked for. -/
structure Prov where
  taskCount : Nat := 0
  given : Nat := 0
  completed : Nat := 0
  running : Bool := false
  exc : Bool := false
  pc : UPc := .idle
  log : List Nat := []
  threw : Bool := false
  want : Nat := 0
deriving DecidableEq, Repr

/-- `ThreadPool`, src/thread_pool.h 90-123; `queue` is `_task`. -/
structure State where
  queue : List Nat
  workers : List WPc
  run : List Bool
  exit : List Bool
  prov : Nat → Prov

/-- Replace one provider. Not in the code: machinery of the model. -/
def State.setProv (s : State) (p : Nat) (f : Prov → Prov) : State :=
  { s with prov := fun q => if q = p then f (s.prov q) else s.prov q }

/-- Not in the code: machinery of the model. -/
def State.setW (s : State) (i : Nat) (pc : WPc) : State := { s with workers := s.workers.set i pc }

/-- `_waiting.notify_all()` of the pool. src/thread_pool.cpp 182, 223, 267. -/
def wakeW : WPc → WPc
  | .asleep => .wait
  | pc => pc

/-- `_waiting.notify_one()` of a provider (only its user waits). src/thread_pool.cpp 73. -/
def wakeU : UPc → UPc
  | .asleep => .waitPred
  | pc => pc

/-- One step of worker `i`; `throws` says whether a task body ends with an exception.
    `none`: the worker cannot move. src/thread_pool.cpp 51-78, 278-314. -/
def workerStep (s : State) (i : Nat) (throws : Bool) : Option State :=
  match s.workers[i]? with
  | none => none
  | some .top =>
    match s.exit[i]? with
    | some true => some (s.setW i .gone)
    | some false => some (s.setW i .wait)
    | none => none
  | some .wait =>
    match s.run[i]? with
    | some true => some (s.setW i .woken)
    | some false => some (s.setW i .asleep)
    | none => none
  | some .asleep => none
  | some .woken =>
    match s.exit[i]? with
    | some true => some (s.setW i .gone)
    | some false => some (s.setW i .fetch)
    | none => none
  | some .fetch =>
    match s.queue with
    | p :: q => some ({ s with queue := q }.setW i (.give p))
    | [] => some ({ s with run := s.run.set i false }.setW i .top)
  | some (.give p) =>
    let id := (s.prov p).given
    some ((s.setProv p fun P => { P with given := P.given + 1 }).setW i
      (if id < (s.prov p).taskCount then .body p id else .top))
  | some (.body p id) =>
    some ((s.setProv p fun P => { P with
      log := id :: P.log, exc := P.exc || throws, threw := P.threw || throws }).setW i (.done p))
  | some (.done p) =>
    some ((s.setProv p fun P => { P with completed := P.completed + 1 }).setW i
      (.cmp p ((s.prov p).completed + 1)))
  | some (.cmp p k) =>
    some (s.setW i (if k = (s.prov p).taskCount then .fin p else .top))
  | some (.fin p) =>
    some ((s.setProv p fun P => { P with running := false, pc := wakeU P.pc }).setW i .top)
  | some .gone => none

/-- One step of the thread using provider `p`. src/thread_pool.cpp 80-89, 128-137, 206-226. -/
def userStep (s : State) (p : Nat) : Option State :=
  match (s.prov p).pc with
  | .setCount n => some (s.setProv p fun P => { P with taskCount := n, pc := .resetGiven n })
  | .resetGiven n => some (s.setProv p fun P => { P with given := 0, pc := .resetCompleted n })
  | .resetCompleted n => some (s.setProv p fun P => { P with completed := 0, pc := .addRunning n })
  | .addRunning n =>
    if s.workers = [] then some (s.setProv p fun P => { P with pc := .failed })
    else some (s.setProv p fun P => { P with running := true, pc := .addTasks n })
  | .addTasks n =>
    some ({ s with
      queue := s.queue ++ List.replicate n p,
      run := s.run.map fun _ => true,
      workers := s.workers.map wakeW }.setProv p fun P => { P with pc := .waitPred })
  | .waitPred =>
    if (s.prov p).running then some (s.setProv p fun P => { P with pc := .asleep })
    else some (s.setProv p fun P => { P with exc := false, pc := .returned (!P.exc) })
  | _ => none

/-- What can happen. -/
inductive Ev where
  | worker (i : Nat) (throws : Bool)
  /-- a worker wakes up without being notified -/
  | spurious (i : Nat)
  /-- the same for the user of a provider -/
  | spuriousUser (p : Nat)
  | user (p : Nat)
  /-- the user calls `_run( n )`, later `_wait()` -/
  | start (p n : Nat)
  /-- `ThreadPool::clear`, src/thread_pool.cpp 248-256 -/
  | clear
  /-- `ThreadPool::remove`, src/thread_pool.cpp 239-246 -/
  | remove (p : Nat)
  /-- `_exit` and `_run` set for all workers from `k` on, and notification: `resize` 177-183
      (fewer threads), `stop` 263-267 with `k = 0` -/
  | tellExit (k : Nat)
  /-- `resize` 185-197: the last worker has ended and is removed with its flags -/
  | popWorker
  /-- `stop` 271-274: all workers have ended and are removed; the flags stay -/
  | joinAll
  /-- `resize` 163-172: more threads -/
  | grow (k : Nat)
deriving DecidableEq, Repr

/-- `clear` calls `task->_task( true )` for every list entry: the body with id 1. src/thread_pool.cpp 252. -/
def clearProv (queue : List Nat) (p : Nat) (P : Prov) : Prov :=
  { P with log := List.replicate (queue.count p) 1 ++ P.log }

/-- `std::vector::resize( k, v )`. src/thread_pool.cpp 165-166. -/
def resizeV (l : List Bool) (k : Nat) (v : Bool) : List Bool :=
  l.take k ++ List.replicate (k - l.length) v

/-- One event; `none`: it cannot happen now. Not in the code: machinery of the model. -/
def step (s : State) : Ev → Option State
  | .worker i t => workerStep s i t
  | .spurious i => if s.workers[i]? = some .asleep then some (s.setW i .wait) else none
  | .spuriousUser p =>
    if (s.prov p).pc = .asleep then some (s.setProv p fun P => { P with pc := .waitPred }) else none
  | .user p => userStep s p
  | .start p n =>
    match (s.prov p).pc with
    | .idle | .failed | .returned _ =>
      if (s.prov p).running = false ∧ 0 < n then
        some (s.setProv p fun P => { P with pc := .setCount n, log := [], threw := false, want := n })
      else some (s.setProv p fun P => { P with pc := .waitPred })
    | _ => none
  | .clear =>
    some { s with queue := [], prov := fun p => clearProv s.queue p (s.prov p) }
  | .remove p => some { s with queue := s.queue.filter fun q => q != p }
  | .tellExit k =>
    some { s with
      exit := s.exit.take k ++ (s.exit.drop k).map fun _ => true,
      run := s.run.take k ++ (s.run.drop k).map fun _ => true,
      workers := s.workers.map wakeW }
  | .popWorker =>
    if s.workers.getLast? = some .gone then
      some { s with workers := s.workers.dropLast, run := s.run.dropLast, exit := s.exit.dropLast }
    else none
  | .joinAll =>
    if s.workers.all (fun w => w == .gone) then some { s with workers := [] } else none
  | .grow k =>
    if s.workers.length < k then
      some { s with
        run := resizeV s.run k true,
        exit := resizeV s.exit k false,
        workers := s.workers ++ List.replicate (k - s.workers.length) .top }
    else none

/-- Execute a schedule. Not in the code: machinery of the model. -/
def exec : State → List Ev → Option State
  | s, [] => some s
  | s, e :: es =>
    match step s e with
    | some s' => exec s' es
    | none => none

/-- A pool as constructed with `n` threads, all of them started. src/thread_pool.cpp 144-151. -/
def State.init (n : Nat) : State :=
  ⟨[], List.replicate n .top, List.replicate n true, List.replicate n false, fun _ => {}⟩

end PV.Thr
