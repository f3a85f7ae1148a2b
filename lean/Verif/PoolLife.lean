import Verif.Core
/-
  Model of the life of the threads of a pool: `ThreadPool::resize`, `stop`, the constructor and
  `ThreadPool::_workerThread`, src/thread_pool.cpp 144-204, 258-314, with what `Threads` leaves out:
  the handshake of the start, the number of running threads, and the memory of the vector `_exit`,
  which the threads read without a lock.

  Every transition is one access to shared data, or one block executed under one mutex.  Memory is
  sequentially consistent.  The tasks are only a number here; a task ends.  One thread calls `resize`
  and `stop` (they have no lock).  The system never fails to make a thread.
-/
namespace PV.Life

/-- Where a worker is, `ThreadPool::_workerThread`, src/thread_pool.cpp 278-314. -/
inductive WPc where
  /-- 280: `++_runningThreadCount` -/
  | born
  /-- 280: the comparison of the value read with `_threadCount` -/
  | compare (k : Nat)
  /-- 281-284 -/
  | signal
  /-- 287: load the address of the elements of `_exit` -/
  | top
  /-- 287: read the element in memory block `g` -/
  | topRead (g : Nat)
  /-- 288-289: evaluate the predicate `_run[id]` under `_taskInfo` -/
  | wait
  | asleep
  /-- 292: load the address of the elements of `_exit` -/
  | woken
  /-- 292: read the element in memory block `g` -/
  | wokenRead (g : Nat)
  /-- 295-310: take a task and run it, or clear `_run[id]` -/
  | fetch
  /-- 313: `--_runningThreadCount` -/
  | leave
  | gone
deriving DecidableEq, Repr

/-- Where the thread calling `resize` (src/thread_pool.cpp 158-199) or `stop` (258-276) is. -/
inductive MPc where
  | idle
  /-- 164-167 -/
  | growFlags (n : Nat)
  /-- 169 -/
  | growCount (n : Nat)
  /-- 171-172 -/
  | spawn (n : Nat)
  /-- 174-175 -/
  | waitCreated (n : Nat)
  | asleep (n : Nat)
  /-- 178-184 -/
  | shrinkFlags (n : Nat)
  /-- 186-189 -/
  | join (n : Nat)
  /-- 191-196 -/
  | pop (n : Nat)
  /-- 263-269 -/
  | stopFlags
  /-- 271-274 -/
  | stopJoin (k : Nat)
deriving DecidableEq, Repr

/-- `ThreadPool`, src/thread_pool.h 90-123.  `block` names the memory of the elements of `_exit`,
    `cap` is its capacity. -/
structure State where
  workers : List WPc := []
  run : List Bool := []
  exit : List Bool := []
  block : Nat := 0
  cap : Nat := 0
  running : Nat := 0
  threadCount : Nat := 0
  created : Bool := false
  tasks : Nat := 0
  mgr : MPc := .idle
deriving DecidableEq, Repr

/-- The outcome of a step. Not in the code: machinery of the model. -/
inductive Out where
  | ok (s : State)
  /-- undefined behaviour: memory that was released is read -/
  | ub
deriving DecidableEq, Repr

/-- Not in the code: machinery of the model. -/
def State.setW (s : State) (i : Nat) (pc : WPc) : State := { s with workers := s.workers.set i pc }

/-- `_waiting.notify_all()`. src/thread_pool.cpp 182, 267. -/
def wakeW : WPc → WPc
  | .asleep => .wait
  | pc => pc

/-- `_completeCreation.notify_one()`. src/thread_pool.cpp 283. -/
def wakeM : MPc → MPc
  | .asleep n => .waitCreated n
  | pc => pc

/-- One step of worker `i`, src/thread_pool.cpp 278-314. -/
def workerStep (s : State) (i : Nat) : Option Out :=
  match s.workers[i]? with
  | none => none
  | some .born => some (.ok ({ s with running := s.running + 1 }.setW i (.compare (s.running + 1))))
  | some (.compare k) => some (.ok (s.setW i (if k = s.threadCount then .signal else .top)))
  | some .signal => some (.ok ({ s with created := true, mgr := wakeM s.mgr }.setW i .top))
  | some .top => some (.ok (s.setW i (.topRead s.block)))
  | some (.topRead g) =>
    if g ≠ s.block then some .ub
    else match s.exit[i]? with
      | some true => some (.ok (s.setW i .leave))
      | some false => some (.ok (s.setW i .wait))
      | none => some .ub
  | some .wait =>
    match s.run[i]? with
    | some true => some (.ok (s.setW i .woken))
    | some false => some (.ok (s.setW i .asleep))
    | none => some .ub
  | some .asleep => none
  | some .woken => some (.ok (s.setW i (.wokenRead s.block)))
  | some (.wokenRead g) =>
    if g ≠ s.block then some .ub
    else match s.exit[i]? with
      | some true => some (.ok (s.setW i .leave))
      | some false => some (.ok (s.setW i .fetch))
      | none => some .ub
  | some .fetch =>
    if 0 < s.tasks then some (.ok ({ s with tasks := s.tasks - 1 }.setW i .top))
    else if i < s.run.length then some (.ok ({ s with run := s.run.set i false }.setW i .top))
    else some .ub
  | some .leave => some (.ok ({ s with running := s.running - 1 }.setW i .gone))
  | some .gone => none

/-- `std::vector::resize( n, v )`: the elements. src/thread_pool.cpp 165-166. -/
def resizeV (l : List Bool) (n : Nat) (v : Bool) : List Bool := l.take n ++ List.replicate (n - l.length) v

/-- `std::fill( l.begin() + n, l.end(), 1 )`. src/thread_pool.cpp 180-181, 265-266. -/
def fillFrom (l : List Bool) (n : Nat) : List Bool := l.take n ++ List.replicate (l.length - n) true

/-- One step of the thread in `resize` or `stop`, src/thread_pool.cpp 158-199 and 258-276.  A vector
    that grows over its capacity moves to another block; the library chooses the new capacity
    (`c` if this is enough). -/
def mgrStep (s : State) (c : Nat) : Option State :=
  match s.mgr with
  | .idle => none
  | .growFlags n =>
    some { s with
      run := resizeV s.run n true, exit := resizeV s.exit n false,
      block := if s.cap < n then s.block + 1 else s.block,
      cap := if s.cap < n then max n c else s.cap, mgr := .growCount n }
  | .growCount n => some { s with threadCount := n, mgr := .spawn n }
  | .spawn n =>
    if s.workers.length < n then some { s with workers := s.workers ++ [.born] }
    else some { s with mgr := .waitCreated n }
  | .waitCreated n => some { s with mgr := if s.created then .idle else .asleep n }
  | .asleep _ => none
  | .shrinkFlags n =>
    some { s with exit := fillFrom s.exit n, run := fillFrom s.run n, workers := s.workers.map wakeW, mgr := .join n }
  | .join n =>
    if n < s.workers.length then
      if s.workers.getLast? = some .gone then some { s with workers := s.workers.dropLast, mgr := .pop n }
      else none
    else some { s with mgr := .idle }
  | .pop n => some { s with exit := s.exit.dropLast, run := s.run.dropLast, mgr := .join n }
  | .stopFlags =>
    some { s with exit := fillFrom s.exit 0, run := fillFrom s.run 0, workers := s.workers.map wakeW, mgr := .stopJoin 0 }
  | .stopJoin k =>
    if k < s.workers.length then
      if s.workers[k]? = some .gone then some { s with mgr := .stopJoin (k + 1) } else none
    else some { s with workers := [], mgr := .idle }

/-- What can happen (a step of one of the functions of src/thread_pool.cpp 144-321). -/
inductive Ev where
  | worker (i : Nat)
  | mgr (c : Nat)
  /-- a worker wakes up without being notified -/
  | spurious (i : Nat)
  /-- the same for the thread in `resize` -/
  | spuriousMgr
  /-- `ThreadPool::add` by any thread, src/thread_pool.cpp 206-226 -/
  | add (k : Nat)
  /-- a call of `resize`, src/thread_pool.cpp 158-163 and 177 -/
  | resize (n : Nat)
  /-- a call of `stop`, src/thread_pool.cpp 258-262; the tasks of the list are gone -/
  | stop
deriving DecidableEq, Repr

/-- One event; `none`: it cannot happen now.  `resize( 0 )` throws. Not in the code: machinery of the model. -/
def step (s : State) : Ev → Option Out
  | .worker i => workerStep s i
  | .mgr c => (mgrStep s c).map .ok
  | .spurious i => if s.workers[i]? = some .asleep then some (.ok (s.setW i .wait)) else none
  | .spuriousMgr => match s.mgr with
    | .asleep n => some (.ok { s with mgr := .waitCreated n })
    | _ => none
  | .add k =>
    if s.workers = [] then none
    else some (.ok { s with
      tasks := s.tasks + k, run := fillFrom s.run 0, workers := s.workers.map wakeW })
  | .resize n =>
    if s.mgr ≠ .idle then none
    else if n = 0 then some (.ok s)
    else if s.workers.length < n then some (.ok { s with mgr := .growFlags n })
    else if n < s.workers.length then some (.ok { s with mgr := .shrinkFlags n })
    else some (.ok s)
  | .stop =>
    if s.mgr ≠ .idle then none
    else if s.workers = [] then some (.ok { s with tasks := 0 })
    else some (.ok { s with tasks := 0, mgr := .stopFlags })

/-- Execute a schedule; `none`: it is not possible. Not in the code: machinery of the model. -/
def exec : State → List Ev → Option Out
  | s, [] => some (.ok s)
  | s, e :: es =>
    match step s e with
    | some (.ok s') => exec s' es
    | r => r

/-- A pool without threads, src/thread_pool.cpp 144-147. -/
def fresh : State := {}

end PV.Life
