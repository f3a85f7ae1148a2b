import Verif.Threads
/-
  The accesses of src/thread_pool.cpp to shared data that is not atomic, with the mutexes held.

  `Threads.lean` executes accesses one after the other.  That is what C++ promises only for
  programs without data races: no two threads may be about to access the same object, one of
  them to write it, without a common mutex, unless the object is a `std::atomic`.  The counters
  `_taskCount`, `_givenTaskCount`, `_completedTaskCount` and `_runningThreadCount` are atomic.
  Conditions that a thread checks while it sleeps are accesses of the step which wakes it up.
-/
namespace PV.Thr

/-- Shared objects that are not atomic. -/
inductive Loc where
  /-- `_run[i]`, src/thread_pool.h 109 -/
  | run (i : Nat)
  /-- `_exit[i]`, src/thread_pool.h 110 -/
  | exit (i : Nat)
  /-- `_worker`, its size, src/thread_pool.h 108 -/
  | workers
  /-- `_task`, src/thread_pool.h 119 -/
  | task
  /-- `_running`, src/thread_pool.h 58 -/
  | running (p : Nat)
  /-- `_exceptionRaised`, src/thread_pool.h 63 -/
  | exc (p : Nat)
deriving DecidableEq, Repr

/-- The mutexes. src/thread_pool.h 59, 120. -/
inductive Lock where
  /-- `ThreadPool::_taskInfo` -/
  | taskInfo
  /-- `AbstractTaskProvider::_completion` -/
  | completion (p : Nat)
deriving DecidableEq, Repr

/-- One access: the object, whether it is written, the mutex held. Not in the code: machinery of the model. -/
structure Access where
  loc : Loc
  write : Bool
  lock : Option Lock
deriving DecidableEq, Repr

/-- Threads: workers, the users of providers, and the thread which owns the pool. Not in the code: machinery of the model. -/
inductive Actor where
  | worker (i : Nat)
  | user (p : Nat)
  | owner
deriving DecidableEq, Repr

/-- The thread that executes an event. Not in the code: machinery of the model. -/
def Ev.actor : Ev → Actor
  | .worker i _ => .worker i
  | .spurious i => .worker i
  | .spuriousUser p => .user p
  | .user p => .user p
  | .start p _ => .user p
  | .remove p => .user p
  | .clear => .owner
  | .tellExit _ => .owner
  | .popWorker => .owner
  | .joinAll => .owner
  | .grow _ => .owner

/-- The accesses of the next step of worker `i`; `t`: its task throws. -/
def workerAcc (s : State) (i : Nat) (t : Bool) : WPc → List Access
  /- 287, without a lock -/
  | .top => [⟨.exit i, false, none⟩]
  /- 288-289 -/
  | .wait => [⟨.run i, false, some .taskInfo⟩]
  | .asleep => []
  /- 292, without a lock -/
  | .woken => [⟨.exit i, false, none⟩]
  /- 295-311 -/
  | .fetch =>
    if s.queue = [] then [⟨.task, false, some .taskInfo⟩, ⟨.run i, true, some .taskInfo⟩]
    else [⟨.task, true, some .taskInfo⟩]
  /- 53, 55: atomic -/
  | .give _ => []
  /- 63: `_exceptionRaised = true`, without a lock -/
  | .body p _ => if t then [⟨.exc p, true, none⟩] else []
  /- 67, 69: atomic -/
  | .done _ => []
  | .cmp _ _ => []
  /- 70-75 -/
  | .fin p => [⟨.running p, true, some (.completion p)⟩]
  | .gone => []

/-- The accesses of the next step of the user of provider `p`. -/
def userAcc (s : State) (p : Nat) : UPc → List Access
  /- 211: `threadCount()` without a lock; 214-216 -/
  | .addRunning _ => [⟨.workers, false, none⟩, ⟨.running p, true, some (.completion p)⟩]
  /- 218-225 -/
  | .addTasks _ =>
    ⟨.task, true, some .taskInfo⟩ ::
      (List.range s.run.length).map fun i => ⟨.run i, true, some .taskInfo⟩
  /- 82-88: the second line only if the tasks are finished -/
  | .waitPred =>
    ⟨.running p, false, some (.completion p)⟩ ::
      if (s.prov p).running then []
      else [⟨.exc p, false, some (.completion p)⟩, ⟨.exc p, true, some (.completion p)⟩]
  | _ => []

/-- The accesses of an event. -/
def acc (s : State) : Ev → List Access
  | .worker i t => (s.workers[i]?.map (workerAcc s i t)).getD []
  | .spurious _ => []
  | .spuriousUser _ => []
  | .user p => userAcc s p (s.prov p).pc
  /- `_ready()`, 91-93 and 139-142, called by `_run`, 130: without a lock -/
  | .start p _ => [⟨.running p, false, none⟩]
  /- 250-255 -/
  | .clear => [⟨.task, true, some .taskInfo⟩]
  /- 241-245 -/
  | .remove _ => [⟨.task, true, some .taskInfo⟩]
  /- 177-183 with `threadCount()` before, 263-267 -/
  | .tellExit k =>
    ⟨.workers, false, none⟩ ::
      ((List.range s.exit.length).filter (fun i => decide (k ≤ i))).map
        (fun i => ⟨.exit i, true, some .taskInfo⟩) ++
      ((List.range s.run.length).filter (fun i => decide (k ≤ i))).map
        (fun i => ⟨.run i, true, some .taskInfo⟩)
  /- 185-197: `_worker.pop_back()` without a lock, the flags of the last worker with it -/
  | .popWorker =>
    [⟨.workers, true, none⟩, ⟨.exit (s.exit.length - 1), true, some .taskInfo⟩,
      ⟨.run (s.run.length - 1), true, some .taskInfo⟩]
  /- 271-274 -/
  | .joinAll => [⟨.workers, true, none⟩]
  /- 163-172: the vectors may move, which touches all flags -/
  | .grow k =>
    ⟨.workers, true, none⟩ ::
      (List.range (max k s.exit.length)).map (fun i => ⟨.exit i, true, some .taskInfo⟩) ++
      (List.range (max k s.run.length)).map (fun i => ⟨.run i, true, some .taskInfo⟩)

/-- Two accesses that must not be made by different threads at the same time. Not in the code: for statements and proofs. -/
def Conflict (a b : Access) : Prop :=
  a.loc = b.loc ∧ (a.write = true ∨ b.write = true) ∧ ¬(a.lock ≠ none ∧ a.lock = b.lock)

instance (a b : Access) : Decidable (Conflict a b) := by unfold Conflict; infer_instance

/-- A data race: two threads can both go on now, with accesses in conflict. Not in the code: for statements and proofs. -/
structure Race (s : State) (e f : Ev) : Prop where
  other : e.actor ≠ f.actor
  fst : (step s e).isSome
  snd : (step s f).isSome
  clash : ∃ a ∈ acc s e, ∃ b ∈ acc s f, Conflict a b

end PV.Thr
