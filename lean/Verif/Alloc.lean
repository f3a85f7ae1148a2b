import Verif.Core
/-
  Model of the memory pool: src/memory/memory_allocator.h (BaseMemoryAllocator) and
  src/memory/cpu_memory.h (cpu_Memory::MemoryAllocator).

  Simplifications: the heap (`new`/`delete[]`) always succeeds and never returns memory
  inside the pool; the public functions are atomic (each holds `_lock` from its first to its
  last access of the members, except the list building at the end of `reserve`, which is
  assumed not to run concurrently with other calls).  A `std::set<size_t>` is the ascending
  list of its elements, a `std::map` the list of its pairs.  `none` is undefined behaviour.
-/
namespace PV.Alloc

/-- `std::set::insert`. Used by src/memory/memory_allocator.h 65, 118-119, 140, 152. -/
def sIns (x : Nat) : List Nat → List Nat
  | [] => [x]
  | y :: ys => if x < y then x :: y :: ys else if x = y then y :: ys else y :: sIns x ys

/-- The element after `x`, if any. `++neighbour`, src/memory/memory_allocator.h 135-137. -/
def sNext (x : Nat) (l : List Nat) : Option Nat := l.find? fun y => decide (x < y)

/-- The element before `x`, if any. `--neighbour`, src/memory/memory_allocator.h 146-148. -/
def sPrev (x : Nat) (l : List Nat) : Option Nat := (l.filter fun y => decide (y < x)).getLast?

/-- The loop of `_getAllocationLevel`, src/memory/memory_allocator.h 87-90; a `size_t` shift
    drops the 65th bit.  More than 64 rounds means it never ends. -/
def levelLoop (initial : Nat) : Nat → Nat → Nat → Option Nat
  | 0, _, _ => none
  | f + 1, size, level =>
    if size < initial then levelLoop initial f (size * 2 % 18446744073709551616) (level + 1)
    else some level

/-- `_getAllocationLevel`, src/memory/memory_allocator.h 82-93 -/
def getLevel (n : Nat) : Option Nat := levelLoop n 65 1 0

/-- Change one level of the free lists; an index outside the vector is undefined.
    `_freeChunk[i]`, src/memory/memory_allocator.h 65, 117-120, 140-141. -/
def modLevel (free : List (List Nat)) (i : Nat) (f : List Nat → List Nat) : Option (List (List Nat)) :=
  match free[i]? with
  | some l => some (free.set i (f l))
  | none => none

/-- The search loop of `_split`, src/memory/memory_allocator.h 101-107 -/
def findLevel (free : List (List Nat)) (start : Nat) : Option Nat :=
  (List.range' start (free.length - start)).find? fun i => !(free[i]?.getD []).isEmpty

/-- The splitting loop of `_split`, src/memory/memory_allocator.h 116-121, `d` levels above
    `start`: the first chunk of the level is replaced by its halves one level below. -/
def splitLoop (start : Nat) : Nat → List (List Nat) → Option (List (List Nat))
  | 0, free => some free
  | d + 1, free =>
    match free[start + d + 1]? with
    | some (v :: _) => do
      let f1 ← modLevel free (start + d) fun l => sIns (v + 2 ^ (start + d)) (sIns v l)
      let f2 ← modLevel f1 (start + d + 1) List.tail
      splitLoop start d f2
    | _ => none

/-- `_split`, src/memory/memory_allocator.h 96-125: the free lists afterwards, and whether a
    chunk of level `start` is available now. -/
def split (free : List (List Nat)) (start : Nat) : Option (Bool × List (List Nat)) :=
  match findLevel free start with
  | none => some (false, free)
  | some s => (splitLoop start (s - start) free).map fun f => (true, f)

/-- The chunk before `offset`, if it touches: src/memory/memory_allocator.h 146-156 -/
def touchPrev (level offset : Nat) (l : List Nat) : Option (Nat × Nat) :=
  match sPrev offset l with
  | some p => if offset - p = 2 ^ level then some (p, offset) else none
  | none => none

/-- The two chunks a round of `_merge` replaces by one, the chunk behind being tried first:
    src/memory/memory_allocator.h 137-156 -/
def touching (level offset : Nat) (l : List Nat) : Option (Nat × Nat) :=
  match sNext offset l with
  | some n => if n - offset = 2 ^ level then some (offset, n) else touchPrev level offset l
  | none => touchPrev level offset l

/-- `_merge`, src/memory/memory_allocator.h 128-160; `k` is the number of levels left. -/
def mergeLoop : Nat → Nat → Nat → List (List Nat) → Option (List (List Nat))
  | 0, _, _, free => some free
  | k + 1, level, offset, free =>
    match free[level]? with
    | none => none
    | some l =>
      if offset ∈ l then
        match touching level offset l with
        | some (a, b) => do
          let f1 ← modLevel free (level + 1) (sIns a)
          let f2 ← modLevel f1 level fun l => (l.erase a).erase b
          mergeLoop k (level + 1) a f2
        | none => some free
      else none

/-- The allocator object.  `size = 0` iff there is no pool (`_data == nullptr`).
    `used` is `_allocatedChunk` (offset, level).  `locked` means that `_lock` was left
    locked by a call that has ended. src/memory/memory_allocator.h 163-166, src/memory/cpu_memory.h 102-108. -/
structure State where
  size : Nat
  free : List (List Nat)
  used : List (Nat × Nat)
  locked : Bool
deriving DecidableEq, Repr

/-- A new allocator. src/memory/memory_allocator.h 32, 163, src/memory/cpu_memory.h 102. -/
def State.init : State := ⟨0, [], [], false⟩

/-- What a call does. src/memory/cpu_memory.h 53-77, 81-99. -/
inductive Out where
  /-- returned normally -/
  | done
  /-- `allocate` returned the pool address with this offset -/
  | pool (offset : Nat)
  /-- `allocate` returned, or `free` was given, heap memory -/
  | heap
  /-- an exception was thrown -/
  | throw
  /-- the call never returns: it waits for a lock nobody holds any more -/
  | hang
  | ub
deriving DecidableEq, Repr

/-- The loop at the end of `reserve`, src/memory/memory_allocator.h 52-69 -/
def reserveLoop : Nat → Nat → Nat → List (List Nat) → Option (List (List Nat))
  | 0, _, _, _ => none
  | f + 1, size, usedSize, free =>
    if size = 0 then some free
    else do
      let lv ← getLevel size
      let lv' := if 2 ^ lv > size then lv - 1 else lv
      let free1 := if usedSize = 0 then List.replicate (lv' + 1) [] else free
      let free2 ← modLevel free1 lv' (sIns usedSize)
      reserveLoop f (size - 2 ^ lv') (usedSize + 2 ^ lv') free2

/-- `reserve`, src/memory/memory_allocator.h 38-70, with `_allocate`,
    src/memory/cpu_memory.h 111-129. -/
def reserve (s : State) (size : Nat) : Out × State :=
  if size = 0 then (.throw, s)
  else if size = s.size then (.done, s)
  else if s.locked then (.hang, s)
  else if s.used ≠ [] then (.throw, { s with locked := true })
  else match reserveLoop (size + 1) size 0 [] with
    | some f => (.done, { s with size := size, free := f })
    | none => (.ub, s)

/-- `allocate< T >( n )` with `sizeof( T ) = sz`, src/memory/cpu_memory.h 53-77 -/
def allocate (s : State) (n sz : Nat) : Out × State :=
  if s.locked then (.hang, s)
  else
    let overall := n * sz % 18446744073709551616
    if s.size ≠ 0 ∧ overall < s.size then
      match getLevel overall with
      | none => (.ub, s)
      | some level =>
        match split s.free level with
        | none => (.ub, s)
        | some (false, f) => (.heap, { s with free := f })
        | some (true, f) =>
          match f[level]? with
          | some (c :: _) =>
            match modLevel f level List.tail with
            | some f2 =>
              (.pool c, { s with
                free := f2,
                used := if s.used.any (fun p => p.1 == c) then s.used else (c, level) :: s.used })
            | none => (.ub, s)
          | _ => (.ub, s)
    else (.heap, s)

/-- `free( address )` for the pool address with the given offset,
    src/memory/cpu_memory.h 81-99.  Any offset that is not in the map is treated as heap
    memory. -/
def free (s : State) (offset : Nat) : Out × State :=
  if s.locked then (.hang, s)
  else if s.size = 0 then (.heap, s)
  else match s.used.find? fun p => p.1 == offset with
    | some (o, level) =>
      match modLevel s.free level (sIns o) with
      | none => (.ub, s)
      | some f1 =>
        match mergeLoop (f1.length - level) level o f1 with
        | none => (.ub, s)
        | some f2 => (.done, { s with free := f2, used := s.used.filter fun p => p.1 != o })
    | none => (.heap, s)

end PV.Alloc
