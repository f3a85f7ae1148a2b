import Verif.ClFill
/-
  Properties of filling memory on OpenCL devices: C141.
-/
namespace PV.Props
open PV PV.ClFill

/-- What a call should do: `size` bytes from `offset` on get the value, other bytes stay. -/
def fillSpec (c : Call) (m : Nat → Nat → UInt8) : Nat → Nat → UInt8 := fun b i =>
  if b = c.data ∧ c.offset ≤ i ∧ i < c.offset + c.size then c.value else m b i

/-- All calls one after another -/
def fillAll : List Call → (Nat → Nat → UInt8) → Nat → Nat → UInt8
  | [], m => m
  | c :: l, m => fillAll l (fillSpec c m)

theorem acts_append (l1 l2 : List Act) : ∀ s, acts s (l1 ++ l2) = (acts s l1).bind fun s1 => acts s1 l2 := by
  induction l1 with
  | nil => intro s; rfl
  | cons a l1 ih =>
    intro s
    show (match act s a with | some s1 => acts s1 (l1 ++ l2) | none => none) = (match act s a with | some s1 => acts s1 l1 | none => none).bind _
    cases act s a with
    | none => rfl
    | some s1 => exact ih s1

/-- One call without other threads, from any state of the kernel -/
theorem fill_one (c : Call) (h1 : c.offset < 4294967296) (h2 : c.size < 4294967296) (s : State) :
    ∃ k, acts s (actions c) = some ⟨k, fillSpec c s.bytes⟩ := by
  refine ⟨⟨4, fun i => if i = 3 then some (.byte c.value) else if i = 2 then some (.num (u32 c.size)) else if i = 1 then some (.num (u32 c.offset)) else if i = 0 then some (.mem c.data) else s.kern.args i⟩, ?_⟩
  have e1 : u32 c.offset = c.offset := Nat.mod_eq_of_lt h1
  have e2 : u32 c.size = c.size := Nat.mod_eq_of_lt h2
  have : memset c.data (u32 c.offset) (u32 c.size) c.size c.value s.bytes = fillSpec c s.bytes := by
    funext b i
    unfold memset fillSpec
    rw [e1, e2, Nat.min_self]
  rw [← this]
  rfl

/-- **C141** (partial: calls do not overlap in time, less than 2^32 bytes) Every sequence of calls of `memorySet` by any threads fills exactly
what the calls say, one after another, whatever state the kernel was left in.
Missing: overlapping calls of threads which use the same device, and larger sizes; false, see `C141_threads_wrong`, `C141_size_wrong`. -/
theorem C141_fill_partial : ∀ (l : List Call) (s : State), (∀ c ∈ l, c.offset < 4294967296 ∧ c.size < 4294967296) →
    ∃ k, acts s (l.flatMap actions) = some ⟨k, fillAll l s.bytes⟩
  | [], s, _ => ⟨s.kern, rfl⟩
  | c :: l, s, h => by
    obtain ⟨k1, h1⟩ := fill_one c (h c List.mem_cons_self).1 (h c List.mem_cons_self).2 s
    obtain ⟨k2, h2⟩ := C141_fill_partial l ⟨k1, fillSpec c s.bytes⟩ (fun c' hc => h c' (List.mem_cons_of_mem _ hc))
    refine ⟨k2, ?_⟩
    rw [List.flatMap_cons, acts_append, h1]
    exact h2

/-- Larger sizes exactly: offset and size count modulo 2^32. -/
theorem C141_size_exact (c : Call) (s : State) : ∃ k, acts s (actions c) = some ⟨k, memset c.data (c.offset % 4294967296) (c.size % 4294967296) c.size c.value s.bytes⟩ := by
  refine ⟨⟨4, fun i => if i = 3 then some (.byte c.value) else if i = 2 then some (.num (u32 c.size)) else if i = 1 then some (.num (u32 c.offset)) else if i = 0 then some (.mem c.data) else s.kern.args i⟩, ?_⟩
  rfl

/-- 4 GB are requested; nothing is filled. -/
theorem C141_size_wrong (b : Nat) (v : UInt8) (s : State) : ∃ k, acts s (actions ⟨b, 0, 4294967296, v⟩) = some ⟨k, s.bytes⟩ := by
  obtain ⟨k, h⟩ := C141_size_exact ⟨b, 0, 4294967296, v⟩ s
  refine ⟨k, h.trans ?_⟩
  congr 2
  funext b' i
  refine if_neg ?_
  show ¬ (b' = b ∧ 0 % 4294967296 ≤ i ∧ i < 0 % 4294967296 + min (4294967296 % 4294967296) 4294967296)
  omega

/-- An interleaving of two sequences -/
inductive Interleaved {α : Type} : List α → List α → List α → Prop
  | nil : Interleaved [] [] []
  | left {a : α} {l1 l2 l : List α} : Interleaved l1 l2 l → Interleaved (a :: l1) l2 (a :: l)
  | right {a : α} {l1 l2 l : List α} : Interleaved l1 l2 l → Interleaved l1 (a :: l2) (a :: l)

/-- Two threads fill different memory at the same time: with this schedule no call fails, but block 1 stays empty (0) and block 2 gets the
value of the other call. -/
theorem C141_threads_wrong : ∃ l, Interleaved (actions ⟨1, 0, 2, 7⟩) (actions ⟨2, 0, 2, 9⟩) l
    ∧ ((acts ⟨⟨0, fun _ => none⟩, fun _ _ => 0⟩ l).map fun s => [s.bytes 1 0, s.bytes 1 1, s.bytes 2 0, s.bytes 2 1]) = some [0, 0, 9, 9]
    ∧ [fillAll [⟨1, 0, 2, 7⟩, ⟨2, 0, 2, 9⟩] (fun _ _ => 0) 1 0, fillAll [⟨1, 0, 2, 7⟩, ⟨2, 0, 2, 9⟩] (fun _ _ => 0) 2 0] = [7, 9] := by
  refine ⟨[.reset, .arg (.mem 1), .arg (.num 0), .arg (.num 2), .arg (.byte 7), .reset, .arg (.mem 2), .arg (.num 0), .arg (.num 2), .arg (.byte 9), .launch 2, .launch 2], ?_, by decide, by decide⟩
  exact .left (.left (.left (.left (.left (.right (.right (.right (.right (.right (.right (.left .nil)))))))))))

/-- Another schedule makes a call fail. -/
theorem C141_threads_fail_wrong : ∃ l, Interleaved (actions ⟨1, 0, 2, 7⟩) (actions ⟨2, 0, 2, 9⟩) l ∧ (acts ⟨⟨0, fun _ => none⟩, fun _ _ => 0⟩ l).isNone = true := by
  refine ⟨[.reset, .reset, .arg (.mem 1), .arg (.mem 2), .arg (.num 0), .arg (.num 2), .arg (.byte 7), .launch 2, .arg (.num 0), .arg (.num 2), .arg (.byte 9), .launch 2], ?_, by decide⟩
  exact .left (.right (.left (.right (.left (.left (.left (.left (.right (.right (.right (.right .nil)))))))))))

example : ((acts ⟨⟨2, fun _ => none⟩, fun _ _ => 0⟩ ([⟨1, 1, 2, 7⟩, ⟨1, 2, 3, 9⟩].flatMap actions)).map fun s => (List.range 6).map (s.bytes 1)) = some [0, 7, 9, 9, 9, 0] := by decide

end PV.Props
