import Verif.AllocBuddy
/-
  Model of the memory pools of devices: src/cuda/cuda_memory.cuh and src/opencl/opencl_memory.h, both on top of
  src/memory/memory_allocator.h (Verif/Alloc.lean).

  There is no lock in these classes.  A call asks the device for memory at most once; whether the device has it is
  an argument of the call (`ok`).  Releasing memory that belongs to the program never fails.  Memory the device gives outside of the
  pool is never inside the pool.  A `cl_mem` of a sub-buffer stands for its offset, so that the keys of `_allocatedChunk` are offsets for
  OpenCL, too.
-/
namespace PV.DeviceAlloc

open PV.Alloc

/-- What the two classes differ in. src/cuda/cuda_memory.cuh 102-127, src/opencl/opencl_memory.h 127-163. -/
structure Device where
  /-- `_availableSize` -/
  avail : Nat
  /-- `_minimumSizeChunk` of OpenCL -/
  minChunk : Nat
  /-- whether `clCreateSubBuffer` accepts a region (origin, size) -/
  accepts : Nat → Nat → Bool

/-- src/cuda/cuda_memory.cuh. Lines 48-71, 110-127 of src/cuda/cuda_memory.cuh. -/
def cuda (avail : Nat) : Device := ⟨avail, 0, fun _ _ => true⟩

/-- src/opencl/opencl_memory.h.  The device gives the alignment of sub-buffers in bits (`CL_DEVICE_MEM_BASE_ADDR_ALIGN`); the program takes
    the number as one of bytes.  The region must not be empty, and must start at a multiple of the alignment.
    Lines 64-97, 142-163 of src/opencl/opencl_memory.h. -/
def opencl (avail bits : Nat) : Device := ⟨avail, bits, fun origin size => decide (bits ∣ origin * 8) && size != 0⟩

/-- `reserve`, src/memory/memory_allocator.h 38-70, with `_allocate`, src/cuda/cuda_memory.cuh 110-127, src/opencl/opencl_memory.h
    147-168 -/
def reserve (dev : Device) (s : State) (ok : Bool) (size : Nat) : Out × State :=
  if size = 0 then (.throw, s)
  else if size = s.size then (.done, s)
  else if size > dev.avail then (.throw, s)
  else if s.used ≠ [] then (.throw, s)
  else if !ok then (.throw, { s with size := 0, free := [] })
  else match reserveLoop (size + 1) size 0 [] with
    | some f => (.done, { s with size := size, free := f })
    | none => (.ub, s)

/-- Memory of the device outside of the pool. src/cuda/cuda_memory.cuh 64-70, src/opencl/opencl_memory.h 89-96. -/
def outside (s : State) (ok : Bool) : Out × State := if ok then (.heap, s) else (.throw, s)

/-- `allocate< T >( n )` with `sizeof( T ) = sz`, src/cuda/cuda_memory.cuh 48-71, src/opencl/opencl_memory.h 64-97 -/
def allocate (dev : Device) (s : State) (ok : Bool) (n sz : Nat) : Out × State :=
  let overall := n * sz % 18446744073709551616
  if s.size ≠ 0 ∧ overall < s.size then
    match getLevel (if overall < dev.minChunk then dev.minChunk else overall) with
    | none => (.ub, s)
    | some level =>
      match split s.free level with
      | none => (.ub, s)
      | some (false, f) => outside { s with free := f } ok
      | some (true, f) =>
        match f[level]? with
        | some (c :: _) =>
          if !dev.accepts c overall then (.throw, { s with free := f })
          else
            match modLevel f level List.tail with
            | some f2 =>
              (.pool c, { s with
                free := f2,
                used := if s.used.any (fun p => p.1 == c) then s.used else (c, level) :: s.used })
            | none => (.ub, s)
        | _ => (.ub, s)
  else outside s ok

/-- `free( address )` of a block of the pool, src/cuda/cuda_memory.cuh 77-94, src/opencl/opencl_memory.h 103-118; the steps are those of main
    memory (`Alloc.free`), without a lock. -/
def free (s : State) (offset : Nat) : Out × State := Alloc.free { s with locked := false } offset

/-! ### Lemmas -/

theorem inv_reserve {dev : Device} {s : State} (h : Inv s) {ok : Bool} {n : Nat} (hn : n ≤ 9223372036854775808) :
    Inv (reserve dev s ok n).2 ∧ (reserve dev s ok n).1 ≠ .ub := by
  rw [reserve]
  split
  · exact ⟨h, by simp⟩
  next h0 =>
  split
  · exact ⟨h, by simp⟩
  split
  · exact ⟨h, by simp⟩
  split
  · exact ⟨h, by simp⟩
  next hu =>
  have hu : s.used = [] := by simpa using hu
  split
  · refine ⟨⟨⟨by simp, by simp [freeCnt, usedCnt, hu]⟩, by simp, by simp, by simp [hu]⟩, by simp⟩
  obtain ⟨f, e1, e2, e3⟩ := reserve_lists h0 hn
  simp only [e1]
  refine ⟨⟨?_, e3, hn, by simp [hu]⟩, by simp⟩
  simp only [hu]
  exact e2

/-- What `allocate` does to an allocator in order: all its results. -/
theorem inv_allocate {dev : Device} (hdev : dev.minChunk ≤ 9223372036854775808) {s : State} (h : Inv s) (ok : Bool) (n sz : Nat) :
    Inv (allocate dev s ok n sz).2 ∧ (allocate dev s ok n sz).1 ≠ .ub ∧
    ((∀ o, (allocate dev s ok n sz).1 ≠ .pool o) → (allocate dev s ok n sz).2.used = s.used) ∧
    ((allocate dev s ok n sz).2.size = s.size) ∧
    ∀ o, (allocate dev s ok n sz).1 = .pool o → ∃ l,
      (allocate dev s ok n sz).2.used = (o, l) :: s.used ∧ n * sz % 18446744073709551616 ≤ 2 ^ l ∧ dev.minChunk ≤ 2 ^ l := by
  have hout : ∀ s' : State, Alloc.Inv s' → s'.used = s.used → s'.size = s.size → Inv (outside s' ok).2 ∧ (outside s' ok).1 ≠ .ub ∧
      ((∀ o, (outside s' ok).1 ≠ .pool o) → (outside s' ok).2.used = s.used) ∧ ((outside s' ok).2.size = s.size) ∧
      ∀ o, (outside s' ok).1 = .pool o → ∃ l,
      (outside s' ok).2.used = (o, l) :: s.used ∧ n * sz % 18446744073709551616 ≤ 2 ^ l ∧ dev.minChunk ≤ 2 ^ l := by
    intro s' h1 h2 h3
    rw [outside]
    split
    · exact ⟨h1, by simp, fun _ => h2, h3, by simp⟩
    · exact ⟨h1, by simp, fun _ => h2, h3, by simp⟩
  rw [allocate]
  split
  · next hsz =>
    generalize hreq : (if n * sz % 18446744073709551616 < dev.minChunk then dev.minChunk else n * sz % 18446744073709551616) = req
    have hreq1 : n * sz % 18446744073709551616 ≤ req ∧ dev.minChunk ≤ req ∧ req ≤ 9223372036854775808 := by
      have := h.small
      rw [← hreq]
      split <;> omega
    obtain ⟨r, e1, e2, e3⟩ := getLevel_ok (n := req) hreq1.2.2
    simp only [e1]
    rcases split_ok (start := r) h.cover with ⟨hf, _⟩ | ⟨f', l', hs, hc, hlen, hl, hne⟩
    · simp only [hf]
      exact hout _ ⟨h.cover, h.top, h.small, h.level⟩ rfl rfl
    · simp only [hs, hl]
      match l', hl, hne with
      | c :: cs, hl, _ =>
        simp only
        split
        · exact ⟨⟨hc, by simp only [hlen]; exact h.top, h.small, by simp only [hlen]; exact h.level⟩, by simp, fun _ => rfl, rfl, by simp⟩
        have hrl : r < f'.length := (List.getElem?_eq_some_iff.1 hl).1
        have hc' := hc.remove hl (o := c) (by simp)
        rw [← tail_eq_erase] at hc'
        simp only [modLevel_some hl]
        have hany : (s.used.any fun p => p.1 == c) = false := by
          rw [Bool.eq_false_iff]
          intro ha
          simp only [List.any_eq_true, beq_iff_eq] at ha
          obtain ⟨p, hp, he⟩ := ha
          have h1 := usedCnt_pos (b := c) hp
          rw [he, inC_self] at h1
          have h2 := levelCnt_pos (b := c) (k := r) (l := c :: cs) (x := c) (by simp)
          have h3 := levelCnt_le_freeCnt (b := c) (k := 0) hl
          rw [Nat.zero_add] at h3
          rw [inC_self] at h2
          have h4 := hc.cov c
          split at h4 <;> omega
        simp only [hany]
        refine ⟨⟨?_, ?_, h.small, ?_⟩, by simp, by simp, by simp, ?_⟩
        · refine hc'.congr fun b => ?_
          simp only [Bool.false_eq_true, if_false, usedCnt_cons]
          omega
        · simp only [List.length_set, hlen]
          exact h.top
        · intro p hp
          simp only [Bool.false_eq_true, if_false, List.mem_cons] at hp
          simp only [List.length_set, hlen]
          rcases hp with rfl | hp
          · simpa [hlen] using hrl
          · exact h.level p hp
        · intro o ho
          simp only [Out.pool.injEq] at ho
          subst ho
          exact ⟨r, by simp, by omega, by omega⟩
  · exact hout _ h rfl rfl

theorem inv_free {s : State} (h : Inv s) (o : Nat) :
    Inv (free s o).2 ∧ (free s o).1 ≠ .ub ∧ (free s o).2.size = s.size ∧
    ((free s o).1 = .done → (free s o).2.used = s.used.filter fun p => p.1 != o) ∧
    ((free s o).1 ≠ .done → (free s o).2.used = s.used) ∧
    (o ∈ s.used.map Prod.fst → (free s o).1 = .done) := by
  obtain ⟨h1, h2, h3, _, h5, h6, h7⟩ := Alloc.inv_free (s := { s with locked := false }) ⟨h.cover, h.top, h.small, h.level⟩ o
  refine ⟨h1, h2, h3, h5, fun hn => ?_, fun hm => h7 rfl hm⟩
  have := h6 hn
  rw [free, this]

/-! ### Alignment of the chunks from a level on -/

/-- The free chunks of level `k` and above start at multiples of `2 ^ k`. Not in the code: for statements and proofs. -/
def Aligned (k : Nat) (f : List (List Nat)) : Prop := ∀ (i : Nat) l, k ≤ i → f[i]? = some l → ∀ o ∈ l, 2 ^ k ∣ o

theorem Buddy.aligned {f : List (List Nat)} (h : Buddy f) (k : Nat) : Aligned k f :=
  fun i l hi hl o ho => Nat.dvd_trans (Nat.pow_dvd_pow 2 hi) (h i l hl o ho)

theorem Aligned.set {k : Nat} {f : List (List Nat)} (h : Aligned k f) {i : Nat} {l' : List Nat} (hl : k ≤ i → ∀ o ∈ l', 2 ^ k ∣ o) :
    Aligned k (f.set i l') := by
  intro j l hj he o ho
  rw [List.getElem?_set] at he
  split at he
  · next hij =>
    split at he
    · rw [← Option.some.inj he] at ho
      exact hl (by omega) o ho
    · simp at he
  · exact h j l hj he o ho

theorem modLevel_cases {f f' : List (List Nat)} {i : Nat} {g : List Nat → List Nat} (h : modLevel f i g = some f') :
    ∃ l, f[i]? = some l ∧ f' = f.set i (g l) := by
  rw [modLevel] at h
  split at h
  · next l hl => exact ⟨l, hl, (Option.some.inj h).symm⟩
  · simp at h

theorem aligned_splitLoop {k start : Nat} (hk : k ≤ start) : ∀ {d : Nat} {f f' : List (List Nat)}, Aligned k f →
    splitLoop start d f = some f' → Aligned k f'
  | 0, f, f', h, e => by
    rw [splitLoop] at e
    rw [← Option.some.inj e]
    exact h
  | d + 1, f, f', h, e => by
    rw [splitLoop] at e
    split at e
    · next v vs hv =>
      obtain ⟨f1, h1, e⟩ := Option.bind_eq_some_iff.1 e
      obtain ⟨f2, h2, e⟩ := Option.bind_eq_some_iff.1 e
      obtain ⟨l1, g1, rfl⟩ := modLevel_cases h1
      obtain ⟨l2, g2, rfl⟩ := modLevel_cases h2
      have hv1 : 2 ^ k ∣ v := h _ _ (by omega) hv v (by simp)
      have a1 : Aligned k (f.set (start + d) (sIns (v + 2 ^ (start + d)) (sIns v l1))) := by
        refine h.set fun _ o ho => ?_
        rcases mem_sIns.1 ho with rfl | ho
        · exact (Nat.dvd_add hv1 (Nat.pow_dvd_pow 2 (by omega)))
        · rcases mem_sIns.1 ho with rfl | ho
          · exact hv1
          · exact h _ _ (by omega) g1 o ho
      refine aligned_splitLoop hk (a1.set fun hi o ho => ?_) e
      exact a1 _ _ hi g2 o (List.mem_of_mem_tail ho)
    · simp at e

theorem aligned_split {k start : Nat} (hk : k ≤ start) {f f' : List (List Nat)} {b : Bool} (h : Aligned k f)
    (e : split f start = some (b, f')) : Aligned k f' := by
  rw [split] at e
  split at e
  · simp only [Option.some.injEq, Prod.mk.injEq] at e
    rw [← e.2]
    exact h
  · obtain ⟨f1, h1, h2⟩ := Option.map_eq_some_iff.1 e
    rw [← (Prod.mk.inj h2).2]
    exact aligned_splitLoop hk h h1

theorem aligned_mergeLoop {k : Nat} : ∀ {n level o : Nat} {f f' : List (List Nat)}, k ≤ level → Aligned k f →
    mergeLoop n level o f = some f' → Aligned k f'
  | 0, _, _, f, f', _, h, e => by
    rw [mergeLoop] at e
    rw [← Option.some.inj e]
    exact h
  | n + 1, level, o, f, f', hk, h, e => by
    rw [mergeLoop] at e
    split at e
    · simp at e
    next l hl =>
    split at e
    · next ho =>
      split at e
      · next a b hab =>
        obtain ⟨ha, _, _, _⟩ := touching_some hab ho
        have hd := h _ _ hk hl a ha
        obtain ⟨f1, h1, e⟩ := Option.bind_eq_some_iff.1 e
        obtain ⟨f2, h2, e⟩ := Option.bind_eq_some_iff.1 e
        obtain ⟨l1, g1, rfl⟩ := modLevel_cases h1
        obtain ⟨l2, g2, rfl⟩ := modLevel_cases h2
        have a1 : Aligned k (f.set (level + 1) (sIns a l1)) := by
          refine h.set fun hi p hp => ?_
          rcases mem_sIns.1 hp with rfl | hp
          · exact hd
          · exact h _ _ hi g1 p hp
        refine aligned_mergeLoop (by omega) (a1.set fun hi p hp => ?_) e
        exact a1 _ _ hi g2 p (List.mem_of_mem_erase (List.mem_of_mem_erase hp))
      · rw [← Option.some.inj e]
        exact h
    · simp at e

/-- Alignment of the whole allocator: of the free chunks from level `k` on, and of the used ones.
    Not in the code: for statements and proofs. -/
structure Fine (k : Nat) (s : State) : Prop where
  free : Aligned k s.free
  used : ∀ p ∈ s.used, k ≤ p.2 ∧ 2 ^ k ∣ p.1

theorem fine_reserve {dev : Device} {k : Nat} {s : State} (h : Fine k s) {ok : Bool} {n : Nat} (hn : n ≤ 9223372036854775808) :
    Fine k (reserve dev s ok n).2 := by
  rw [reserve]
  split
  · exact h
  next h0 =>
  split
  · exact h
  split
  · exact h
  split
  · exact h
  next hu =>
  have hu : s.used = [] := by simpa using hu
  split
  · exact ⟨by intro i l _ hl; simp at hl, by simp [hu]⟩
  split
  · next f hf =>
    refine ⟨?_, by simp [hu]⟩
    have hd : (Alloc.reserve State.init n) = (.done, ⟨n, f, [], false⟩) := by
      rw [Alloc.reserve, if_neg h0, if_neg (show ¬n = State.init.size from h0), if_neg (by simp [State.init]), if_neg (by simp [State.init]), hf]
      rfl
    rcases reserve_shape (s := State.init) hn (by rw [hd]) with he | he
    · rw [hd] at he
      have := congrArg State.size he
      simp only [State.init] at this
      exact absurd this h0
    · rw [hd] at he
      exact Buddy.aligned he.2 k
  · exact h

/-- Requests served with chunks of level `k` or above keep the alignment. -/
theorem fine_allocate {dev : Device} {k : Nat} {s : State} (h : Fine k s) (ok : Bool) (n sz : Nat)
    (hk : n * sz % 18446744073709551616 < s.size → ∀ level, getLevel (if n * sz % 18446744073709551616 < dev.minChunk then dev.minChunk
      else n * sz % 18446744073709551616) = some level → k ≤ level) :
    Fine k (allocate dev s ok n sz).2 ∧ (∀ o, (allocate dev s ok n sz).1 = .pool o → 2 ^ k ∣ o) ∧
    ((allocate dev s ok n sz).1 = .throw → ok = false ∨ ∃ o, 2 ^ k ∣ o ∧ dev.accepts o (n * sz % 18446744073709551616) = false) := by
  have hout : ∀ s' : State, Fine k s' → Fine k (outside s' ok).2 ∧ (∀ o, (outside s' ok).1 = .pool o → 2 ^ k ∣ o) ∧
      ((outside s' ok).1 = .throw → ok = false ∨ ∃ o, 2 ^ k ∣ o ∧ dev.accepts o (n * sz % 18446744073709551616) = false) := by
    intro s' h1
    rw [outside]
    split
    · exact ⟨h1, by simp, by simp⟩
    · next ho => exact ⟨h1, by simp, fun _ => Or.inl (by simpa using ho)⟩
  rw [allocate]
  split
  · next hsz =>
    split
    · exact ⟨h, by simp, by simp⟩
    next level hlevel =>
    have hkl := hk hsz.2 level hlevel
    split
    · exact ⟨h, by simp, by simp⟩
    · next f hs => exact hout _ ⟨aligned_split hkl h.free hs, h.used⟩
    · next f hs =>
      have hf := aligned_split hkl h.free hs
      split
      · next c cs hc =>
        have hd := hf _ _ hkl hc c (by simp)
        split
        · next hacc => exact ⟨⟨hf, h.used⟩, by simp, fun _ => Or.inr ⟨c, hd, by simpa using hacc⟩⟩
        split
        · next f2 hf2 =>
          obtain ⟨l, hl, rfl⟩ := modLevel_cases hf2
          refine ⟨⟨hf.set fun hi o ho => hf _ _ hi hl o (List.mem_of_mem_tail ho), ?_⟩, ?_, by simp⟩
          · intro p hp
            simp only at hp
            split at hp
            · exact h.used p hp
            · rcases List.mem_cons.1 hp with rfl | hp
              · exact ⟨hkl, hd⟩
              · exact h.used p hp
          · intro o ho
            rw [← Out.pool.inj ho]
            exact hd
        · exact ⟨h, by simp, by simp⟩
      · exact ⟨h, by simp, by simp⟩
  · exact hout _ h

theorem fine_free {k : Nat} {s : State} (h : Fine k s) (o : Nat) : Fine k (free s o).2 := by
  rw [free, Alloc.free]
  simp only [Bool.false_eq_true, if_false]
  split
  · exact ⟨h.free, h.used⟩
  split
  · next q level hq =>
    have hm := List.mem_of_find?_eq_some hq
    obtain ⟨hkl, hd⟩ := h.used _ hm
    split
    · exact ⟨h.free, h.used⟩
    next f1 hf1 =>
    obtain ⟨l, hl, rfl⟩ := modLevel_cases hf1
    split
    · exact ⟨h.free, h.used⟩
    next f2 hf2 =>
    refine ⟨?_, fun p hp => h.used p (List.mem_filter.1 hp).1⟩
    refine aligned_mergeLoop hkl (h.free.set fun hi p hp => ?_) hf2
    rcases mem_sIns.1 hp with rfl | hp
    · exact hd
    · exact h.free _ _ hi hl p hp
  · exact ⟨h.free, h.used⟩

end PV.DeviceAlloc
