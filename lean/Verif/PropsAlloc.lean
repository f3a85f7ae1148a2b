import Verif.AllocBuddy
/-
  C37 - C41: the memory pool.
-/
namespace PV.Props

open PV.Alloc

/-- A call made by a user of the allocator. -/
inductive Call where
  | reserve (bytes : Nat)
  /-- `allocate< T >( count )` with `sizeof( T ) = size` -/
  | allocate (count size : Nat)
  /-- give back the block at this pool offset -/
  | free (offset : Nat)
  /-- give back heap memory -/
  | freeHeap
deriving DecidableEq

/-- The blocks inside the pool the user holds: (offset, requested bytes). -/
abbrev Held := List (Nat × Nat)

/-- One call; the user notes the blocks received and strikes out those given back.  Memory
    not in the user's list is never passed to `free`. -/
def call (c : State × Held) : Call → Out × (State × Held)
  | .reserve n => let r := reserve c.1 n; (r.1, (r.2, c.2))
  | .allocate n sz =>
    let r := allocate c.1 n sz
    (r.1, (r.2, match r.1 with | .pool o => (o, n * sz) :: c.2 | _ => c.2))
  | .free o =>
    if o ∈ c.2.map Prod.fst then
      let r := free c.1 o
      (r.1, (r.2, match r.1 with | .done => c.2.filter fun p => p.1 != o | _ => c.2))
    else (.heap, c)
  | .freeHeap => if c.1.locked then (.hang, c) else (.heap, c)

/-- All calls of a history, and what each of them did. -/
def history : State × Held → List Call → List Out × (State × Held)
  | c, [] => ([], c)
  | c, op :: ops =>
    let r := call c op
    let q := history r.2 ops
    (r.1 :: q.1, q.2)

/-- Sizes the machine can represent: a pool is at most `PTRDIFF_MAX + 1` bytes and the byte
    count of a request fits in `size_t`. -/
def Call.Representable : Call → Prop
  | .reserve n => n ≤ 9223372036854775808
  | .allocate n sz => n * sz < 18446744073709551616
  | _ => True

/-- The user's view and the allocator agree. -/
structure Sound (c : State × Held) : Prop where
  inv : Inv c.1
  noAdj : NoAdj c.1.free
  known : ∀ p ∈ c.2, ∃ l, (p.1, l) ∈ c.1.used ∧ p.2 ≤ 2 ^ l
  all : ∀ p ∈ c.1.used, p.1 ∈ c.2.map Prod.fst
  nodup : (c.2.map Prod.fst).Nodup

theorem sound_init : Sound (State.init, []) :=
  ⟨inv_init, by intro i l h; simp [State.init] at h, by simp, by simp [State.init], by simp⟩

theorem sound_call {c : State × Held} (h : Sound c) (op : Call) (hr : op.Representable) :
    Sound (call c op).2 ∧ (call c op).1 ≠ .ub := by
  cases op with
  | reserve n =>
    obtain ⟨h1, h2⟩ := inv_reserve h.inv hr
    refine ⟨?_, h2⟩
    have hu : (reserve c.1 n).2.used = c.1.used := by
      rw [reserve]
      split
      · rfl
      · split
        · rfl
        · split
          · rfl
          · split
            · rfl
            · split <;> rfl
    have hn : NoAdj (reserve c.1 n).2.free := by
      by_cases hd : (reserve c.1 n).1 = .done
      · rcases reserve_shape hr hd with he | he
        · rw [he]; exact h.noAdj
        · exact he.1
      · rw [reserve] at hd ⊢
        split
        · exact h.noAdj
        · split
          · exact h.noAdj
          · split
            · exact h.noAdj
            · split
              · exact h.noAdj
              · next h1 h2 h3 h4 =>
                rw [if_neg h1, if_neg h2, if_neg h3, if_neg h4] at hd
                split
                · next f hf => simp [hf] at hd
                · exact h.noAdj
    exact ⟨h1, hn, by simp only [call, hu]; exact h.known, by simp only [call, hu]; exact h.all, h.nodup⟩
  | allocate n sz =>
    obtain ⟨h1, h2, h3, h4, h5, h6⟩ := inv_allocate h.inv n sz
    refine ⟨?_, h2⟩
    simp only [call]
    generalize ha : allocate c.1 n sz = r at *
    obtain ⟨out, s'⟩ := r
    cases out with
    | pool o =>
      obtain ⟨l, e1, e2⟩ := h6 o rfl
      simp only at e1 ⊢
      have hnew : o ∉ c.2.map Prod.fst := by
        intro hm
        obtain ⟨p, hp, he⟩ := List.mem_map.1 hm
        obtain ⟨lp, hk, _⟩ := h.known p hp
        have := h1.nodup
        simp only [e1, List.map_cons, List.nodup_cons] at this
        exact this.1 (by rw [← he]; exact List.mem_map.2 ⟨_, hk, rfl⟩)
      refine ⟨h1, noAdj_allocate h.inv h.noAdj ha, ?_, ?_, ?_⟩
      · intro p hp
        simp only [e1]
        rcases List.mem_cons.1 hp with rfl | hp
        · have : n * sz % 18446744073709551616 = n * sz := Nat.mod_eq_of_lt hr
          exact ⟨l, by simp, by simp only; omega⟩
        · obtain ⟨lp, hk, hk2⟩ := h.known p hp
          exact ⟨lp, by simp [hk], hk2⟩
      · intro p hp
        simp only [e1] at hp
        rcases List.mem_cons.1 hp with rfl | hp
        · simp
        · have := h.all p hp
          simp only [List.map_cons, List.mem_cons]
          exact Or.inr this
      · simp only [List.map_cons, List.nodup_cons]
        exact ⟨hnew, h.nodup⟩
    | heap =>
      have := allocate_heap ha
      subst this
      exact ⟨h.inv, h.noAdj, h.known, h.all, h.nodup⟩
    | hang =>
      have : s' = c.1 := by
        rw [allocate] at ha
        split at ha
        · simp at ha; exact ha.symm
        · simp only at ha
          repeat' split at ha
          all_goals simp at ha
      subst this
      exact ⟨h.inv, h.noAdj, h.known, h.all, h.nodup⟩
    | done =>
      rw [allocate] at ha
      simp only at ha
      repeat' split at ha
      all_goals simp at ha
    | throw =>
      rw [allocate] at ha
      simp only at ha
      repeat' split at ha
      all_goals simp at ha
    | ub => simp at h2
  | free o =>
    rw [call]
    split
    · obtain ⟨h1, h2, h3, h4, h5, h6, h7⟩ := inv_free h.inv o
      refine ⟨?_, h2⟩
      have hn := noAdj_free h.inv h.noAdj o
      simp only
      generalize hf : free c.1 o = r at *
      obtain ⟨out, s'⟩ := r
      by_cases hd : out = .done
      · subst hd
        have hu := h5 rfl
        simp only at hu ⊢
        refine ⟨h1, hn, ?_, ?_, ?_⟩
        · intro p hp
          obtain ⟨hp1, hp2⟩ := List.mem_filter.1 hp
          obtain ⟨l, hl, hl2⟩ := h.known p hp1
          refine ⟨l, ?_, hl2⟩
          simp only [hu]
          exact List.mem_filter.2 ⟨hl, hp2⟩
        · intro p hp
          simp only [hu] at hp
          obtain ⟨hp1, hp2⟩ := List.mem_filter.1 hp
          obtain ⟨q, hq, he⟩ := List.mem_map.1 (h.all p hp1)
          exact List.mem_map.2 ⟨q, List.mem_filter.2 ⟨hq, by rw [he]; exact hp2⟩, he⟩
        · exact (h.nodup.sublist (List.filter_sublist.map _))
      · have hs := h6 hd
        simp only at hs
        subst hs
        cases out <;> first | exact absurd rfl hd | exact ⟨h.inv, h.noAdj, h.known, h.all, h.nodup⟩
    · exact ⟨h, by simp⟩
  | freeHeap =>
    rw [call]
    split
    · exact ⟨h, by simp⟩
    · exact ⟨h, by simp⟩

theorem sound_history {ops : List Call} : ∀ {c : State × Held}, Sound c →
    (∀ op ∈ ops, op.Representable) → Sound (history c ops).2 ∧ .ub ∉ (history c ops).1 := by
  induction ops with
  | nil => intro c h _; exact ⟨h, by simp [history]⟩
  | cons op ops ih =>
    intro c h hr
    obtain ⟨h1, h2⟩ := sound_call h op (hr op (by simp))
    obtain ⟨h3, h4⟩ := ih h1 (fun o ho => hr o (by simp [ho]))
    refine ⟨h3, ?_⟩
    simp only [history, List.mem_cons, not_or]
    exact ⟨Ne.symm h2, h4⟩

/-! ### C37 -/

/-- The bytes of two blocks do not meet; an empty request still has a byte of its own. -/
def Separate (p q : Nat × Nat) : Prop := p.1 + max 1 p.2 ≤ q.1 ∨ q.1 + max 1 q.2 ≤ p.1

theorem separate_of_used {s : State} (h : Inv s) {a b : Nat × Nat} (ha : a ∈ s.used)
    (hb : b ∈ s.used) (hne : a.1 ≠ b.1) : a.1 + 2 ^ a.2 ≤ b.1 ∨ b.1 + 2 ^ b.2 ≤ a.1 := by
  have key : ∀ {x y : Nat × Nat}, x ∈ s.used → y ∈ s.used → x.1 < y.1 → x.1 + 2 ^ x.2 ≤ y.1 := by
    intro x y hx hy hlt
    have hf := usedCnt_filter (b := y.1) (o := x.1) (l := x.2) h.nodup hx
    have h1 := usedCnt_pos (b := y.1) (p := y) (u := s.used.filter fun p => p.1 != x.1)
      (List.mem_filter.2 ⟨hy, by simp; omega⟩)
    rw [inC_self] at h1
    have h2 := h.cover.cov y.1
    have h3 : inC y.1 x.2 x.1 = 0 := by split at h2 <;> omega
    rw [inC] at h3
    split at h3
    · omega
    · omega
  rcases Nat.lt_or_gt_of_ne hne with hlt | hlt
  · exact Or.inl (key ha hb hlt)
  · exact Or.inr (key hb ha hlt)

/-- C37: in every history of calls the blocks a user holds lie inside the reserved region,
    have the requested length and no byte in common.  No call has undefined behaviour. -/
theorem C37_blocks_disjoint (ops : List Call) (hr : ∀ op ∈ ops, op.Representable) :
    let c := (history (State.init, []) ops).2
    (∀ p ∈ c.2, p.1 + max 1 p.2 ≤ c.1.size) ∧ c.2.Pairwise Separate ∧
      Out.ub ∉ (history (State.init, []) ops).1 := by
  obtain ⟨h, hub⟩ := sound_history sound_init hr
  generalize (history (State.init, []) ops).2 = c at h
  refine ⟨?_, ?_, hub⟩
  · intro p hp
    obtain ⟨l, hl, hl2⟩ := h.known p hp
    have hpos : 0 < 2 ^ l := Nat.pow_pos (by omega)
    have h1 := usedCnt_pos (b := p.1 + 2 ^ l - 1) hl
    simp only [inC] at h1
    rw [if_pos ⟨by omega, by omega⟩] at h1
    have h2 := h.inv.cover.cov (p.1 + 2 ^ l - 1)
    split at h2 <;> omega
  · have hn := h.nodup
    rw [List.Nodup, List.pairwise_map] at hn
    have := List.Pairwise.and_mem.1 hn
    refine this.imp ?_
    intro a b ⟨ha, hb, hne⟩
    obtain ⟨la, ha1, ha2⟩ := h.known a ha
    obtain ⟨lb, hb1, hb2⟩ := h.known b hb
    have hpa : 0 < 2 ^ la := Nat.pow_pos (by omega)
    have hpb : 0 < 2 ^ lb := Nat.pow_pos (by omega)
    have := separate_of_used h.inv ha1 hb1 hne
    simp only at this
    rw [Separate]
    omega

/-- Two blocks of three and five bytes in a pool of twenty, a third one freed in between. -/
example : (history (State.init, []) [.reserve 20, .allocate 3 1, .allocate 5 1, .allocate 1 2,
    .free 8, .allocate 1 4]).2.2 = [(8, 4), (0, 5), (16, 3)] := by decide +kernel

/-- A request whose byte count overflows `size_t` is answered with a single byte of the pool:
    2^61 elements of 8 bytes. -/
theorem C37_overflow_wrong :
    (history (State.init, []) [.reserve 16, .allocate 2305843009213693952 8, .allocate 1 1]).1
      = [.done, .pool 0, .pool 1] := by decide +kernel

/-! ### C38 -/

/-- All chunks (offset, length) the allocator knows of: free ones of each level, then used ones. -/
def chunks (s : State) : List (Nat × Nat) :=
  (s.free.zipIdx.flatMap fun p => p.1.map fun o => (o, 2 ^ p.2)) ++ s.used.map fun p => (p.1, 2 ^ p.2)

/-- The chunks containing byte `b`. -/
def holding (b : Nat) (l : List (Nat × Nat)) : List (Nat × Nat) :=
  l.filter fun p => decide (p.1 ≤ b ∧ b < p.1 + p.2)

theorem length_holding_map (b k : Nat) (l : List Nat) :
    (holding b (l.map fun o => (o, 2 ^ k))).length = levelCnt b k l := by
  induction l with
  | nil => rfl
  | cons o l ih =>
    simp only [holding, levelCnt, List.map_cons, List.sum_cons] at ih ⊢
    rw [List.filter_cons, inC]
    split
    · next h => rw [if_pos (by simpa using h), List.length_cons, ih]; omega
    · next h => rw [if_neg (by simpa using h), ih]; omega

theorem length_holding_free (b : Nat) : ∀ (f : List (List Nat)) (k : Nat),
    (holding b ((f.zipIdx k).flatMap fun p => p.1.map fun o => (o, 2 ^ p.2))).length = freeCnt b k f
  | [], _ => rfl
  | l :: f, k => by
    have := length_holding_free b f (k + 1)
    simp only [holding] at this
    rw [List.zipIdx_cons, List.flatMap_cons, holding, List.filter_append, List.length_append, freeCnt,
      this, ← length_holding_map, holding]

theorem length_holding_used (b : Nat) (u : List (Nat × Nat)) :
    (holding b (u.map fun p => (p.1, 2 ^ p.2))).length = usedCnt b u := by
  induction u with
  | nil => rfl
  | cons o l ih =>
    simp only [holding, usedCnt, List.map_cons, List.sum_cons] at ih ⊢
    rw [List.filter_cons, inC]
    split
    · next h => rw [if_pos (by simpa using h), List.length_cons, ih]; omega
    · next h => rw [if_neg (by simpa using h), ih]; omega

theorem length_holding {s : State} (h : Inv s) (b : Nat) :
    (holding b (chunks s)).length = if b < s.size then 1 else 0 := by
  rw [← h.cover.cov b, chunks, holding, List.filter_append, List.length_append]
  have h1 := length_holding_free b s.free 0
  have h2 := length_holding_used b s.used
  simp only [holding] at h1 h2
  rw [h1, h2]

/-- C38: after every history each byte of the reserved region belongs to exactly one chunk,
    free or used, and no chunk reaches outside.  Used chunks are exactly the held blocks. -/
theorem C38_partition (ops : List Call) (hr : ∀ op ∈ ops, op.Representable) :
    let c := (history (State.init, []) ops).2
    (∀ b, (holding b (chunks c.1)).length = if b < c.1.size then 1 else 0) ∧
      ∀ o, o ∈ c.1.used.map Prod.fst ↔ o ∈ c.2.map Prod.fst := by
  obtain ⟨h, _⟩ := sound_history sound_init hr
  generalize (history (State.init, []) ops).2 = c at h
  refine ⟨length_holding h.inv, fun o => ⟨fun ho => ?_, fun ho => ?_⟩⟩
  · obtain ⟨p, hp, rfl⟩ := List.mem_map.1 ho
    exact h.all p hp
  · obtain ⟨p, hp, rfl⟩ := List.mem_map.1 ho
    obtain ⟨l, hl, _⟩ := h.known p hp
    exact List.mem_map.2 ⟨_, hl, rfl⟩

/-- `n` consecutive bytes count `n` times. -/
theorem sum_inside (o n : Nat) : ∀ N, o + n ≤ N →
    ((List.range N).map fun b => if o ≤ b ∧ b < o + n then 1 else 0).sum = n := by
  intro N
  have h0 : ∀ N, ((List.range N).map fun b => if o ≤ b ∧ b < o + n then 1 else 0).sum
      = min N (o + n) - o := by
    intro N
    induction N with
    | zero => simp
    | succ N ih =>
      rw [List.range_succ, List.map_append, List.sum_append, ih]
      simp only [List.map_cons, List.map_nil, List.sum_cons, List.sum_nil]
      split <;> omega
  intro h
  rw [h0]
  omega

theorem sum_holding (N : Nat) : ∀ (l : List (Nat × Nat)), (∀ p ∈ l, p.1 + p.2 ≤ N) →
    ((List.range N).map fun b => (holding b l).length).sum = (l.map Prod.snd).sum
  | [], _ => by
    have : ((List.range N).map fun b => (holding b []).length) = List.replicate N 0 := by
      rw [List.eq_replicate_iff]
      simp [holding]
    rw [this]
    simp
  | p :: l, h => by
    have h1 := sum_holding N l (fun q hq => h q (by simp [hq]))
    have h2 := sum_inside p.1 p.2 N (h p (by simp))
    rw [List.map_cons, List.sum_cons, ← h1, ← h2]
    have : ∀ r : List Nat, (r.map fun b => (holding b (p :: l)).length).sum
        = (r.map fun b => if p.1 ≤ b ∧ b < p.1 + p.2 then 1 else 0).sum
          + (r.map fun b => (holding b l).length).sum := by
      intro r
      induction r with
      | nil => rfl
      | cons b r ih =>
        simp only [List.map_cons, List.sum_cons, ih]
        have : (holding b (p :: l)).length
            = (if p.1 ≤ b ∧ b < p.1 + p.2 then 1 else 0) + (holding b l).length := by
          rw [holding, List.filter_cons]
          split
          · next hh => rw [if_pos (by simpa using hh), List.length_cons, Nat.add_comm]; rfl
          · next hh => rw [if_neg (by simpa using hh), Nat.zero_add]; rfl
        omega
    exact this _

/-- C38, in numbers: the lengths of all chunks always add up to the size of the pool. -/
theorem C38_total (ops : List Call) (hr : ∀ op ∈ ops, op.Representable) :
    let c := (history (State.init, []) ops).2
    ((chunks c.1).map Prod.snd).sum = c.1.size := by
  obtain ⟨h, _⟩ := sound_history sound_init hr
  generalize (history (State.init, []) ops).2 = c at h
  simp only
  rw [← sum_holding c.1.size (chunks c.1)]
  · have : ((List.range c.1.size).map fun b => (holding b (chunks c.1)).length)
        = List.replicate c.1.size 1 := by
      rw [List.eq_replicate_iff]
      refine ⟨by simp, ?_⟩
      intro x hx
      obtain ⟨b, hb, rfl⟩ := List.mem_map.1 hx
      rw [length_holding h.inv, if_pos (List.mem_range.1 hb)]
    rw [this]
    simp
  · intro p hp
    by_cases hp0 : p.2 = 0
    · -- chunk lengths are powers of two
      simp only [chunks, List.mem_append, List.mem_flatMap, List.mem_map] at hp
      rcases hp with ⟨q, _, o, _, rfl⟩ | ⟨q, _, rfl⟩
      · exact absurd hp0 (Nat.pos_iff_ne_zero.1 (Nat.pow_pos (by omega)))
      · exact absurd hp0 (Nat.pos_iff_ne_zero.1 (Nat.pow_pos (by omega)))
    · have h1 := length_holding h.inv (p.1 + p.2 - 1)
      have h2 : p ∈ holding (p.1 + p.2 - 1) (chunks c.1) :=
        List.mem_filter.2 ⟨hp, by simp; omega⟩
      have := List.length_pos_of_mem h2
      split at h1 <;> omega

example : chunks (history (State.init, []) [.reserve 7, .allocate 1 1, .allocate 1 1, .free 6]).2.1
    = [(5, 2), (0, 4), (4, 1)] := by decide +kernel

/-! ### C39 -/

/-- C39 is false.  In a fresh pool of four bytes a request of three is served from the pool.
    After four single bytes were allocated and given back in the order 1, 2, 0, 3 it is not:
    the middle pair was merged and can never be joined with its neighbours. -/
theorem C39_restored_wrong :
    (history (State.init, []) [.reserve 4, .allocate 3 1]).1 = [.done, .pool 0] ∧
    (history (State.init, []) [.reserve 4, .allocate 1 1, .allocate 1 1, .allocate 1 1, .allocate 1 1,
      .free 1, .free 2, .free 0, .free 3, .allocate 3 1]).1.getLast? = some .heap ∧
    (history (State.init, []) [.reserve 4, .allocate 1 1, .allocate 1 1, .allocate 1 1, .allocate 1 1,
      .free 1, .free 2, .free 0, .free 3]).2.2 = [] := by decide +kernel

/-- A user who gives blocks back in reverse order. -/
inductive StackCall where
  | push (count size : Nat)
  | pop

/-- The stack remembers where each allocation came from (`none`: heap). -/
def stackCall (c : State × List (Option Nat)) : StackCall → State × List (Option Nat)
  | .push n sz =>
    match allocate c.1 n sz with
    | (.pool o, s) => (s, some o :: c.2)
    | (_, s) => (s, none :: c.2)
  | .pop =>
    match c.2 with
    | some o :: st => ((free c.1 o).2, st)
    | none :: st => (c.1, st)
    | [] => c

/-- The allocator is what the allocations still on the stack make of the state at the start. -/
inductive Pushed (s0 : State) : State × List (Option Nat) → Prop
  | base : Pushed s0 (s0, [])
  | pool {s s' st n sz o} : Pushed s0 (s, st) → allocate s n sz = (.pool o, s') → Pushed s0 (s', some o :: st)
  | heap {s st} : Pushed s0 (s, st) → Pushed s0 (s, none :: st)

theorem Pushed.good {s0 : State} (h0 : Inv s0) (hn : NoAdj s0.free) {c} (h : Pushed s0 c) :
    Inv c.1 ∧ NoAdj c.1.free ∧ c.1.locked = s0.locked := by
  induction h with
  | base => exact ⟨h0, hn, rfl⟩
  | pool _ ha ih =>
    obtain ⟨a, b, d⟩ := ih
    rename_i s s' st n sz o _
    have hi := inv_allocate a n sz
    rw [ha] at hi
    exact ⟨hi.1, noAdj_allocate a b ha, by rw [hi.2.2.2.2.1]; exact d⟩
  | heap _ ih => exact ih

theorem pushed_call {s0 : State} (h0 : Inv s0) (hn : NoAdj s0.free) (hl : s0.locked = false)
    {c} (h : Pushed s0 c) (op : StackCall) : Pushed s0 (stackCall c op) := by
  obtain ⟨hi, ha, hlk⟩ := h.good h0 hn
  cases op with
  | push n sz =>
    simp only [stackCall]
    obtain ⟨h1, h2, h3, h4, h5, h6⟩ := inv_allocate hi n sz
    generalize hal : allocate c.1 n sz = r at *
    obtain ⟨out, s'⟩ := r
    cases out with
    | pool o => exact .pool h hal
    | heap =>
      have := allocate_heap hal
      subst this
      exact .heap h
    | hang =>
      rw [allocate, hlk, hl] at hal
      simp only [Bool.false_eq_true, if_false] at hal
      repeat' split at hal
      all_goals simp at hal
    | ub => simp at h2
    | done =>
      rw [allocate] at hal
      simp only at hal
      repeat' split at hal
      all_goals simp at hal
    | throw =>
      rw [allocate] at hal
      simp only at hal
      repeat' split at hal
      all_goals simp at hal
  | pop =>
    simp only [stackCall]
    cases h with
    | base => exact .base
    | pool h' hal =>
      obtain ⟨hi', ha', _⟩ := h'.good h0 hn
      simp only [free_allocate hi' ha' hal]
      exact h'
    | heap h' => exact h'

theorem pushed_stack {s0 : State} (h0 : Inv s0) (hn : NoAdj s0.free) (hl : s0.locked = false)
    (ops : List StackCall) : ∀ {c}, Pushed s0 c → Pushed s0 (ops.foldl stackCall c) := by
  induction ops with
  | nil => intro c h; exact h
  | cons op ops ih => intro c h; exact ih (pushed_call h0 hn hl h op)

/-- C39, the true part: from any state a history can reach, if blocks are given back in
    reverse order and all of them have been given back, the allocator is exactly what it was,
    so whatever was served from the pool before is again.
    Missing from the full property: other orders of release, for which it is false
    (`C39_restored_wrong`). -/
theorem C39_restored_partial (before : List Call) (hr : ∀ op ∈ before, op.Representable)
    (hl : (history (State.init, []) before).2.1.locked = false) (ops : List StackCall)
    (hall : (ops.foldl stackCall ((history (State.init, []) before).2.1, [])).2 = []) :
    (ops.foldl stackCall ((history (State.init, []) before).2.1, [])).1
      = (history (State.init, []) before).2.1 := by
  obtain ⟨h, _⟩ := sound_history sound_init hr
  have := pushed_stack h.inv h.noAdj hl ops .base
  generalize ops.foldl stackCall ((history (State.init, []) before).2.1, []) = c at this hall
  obtain ⟨s, st⟩ := c
  simp only at hall
  subst hall
  cases this
  rfl

example : (history (State.init, []) [.reserve 12, .allocate 1 1, .allocate 2 1, .free 8]).2.1.locked = false ∧
    ([.push 1 1, .push 3 1, .pop, .push 100 1, .push 2 1, .pop, .pop, .pop].foldl stackCall
      ((history (State.init, []) [.reserve 12, .allocate 1 1, .allocate 2 1, .free 8]).2.1, [])).2 = [] := by
  decide +kernel

/-- C39, for every order of release: when the user holds nothing, all bytes are in free chunks,
    and of any two free chunks of the same length one does not begin where the other ends. -/
theorem C39_all_free_partial (ops : List Call) (hr : ∀ op ∈ ops, op.Representable)
    (hnone : (history (State.init, []) ops).2.2 = []) :
    let s := (history (State.init, []) ops).2.1
    s.used = [] ∧ ((chunks s).map Prod.snd).sum = s.size ∧
      ∀ o n, (o, n) ∈ chunks s → (o + n, n) ∉ chunks s := by
  have ht := C38_total ops hr
  obtain ⟨h, _⟩ := sound_history sound_init hr
  generalize (history (State.init, []) ops).2 = c at h hnone ht
  have hu : c.1.used = [] := by
    rw [List.eq_nil_iff_forall_not_mem]
    intro p hp
    have := h.all p hp
    simp [hnone] at this
  refine ⟨hu, ht, ?_⟩
  intro o n ho ho2
  simp only [chunks, hu, List.map_nil, List.append_nil, List.mem_flatMap, List.mem_map,
    Prod.mk.injEq] at ho ho2
  obtain ⟨⟨l, i⟩, hl, a, ha, rfl, rfl⟩ := ho
  obtain ⟨⟨l', i'⟩, hl', a', ha', rfl, he⟩ := ho2
  simp only at *
  have hii : i' = i := (Nat.pow_right_inj (a := 2) (by omega)).1 he
  subst hii
  have g1 : c.1.free[i']? = some l := by
    have := List.mem_zipIdx_iff_getElem?.1 hl
    simpa using this
  have g2 : c.1.free[i']? = some l' := by
    have := List.mem_zipIdx_iff_getElem?.1 hl'
    simpa using this
  rw [g1, Option.some.injEq] at g2
  subst g2
  exact h.noAdj _ _ g1 a ha ha'

/-! ### C40 -/

/-- C40 is false: pool of four bytes, four single bytes, the middle two given back and merged;
    a two-byte element is then placed at the odd offset 1. -/
theorem C40_aligned_wrong :
    (history (State.init, []) [.reserve 4, .allocate 1 1, .allocate 1 1, .allocate 1 1, .allocate 1 1,
      .free 1, .free 2, .allocate 1 2]).1.getLast? = some (.pool 1) := by decide +kernel

theorem Pushed.buddy {s0 : State} (h0 : Inv s0) (hn : NoAdj s0.free) (hb : Buddy s0.free) {c}
    (h : Pushed s0 c) : Buddy c.1.free := by
  induction h with
  | base => exact hb
  | pool h' ha ih => exact (buddy_allocate (h'.good h0 hn).1 ih ha).1
  | heap _ ih => exact ih

/-- C40, the true part: in a newly reserved pool used in stack order (in particular when nothing
    has been given back yet) the address of every block is a multiple of the element size,
    for elements of 1, 2, 4, 8, 16 or 32 bytes; `base` is the aligned start of the pool.
    Missing from the full property: other orders of release (`C40_aligned_wrong`). -/
theorem C40_aligned_partial {bytes base n k o : Nat} {s' : State} (hbytes : bytes ≤ 9223372036854775808)
    (hne : bytes ≠ 0) (hbase : 32 ∣ base) (hk : k ≤ 5) (hn : 0 < n) (hrep : n * 2 ^ k < 18446744073709551616)
    (ops : List StackCall)
    (ha : allocate (ops.foldl stackCall ((reserve State.init bytes).2, [])).1 n (2 ^ k) = (.pool o, s')) :
    2 ^ k ∣ base + o := by
  obtain ⟨f, hf, _⟩ := reserve_lists hne hbytes
  have hd : (reserve State.init bytes) = (.done, ⟨bytes, f, [], false⟩) := by
    rw [reserve, if_neg hne]
    simp [State.init, hne, hf]
  have hsh := reserve_shape (s := State.init) hbytes (by rw [hd])
  have hi := (inv_reserve inv_init hbytes).1
  rw [hd] at hsh hi ha
  have hsh : NoAdj f ∧ Buddy f := by
    rcases hsh with h | h
    · simp only [State.init, State.mk.injEq] at h
      exact absurd h.1 hne
    · exact h
  have hp := pushed_stack hi hsh.1 rfl ops .base
  have hg := hp.good hi hsh.1
  obtain ⟨_, r, hr, hdv⟩ := buddy_allocate hg.1 (hp.buddy hi hsh.1 hsh.2) ha
  obtain ⟨r', hr', hle, _⟩ := getLevel_ok (n := n * 2 ^ k % 18446744073709551616) (by
    rw [allocate] at ha
    split at ha
    · simp at ha
    · simp only at ha
      split at ha
      · next hsz =>
        have := hg.1.small
        simp only at this
        omega
      · simp at ha)
  rw [hr, Option.some.injEq] at hr'
  subst hr'
  rw [Nat.mod_eq_of_lt hrep] at hle
  have hkr : k ≤ r := by
    by_cases hc : k ≤ r
    · exact hc
    · have h1 := Nat.pow_lt_pow_right (a := 2) (by omega) (Nat.lt_of_not_le hc)
      have h2 := Nat.le_mul_of_pos_left (2 ^ k) hn
      omega
  refine Nat.dvd_add (Nat.dvd_trans ?_ hbase) (Nat.dvd_trans (Nat.pow_dvd_pow 2 hkr) hdv)
  exact Nat.pow_dvd_pow 2 (n := 5) hk

example : allocate ([.push 1 1, .push 3 1, .pop].foldl stackCall ((reserve State.init 40).2, [])).1 2 4
    = (.pool 0, ⟨40, [[33], [34], [36], [8], [16], []], [(0, 3), (32, 0)], false⟩) := by
  decide +kernel

/-! ### C41 -/

/-- C41 is false: after `reserve` was refused because a block is in use, the next `allocate`
    and the next `free` wait for ever (the lock is still held). -/
theorem C41_usable_wrong :
    (history (State.init, []) [.reserve 8, .allocate 1 1, .reserve 16, .allocate 1 1, .free 0]).1
      = [.done, .pool 0, .throw, .hang, .hang] := by decide +kernel

/-- The calls after a refused `reserve` never return, whatever they are. -/
theorem C41_refused_blocks_all (c : State × Held) (n : Nat) (hn : n ≠ 0) (hs : n ≠ c.1.size)
    (hu : c.1.used ≠ []) (hl : c.1.locked = false) :
    (call c (.reserve n)).1 = .throw ∧ ∀ k sz, (call (call c (.reserve n)).2 (.allocate k sz)).1 = .hang := by
  have : reserve c.1 n = (.throw, { c.1 with locked := true }) := by
    rw [reserve, if_neg hn, if_neg hs, if_neg (by simp [hl]), if_pos hu]
  refine ⟨by simp [call, this], fun k sz => ?_⟩
  simp [call, this, allocate]

/-- C41, the true part: a `reserve` refused for its size argument (zero), or one asking for the
    present size, changes nothing; and as long as no `reserve` was refused for memory in use, no
    call ever blocks.  Missing: the refusal the property is about. -/
theorem C41_usable_partial (ops : List Call) : ∀ (c : State × Held), c.1.locked = false →
    (∀ (i n : Nat), ops[i]? = some (Call.reserve n) → n ≠ 0 → (history c ops).1[i]? ≠ some Out.throw) →
    Out.hang ∉ (history c ops).1 := by
  induction ops with
  | nil => intro c _ _; simp [history]
  | cons op ops ih =>
    intro c hl hthrow
    have h0 : (call c op).1 ≠ .hang ∧ (call c op).2.1.locked = false := by
      cases op with
      | reserve n =>
        have ht := hthrow 0 n rfl
        simp only [history, List.getElem?_cons_zero, ne_eq, Option.some.injEq] at ht
        simp only [call] at ht ⊢
        rw [reserve] at ht ⊢
        split
        · exact ⟨by simp, hl⟩
        · next h1 =>
          split
          · exact ⟨by simp, hl⟩
          · split
            · next h3 => rw [hl] at h3; cases h3
            · split
              · next h2 h3 h4 =>
                rw [if_neg h1, if_neg h2, if_neg h3, if_pos h4] at ht
                exact absurd rfl (ht h1)
              · split <;> exact ⟨by simp, hl⟩
      | allocate n sz =>
        simp only [call]
        rw [allocate, hl]
        simp only [Bool.false_eq_true, if_false]
        repeat' split
        all_goals first | exact ⟨by simp, hl⟩ | exact ⟨by simp, rfl⟩ | simp_all
      | free o =>
        simp only [call]
        split
        · rw [free, hl]
          simp only [Bool.false_eq_true, if_false]
          repeat' split
          all_goals first | exact ⟨by simp, hl⟩ | simp_all
        · exact ⟨by simp, hl⟩
      | freeHeap =>
        simp only [call, hl]
        exact ⟨by simp, by simpa using hl⟩
    have := ih (call c op).2 h0.2 (fun i n hi hn => by
      have := hthrow (i + 1) n (by simpa using hi) hn
      simpa [history] using this)
    simp only [history, List.mem_cons, not_or]
    exact ⟨Ne.symm h0.1, this⟩

example : (history (State.init, []) [.reserve 8, .reserve 0, .allocate 1 1, .reserve 8, .free 0, .reserve 16]).1
    = [.done, .throw, .pool 0, .done, .done, .done] := by decide +kernel

end PV.Props
