import Verif.DeviceAlloc
import Verif.PropsAlloc
/-
  C116, C117: the memory pools of devices.
-/
namespace PV.Props

open PV.Alloc
open PV.DeviceAlloc (Device cuda opencl)

/-- A call made by a user of the allocator of a device.  `given` says whether the device has memory, should it be asked. -/
inductive DeviceCall where
  | reserve (given : Bool) (bytes : Nat)
  /-- `allocate< T >( count )` with `sizeof( T ) = size` -/
  | allocate (given : Bool) (count size : Nat)
  /-- give back the block at this pool offset -/
  | free (offset : Nat)
deriving DecidableEq

/-- One call; the user notes the blocks received and strikes out those given back.  Memory not in the user's list is never passed to `free`. -/
def deviceCall (dev : Device) (c : State × Held) : DeviceCall → Out × (State × Held)
  | .reserve given n => let r := DeviceAlloc.reserve dev c.1 given n; (r.1, (r.2, c.2))
  | .allocate given n sz =>
    let r := DeviceAlloc.allocate dev c.1 given n sz
    (r.1, (r.2, match r.1 with | .pool o => (o, n * sz) :: c.2 | _ => c.2))
  | .free o =>
    if o ∈ c.2.map Prod.fst then
      let r := DeviceAlloc.free c.1 o
      (r.1, (r.2, match r.1 with | .done => c.2.filter fun p => p.1 != o | _ => c.2))
    else (.heap, c)

/-- All calls of a history, and what each of them did. -/
def deviceHistory (dev : Device) : State × Held → List DeviceCall → List Out × (State × Held)
  | c, [] => ([], c)
  | c, op :: ops =>
    let r := deviceCall dev c op
    let q := deviceHistory dev r.2 ops
    (r.1 :: q.1, q.2)

/-- Sizes the machine can represent. -/
def DeviceCall.Representable : DeviceCall → Prop
  | .reserve _ n => n ≤ 9223372036854775808
  | .allocate _ n sz => n * sz < 18446744073709551616
  | _ => True

/-- The user's view and the allocator agree. -/
structure DeviceSound (c : State × Held) : Prop where
  inv : Alloc.Inv c.1
  unlocked : c.1.locked = false
  known : ∀ p ∈ c.2, ∃ l, (p.1, l) ∈ c.1.used ∧ p.2 ≤ 2 ^ l
  all : ∀ p ∈ c.1.used, p.1 ∈ c.2.map Prod.fst
  nodup : (c.2.map Prod.fst).Nodup

theorem deviceSound_init : DeviceSound (State.init, []) := ⟨inv_init, rfl, by simp, by simp [State.init], by simp⟩

theorem device_reserve_used (dev : Device) (s : State) (ok : Bool) (n : Nat) :
    (DeviceAlloc.reserve dev s ok n).2.used = s.used ∧ (DeviceAlloc.reserve dev s ok n).2.locked = s.locked ∧
    (DeviceAlloc.reserve dev s ok n).1 ≠ .hang := by
  rw [DeviceAlloc.reserve]
  repeat' split
  all_goals exact ⟨rfl, rfl, by simp⟩

theorem device_allocate_locked (dev : Device) (s : State) (ok : Bool) (n sz : Nat) :
    (DeviceAlloc.allocate dev s ok n sz).2.locked = s.locked ∧ (DeviceAlloc.allocate dev s ok n sz).1 ≠ .hang ∧
    (DeviceAlloc.allocate dev s ok n sz).1 ≠ .done := by
  rw [DeviceAlloc.allocate]
  simp only [DeviceAlloc.outside]
  repeat' split
  all_goals exact ⟨rfl, by simp, by simp⟩

theorem device_free_locked (s : State) (o : Nat) :
    (DeviceAlloc.free s o).2.locked = false ∧ (DeviceAlloc.free s o).1 ≠ .hang := by
  rw [DeviceAlloc.free, Alloc.free]
  simp only [Bool.false_eq_true, if_false]
  repeat' split
  all_goals exact ⟨rfl, by simp⟩

theorem deviceSound_call {dev : Device} (hdev : dev.minChunk ≤ 9223372036854775808) {c : State × Held} (h : DeviceSound c) (op : DeviceCall)
    (hr : op.Representable) :
    DeviceSound (deviceCall dev c op).2 ∧ (deviceCall dev c op).1 ≠ .ub ∧ (deviceCall dev c op).1 ≠ .hang := by
  cases op with
  | reserve ok n =>
    obtain ⟨h1, h2⟩ := DeviceAlloc.inv_reserve (dev := dev) (ok := ok) h.inv hr
    obtain ⟨hu, hl, hh⟩ := device_reserve_used dev c.1 ok n
    exact ⟨⟨h1, by simp only [deviceCall, hl]; exact h.unlocked, by simp only [deviceCall, hu]; exact h.known,
      by simp only [deviceCall, hu]; exact h.all, h.nodup⟩, h2, hh⟩
  | allocate ok n sz =>
    obtain ⟨h1, h2, h3, h4, h6⟩ := DeviceAlloc.inv_allocate hdev h.inv ok n sz
    obtain ⟨hl, hh, hd⟩ := device_allocate_locked dev c.1 ok n sz
    refine ⟨?_, h2, hh⟩
    simp only [deviceCall]
    generalize ha : DeviceAlloc.allocate dev c.1 ok n sz = r at *
    obtain ⟨out, s'⟩ := r
    simp only at hl
    rw [h.unlocked] at hl
    cases out with
    | pool o =>
      obtain ⟨l, e1, e2, _⟩ := h6 o rfl
      simp only at e1 ⊢
      have hnew : o ∉ c.2.map Prod.fst := by
        intro hm
        obtain ⟨p, hp, he⟩ := List.mem_map.1 hm
        obtain ⟨lp, hk, _⟩ := h.known p hp
        have := h1.nodup
        simp only [e1, List.map_cons, List.nodup_cons] at this
        exact this.1 (by rw [← he]; exact List.mem_map.2 ⟨_, hk, rfl⟩)
      refine ⟨h1, hl, ?_, ?_, ?_⟩
      · intro p hp
        simp only [e1]
        rcases List.mem_cons.1 hp with rfl | hp
        · have : n * sz % 18446744073709551616 = n * sz := Nat.mod_eq_of_lt hr
          exact ⟨l, by simp, by simp only; omega⟩
        · obtain ⟨lp, hk, hk2⟩ := h.known p hp
          exact ⟨lp, by simp [hk], hk2⟩
      · intro p hp
        simp only [e1] at hp
        rcases List.mem_cons.1 hp with rfl | hp
        · simp
        · have := h.all p hp
          simp only [List.map_cons, List.mem_cons]
          exact Or.inr this
      · simp only [List.map_cons, List.nodup_cons]
        exact ⟨hnew, h.nodup⟩
    | heap =>
      have hu : s'.used = c.1.used := h3 (by simp)
      exact ⟨h1, hl, by simp only [hu]; exact h.known, by simp only [hu]; exact h.all, h.nodup⟩
    | throw =>
      have hu : s'.used = c.1.used := h3 (by simp)
      exact ⟨h1, hl, by simp only [hu]; exact h.known, by simp only [hu]; exact h.all, h.nodup⟩
    | hang => simp at hh
    | done => simp at hd
    | ub => simp at h2
  | free o =>
    rw [deviceCall]
    split
    · obtain ⟨h1, h2, h3, h5, h6, h7⟩ := DeviceAlloc.inv_free h.inv o
      obtain ⟨hl, hh⟩ := device_free_locked c.1 o
      refine ⟨?_, h2, hh⟩
      simp only
      generalize hf : DeviceAlloc.free c.1 o = r at *
      obtain ⟨out, s'⟩ := r
      by_cases hd : out = .done
      · subst hd
        have hu := h5 rfl
        simp only at hu ⊢
        refine ⟨h1, hl, ?_, ?_, ?_⟩
        · intro p hp
          obtain ⟨hp1, hp2⟩ := List.mem_filter.1 hp
          obtain ⟨l, hl, hl2⟩ := h.known p hp1
          refine ⟨l, ?_, hl2⟩
          simp only [hu]
          exact List.mem_filter.2 ⟨hl, hp2⟩
        · intro p hp
          simp only [hu] at hp
          obtain ⟨hp1, hp2⟩ := List.mem_filter.1 hp
          obtain ⟨q, hq, he⟩ := List.mem_map.1 (h.all p hp1)
          exact List.mem_map.2 ⟨q, List.mem_filter.2 ⟨hq, by rw [he]; exact hp2⟩, he⟩
        · exact (h.nodup.sublist (List.filter_sublist.map _))
      · have hu : s'.used = c.1.used := h6 hd
        cases out <;> first | exact absurd rfl hd |
          exact ⟨h1, hl, by simp only [hu]; exact h.known, by simp only [hu]; exact h.all, h.nodup⟩
    · exact ⟨h, by simp, by simp⟩

theorem deviceSound_history {dev : Device} (hdev : dev.minChunk ≤ 9223372036854775808) {ops : List DeviceCall} :
    ∀ {c : State × Held}, DeviceSound c → (∀ op ∈ ops, op.Representable) →
    DeviceSound (deviceHistory dev c ops).2 ∧ .ub ∉ (deviceHistory dev c ops).1 ∧ .hang ∉ (deviceHistory dev c ops).1 := by
  induction ops with
  | nil => intro c h _; exact ⟨h, by simp [deviceHistory], by simp [deviceHistory]⟩
  | cons op ops ih =>
    intro c h hr
    obtain ⟨h1, h2, h2'⟩ := deviceSound_call hdev h op (hr op (by simp))
    obtain ⟨h3, h4, h5⟩ := ih h1 (fun o ho => hr o (by simp [ho]))
    refine ⟨h3, ?_, ?_⟩
    · simp only [deviceHistory, List.mem_cons, not_or]
      exact ⟨Ne.symm h2, h4⟩
    · simp only [deviceHistory, List.mem_cons, not_or]
      exact ⟨Ne.symm h2', h5⟩

/-! ### C116 -/

/-- C116: in every history of calls, with whatever failures of the device, the blocks of the pool a user holds lie inside of the reserved
    memory, have the requested length and no byte in common.  No call has undefined behaviour or waits for ever. -/
theorem C116_blocks_disjoint {dev : Device} (hdev : dev.minChunk ≤ 9223372036854775808) (ops : List DeviceCall)
    (hr : ∀ op ∈ ops, op.Representable) :
    let c := (deviceHistory dev (State.init, []) ops).2
    (∀ p ∈ c.2, p.1 + max 1 p.2 ≤ c.1.size) ∧ c.2.Pairwise Separate ∧
      Out.ub ∉ (deviceHistory dev (State.init, []) ops).1 ∧ Out.hang ∉ (deviceHistory dev (State.init, []) ops).1 := by
  obtain ⟨h, hub, hh⟩ := deviceSound_history hdev deviceSound_init hr
  generalize (deviceHistory dev (State.init, []) ops).2 = c at h
  refine ⟨?_, ?_, hub, hh⟩
  · intro p hp
    obtain ⟨l, hl, hl2⟩ := h.known p hp
    have hpos : 0 < 2 ^ l := Nat.pow_pos (by omega)
    have h1 := usedCnt_pos (b := p.1 + 2 ^ l - 1) hl
    simp only [inC] at h1
    rw [if_pos ⟨by omega, by omega⟩] at h1
    have h2 := h.inv.cover.cov (p.1 + 2 ^ l - 1)
    split at h2 <;> omega
  · have hn := h.nodup
    rw [List.Nodup, List.pairwise_map] at hn
    have := List.Pairwise.and_mem.1 hn
    refine this.imp ?_
    intro a b ⟨ha, hb, hne⟩
    obtain ⟨la, ha1, ha2⟩ := h.known a ha
    obtain ⟨lb, hb1, hb2⟩ := h.known b hb
    have hpa : 0 < 2 ^ la := Nat.pow_pos (by omega)
    have hpb : 0 < 2 ^ lb := Nat.pow_pos (by omega)
    have := separate_of_used h.inv ha1 hb1 hne
    simp only at this
    rw [Separate]
    omega

/-- C116: each byte of the reserved memory belongs to exactly one chunk, free or used; the used ones are exactly the blocks held.  So no byte
    is lost, whatever calls failed. -/
theorem C116_partition {dev : Device} (hdev : dev.minChunk ≤ 9223372036854775808) (ops : List DeviceCall)
    (hr : ∀ op ∈ ops, op.Representable) :
    let c := (deviceHistory dev (State.init, []) ops).2
    (∀ b, (holding b (chunks c.1)).length = if b < c.1.size then 1 else 0) ∧
      ∀ o, o ∈ c.1.used.map Prod.fst ↔ o ∈ c.2.map Prod.fst := by
  obtain ⟨h, _⟩ := deviceSound_history hdev deviceSound_init hr
  generalize (deviceHistory dev (State.init, []) ops).2 = c at h
  refine ⟨length_holding h.inv, fun o => ⟨fun ho => ?_, fun ho => ?_⟩⟩
  · obtain ⟨p, hp, rfl⟩ := List.mem_map.1 ho
    exact h.all p hp
  · obtain ⟨p, hp, rfl⟩ := List.mem_map.1 ho
    obtain ⟨l, hl, _⟩ := h.known p hp
    exact List.mem_map.2 ⟨_, hl, rfl⟩

/-- C116: a block held can always be given back, and then is no longer held, nor any other released. -/
theorem C116_free {dev : Device} (hdev : dev.minChunk ≤ 9223372036854775808) (ops : List DeviceCall) (hr : ∀ op ∈ ops, op.Representable)
    (o : Nat) :
    let c := (deviceHistory dev (State.init, []) ops).2
    o ∈ c.2.map Prod.fst →
    (deviceCall dev c (.free o)).1 = .done ∧ (deviceCall dev c (.free o)).2.2 = c.2.filter fun p => p.1 != o := by
  obtain ⟨h, _⟩ := deviceSound_history hdev deviceSound_init hr
  generalize (deviceHistory dev (State.init, []) ops).2 = c at h
  intro c' ho
  obtain ⟨p, hp, rfl⟩ := List.mem_map.1 ho
  obtain ⟨l, hl, _⟩ := h.known p hp
  have hd := (DeviceAlloc.inv_free h.inv p.1).2.2.2.2.2 (List.mem_map.2 ⟨_, hl, rfl⟩)
  rw [deviceCall, if_pos ho]
  simp only [c'] at hd ⊢
  rw [hd]
  exact ⟨rfl, rfl⟩

/-- C116: `reserve` is refused for size zero, for more than the device has, while blocks are held, or if the device fails.  Refused by the
    program it changes nothing; after a failure of the device there is no pool, and the next `reserve` starts from the beginning.  Otherwise
    the pool has the size asked for, and no block of it is in use if it is a new one. -/
theorem C116_reserve {dev : Device} (hdev : dev.minChunk ≤ 9223372036854775808) (ops : List DeviceCall) (hr : ∀ op ∈ ops, op.Representable)
    (given : Bool) (n : Nat) (hn : n ≤ 9223372036854775808) :
    let c := (deviceHistory dev (State.init, []) ops).2
    let r := deviceCall dev c (.reserve given n)
    (r.1 = .done ∨ r.1 = .throw) ∧
    (r.1 = .done ↔ n ≠ 0 ∧ (n = c.1.size ∨ (n ≤ dev.avail ∧ c.2 = [] ∧ given = true))) ∧
    (r.1 = .done → r.2.1.size = n) ∧ r.2.2 = c.2 ∧
    (r.1 = .throw → r.2 = c ∨ (c.2 = [] ∧ given = false ∧ r.2.1 = State.init)) := by
  obtain ⟨h, _⟩ := deviceSound_history hdev deviceSound_init hr
  generalize (deviceHistory dev (State.init, []) ops).2 = c at h
  intro c' r
  have hu : c.1.used = [] ↔ c.2 = [] := by
    constructor
    · intro hu
      match hc : c.2 with
      | [] => rfl
      | p :: q =>
        obtain ⟨l, hl, _⟩ := h.known p (by rw [hc]; simp)
        rw [hu] at hl
        simp at hl
    · intro hc
      match hu : c.1.used with
      | [] => rfl
      | p :: q =>
        have := h.all p (by rw [hu]; simp)
        rw [hc] at this
        simp at this
  have hub := (DeviceAlloc.inv_reserve (dev := dev) (ok := given) h.inv hn).2
  obtain ⟨s, held⟩ := c
  simp only at hu hub
  simp only [r, c', deviceCall]
  rw [DeviceAlloc.reserve] at hub ⊢
  by_cases h0 : n = 0
  · simp [h0]
  by_cases h1 : n = s.size
  · simp [h1, h1 ▸ h0]
  by_cases h2 : n > dev.avail
  · simp only [h0, h1, h2, if_true, if_false]
    simp
    intro _ _
    omega
  by_cases h3 : s.used = []
  · have h3' := hu.1 h3
    subst h3'
    cases given with
    | false =>
      simp only [h0, h1, h2, h3, if_false]
      have := h.unlocked
      simp only at this
      simp [State.init, this, h3]
    | true =>
      simp only [h0, h1, h2, h3, if_false] at hub ⊢
      cases hl : reserveLoop (n + 1) n 0 [] with
      | some f =>
        simp
        omega
      | none => simp [hl] at hub
  · have h3' : held ≠ [] := fun e => h3 (hu.2 e)
    simp [h0, h1, h2, h3, h3']

/-- C116: with a CUDA device that has memory the pool is served as the one of main memory. -/
theorem C116_cuda_as_host (avail : Nat) (s : State) (hs : s.locked = false) (n sz : Nat) :
    DeviceAlloc.allocate (cuda avail) s true n sz = Alloc.allocate s n sz ∧ ∀ o, DeviceAlloc.free s o = Alloc.free s o := by
  constructor
  · rw [DeviceAlloc.allocate, Alloc.allocate]
    simp only [hs, cuda, DeviceAlloc.outside]
    simp only [Nat.not_lt_zero, if_false, if_true, Bool.not_true, Bool.false_eq_true]
    repeat' split
    all_goals simp_all
  · intro o
    rw [DeviceAlloc.free]
    congr 1
    obtain ⟨a, b, c, d⟩ := s
    simp only at hs
    rw [hs]

/-- A pool of 4096 bytes of an OpenCL device with an alignment of 1024 bits: a `reserve` refused, a request bigger than the pool with the
    device out of memory, four blocks, then memory outside of the pool; a block is given back and used again. -/
example : deviceHistory (opencl 8192 1024) (State.init, []) [.reserve true 10000, .reserve true 4096, .allocate false 5000 1,
    .allocate true 10 4, .allocate true 1 1, .allocate true 2 1, .allocate true 1000 1, .reserve true 8192, .allocate true 7 1, .free 1024,
    .allocate true 100 4, .allocate true 5000 1] =
    ([.throw, .done, .throw, .pool 0, .pool 1024, .pool 2048, .pool 3072, .throw, .heap, .done, .pool 1024, .heap],
      (⟨4096, [[], [], [], [], [], [], [], [], [], [], [], [], []], [(1024, 10), (3072, 10), (2048, 10), (0, 10)], false⟩,
        [(1024, 400), (3072, 1000), (2048, 2), (0, 40)])) := by decide +kernel

/-! ### C117 -/

/-- C117 is false for CUDA: in a pool of four bytes four single bytes are taken and the middle ones given back; a number of two bytes is then
    placed at offset 1. -/
theorem C117_cuda_wrong :
    (deviceHistory (cuda 4) (State.init, []) [.reserve true 4, .allocate true 1 1, .allocate true 1 1, .allocate true 1 1, .allocate true 1 1,
      .free 1, .free 2, .allocate true 1 2]).1.getLast? = some (.pool 1) := by decide +kernel

theorem level_ge {x k level : Nat} (hk : 2 ^ k < 2 * x) (hx : x ≤ 9223372036854775808) (h : getLevel x = some level) : k ≤ level := by
  obtain ⟨r, e1, e2, _⟩ := getLevel_ok hx
  rw [h] at e1
  obtain rfl := Option.some.inj e1
  have h1 : 2 ^ k < 2 ^ (level + 1) := by
    rw [Nat.pow_succ]
    omega
  have := (Nat.pow_lt_pow_iff_right (by omega)).1 h1
  omega

/-- All requests of a history are for more than half of `2 ^ k` bytes, or made that big by the allocator. -/
def MoreThanHalf (dev : Device) (k : Nat) : DeviceCall → Prop
  | .allocate _ n sz => 2 ^ k < 2 * max (n * sz) dev.minChunk
  | _ => True

theorem fine_call {dev : Device} (hdev : dev.minChunk ≤ 9223372036854775808) {k : Nat} {c : State × Held} (hs : DeviceSound c)
    (h : DeviceAlloc.Fine k c.1) {ok : Bool} {n sz : Nat} (hr : n * sz < 18446744073709551616)
    (hm : 2 ^ k < 2 * max (n * sz) dev.minChunk) :
    DeviceAlloc.Fine k (DeviceAlloc.allocate dev c.1 ok n sz).2 ∧
    (∀ o, (DeviceAlloc.allocate dev c.1 ok n sz).1 = .pool o → 2 ^ k ∣ o) ∧
    ((DeviceAlloc.allocate dev c.1 ok n sz).1 = .throw → ok = false ∨ ∃ o, 2 ^ k ∣ o ∧ dev.accepts o (n * sz) = false) := by
  have := DeviceAlloc.fine_allocate (dev := dev) h ok n sz fun hlt level hl => by
    have := hs.inv.small
    rw [Nat.mod_eq_of_lt hr] at hlt hl
    refine level_ge ?_ ?_ hl
    · split <;> omega
    · split <;> omega
  rw [Nat.mod_eq_of_lt hr] at this
  exact this

theorem fine_history {dev : Device} (hdev : dev.minChunk ≤ 9223372036854775808) {k : Nat} {ops : List DeviceCall} :
    ∀ {c : State × Held}, DeviceSound c → DeviceAlloc.Fine k c.1 → (∀ op ∈ ops, op.Representable) → (∀ op ∈ ops, MoreThanHalf dev k op) →
    DeviceAlloc.Fine k (deviceHistory dev c ops).2.1 := by
  induction ops with
  | nil => intro c _ h _ _; exact h
  | cons op ops ih =>
    intro c hs h hr hm
    have hs' := (deviceSound_call hdev hs op (hr op (by simp))).1
    refine ih hs' ?_ (fun o ho => hr o (by simp [ho])) (fun o ho => hm o (by simp [ho]))
    have hro := hr op (by simp)
    have hmo := hm op (by simp)
    cases op with
    | reserve ok n => exact DeviceAlloc.fine_reserve h hro
    | allocate ok n sz => exact (fine_call hdev hs h hro hmo).1
    | free o =>
      rw [deviceCall]
      split
      · exact DeviceAlloc.fine_free h o
      · exact h

/-- C117, any order of release: if all requests of the history are for more than half of `2 ^ k` bytes, then all blocks start at multiples of
    `2 ^ k`. -/
theorem aligned_history {dev : Device} (hdev : dev.minChunk ≤ 9223372036854775808) {k : Nat} (ops : List DeviceCall)
    (hr : ∀ op ∈ ops, op.Representable) (hm : ∀ op ∈ ops, MoreThanHalf dev k op) :
    let c := (deviceHistory dev (State.init, []) ops).2
    DeviceSound c ∧ DeviceAlloc.Fine k c.1 ∧ ∀ p ∈ c.2, 2 ^ k ∣ p.1 := by
  obtain ⟨hs, _⟩ := deviceSound_history hdev deviceSound_init hr
  have hf := fine_history (k := k) hdev deviceSound_init ⟨by intro i l _ hl; simp [State.init] at hl, by simp [State.init]⟩ hr hm
  refine ⟨hs, hf, ?_⟩
  intro p hp
  obtain ⟨l, hl, _⟩ := hs.known p hp
  exact (hf.used _ hl).2

/-- C117, CUDA, the true part: if all requests of a history are for more than half of `2 ^ k` bytes, all blocks start at multiples of
    `2 ^ k`, whatever was taken and given back before, and in which order.  Missing from the full property: histories with smaller requests,
    for which it is false (`C117_cuda_wrong`). -/
theorem C117_cuda_partial {avail k : Nat} (ops : List DeviceCall) (hr : ∀ op ∈ ops, op.Representable)
    (hm : ∀ op ∈ ops, ∀ given n sz, op = .allocate given n sz → 2 ^ k < 2 * (n * sz)) :
    ∀ p ∈ (deviceHistory (cuda avail) (State.init, []) ops).2.2, 2 ^ k ∣ p.1 := by
  refine (aligned_history (dev := cuda avail) (k := k) (Nat.zero_le _) ops hr ?_).2.2
  intro op ho
  cases op with
  | allocate g n sz =>
    have := hm _ ho g n sz rfl
    show 2 ^ k < 2 * max (n * sz) 0
    omega
  | _ => trivial

/-- Images of 600 and 1000 bytes and numbers of four bytes in tables of 256. -/
example : (deviceHistory (cuda 5000) (State.init, []) [.reserve true 4096, .allocate true 600 1, .allocate true 1000 1, .allocate true 256 4,
      .allocate true 256 4, .free 1024, .free 2048, .free 0, .allocate true 1 2000]).2.2 = [(1024, 2000), (3072, 1024)] := by decide +kernel

/-- C117, OpenCL: whatever was taken and given back before, and in which order, a block of the pool starts at a multiple of the number
    `bits` the device gives (a power of two, at most 2^31), and the device refuses no block of the pool for its start: a request of at
    least one byte throws only if it is not served from the pool and the device has no memory. -/
theorem C117_opencl_aligned {avail j : Nat} (hj : j ≤ 31) (ops : List DeviceCall) (hr : ∀ op ∈ ops, op.Representable)
    (given : Bool) {n sz : Nat} (hpos : 0 < n * sz) (hrep : n * sz < 18446744073709551616) :
    let dev := opencl avail (2 ^ j)
    let c := (deviceHistory dev (State.init, []) ops).2
    (∀ p ∈ c.2, 2 ^ j ∣ p.1) ∧
    (∀ o, (deviceCall dev c (.allocate given n sz)).1 = .pool o → 2 ^ j ∣ o) ∧
    ((deviceCall dev c (.allocate given n sz)).1 = .throw → given = false) := by
  intro dev c
  have hdev : dev.minChunk ≤ 9223372036854775808 :=
    Nat.le_trans (Nat.pow_le_pow_right (n := 2) (j := 63) (by omega) (by omega)) (by decide)
  have hj0 : 0 < 2 ^ j := Nat.pow_pos (by omega)
  obtain ⟨hs, hf, hal⟩ := aligned_history (dev := dev) (k := j) hdev ops hr fun op _ => by
    cases op with
    | allocate g n sz =>
      show 2 ^ j < 2 * max (n * sz) (2 ^ j)
      omega
    | _ => trivial
  obtain ⟨_, h2, h3⟩ := fine_call (ok := given) hdev hs hf hrep (show 2 ^ j < 2 * max (n * sz) (2 ^ j) by omega)
  refine ⟨hal, h2, fun ht => ?_⟩
  · rcases h3 ht with h | ⟨o, ho, ha⟩
    · exact h
    · simp only [dev, opencl, Bool.and_eq_false_iff, decide_eq_false_iff_not, bne_eq_false_iff_eq] at ha
      rcases ha with ha | ha
      · exact absurd (Nat.dvd_trans ho (Nat.dvd_mul_right o 8)) ha
      · omega

/-- The order of release that breaks the pool of a CUDA device. -/
example : (deviceHistory (opencl 4096 1024) (State.init, []) [.reserve true 4096, .allocate true 1 1, .allocate true 1 1, .allocate true 1 1,
      .allocate true 1 1, .free 1024, .free 2048, .allocate true 1 2000]).1.getLast? = some (.pool 1024) := by decide +kernel

/-! ### C40, more of it -/

theorem fine_host_call {k : Nat} {c : State × Held} (hs : Sound c) (h : DeviceAlloc.Fine k c.1) (op : Call) (hr : op.Representable)
    (hm : ∀ n sz, op = .allocate n sz → 2 ^ k < 2 * (n * sz)) : DeviceAlloc.Fine k (call c op).2.1 := by
  cases op with
  | reserve n =>
    simp only [call]
    by_cases hd : (Alloc.reserve c.1 n).1 = .done
    · have hu : (Alloc.reserve c.1 n).2.used = c.1.used := by
        rw [Alloc.reserve]
        repeat' split
        all_goals rfl
      refine ⟨?_, by rw [hu]; exact h.used⟩
      rcases reserve_shape hr hd with he | he
      · rw [he]
        exact h.free
      · exact DeviceAlloc.Buddy.aligned he.2 k
    · rw [Alloc.reserve] at hd ⊢
      split
      · exact h
      next h1 =>
      split
      · exact h
      next h2 =>
      split
      · exact h
      next h3 =>
      split
      · exact ⟨h.free, h.used⟩
      next h4 =>
      rw [if_neg h1, if_neg h2, if_neg h3, if_neg h4] at hd
      split
      · next f hf => simp [hf] at hd
      · exact h
  | allocate n sz =>
    simp only [call]
    by_cases hl : c.1.locked
    · rw [Alloc.allocate, if_pos hl]
      exact h
    · rw [← (C116_cuda_as_host 0 c.1 (by simpa using hl) n sz).1]
      refine (DeviceAlloc.fine_allocate h true n sz fun hlt level he => ?_).1
      have hn : n * sz < 18446744073709551616 := hr
      have := hs.inv.small
      have := hm n sz rfl
      simp only [cuda, Nat.not_lt_zero, if_false] at he
      rw [Nat.mod_eq_of_lt hn] at hlt he
      exact level_ge this (by omega) he
  | free o =>
    rw [call]
    split
    · simp only
      by_cases hl : c.1.locked
      · rw [Alloc.free, if_pos hl]
        exact h
      · rw [← (C116_cuda_as_host 0 c.1 (by simpa using hl) 0 0).2]
        exact DeviceAlloc.fine_free h o
    · exact h
  | freeHeap =>
    rw [call]
    split <;> exact h

/-- C40, another true part: if all requests of a history are for more than half of `2 ^ k` bytes, then all blocks start at multiples of
    `2 ^ k`, whatever the order of release. -/
theorem C40_aligned_big_partial {k : Nat} (ops : List Call) (hr : ∀ op ∈ ops, op.Representable)
    (hm : ∀ op ∈ ops, ∀ n sz, op = .allocate n sz → 2 ^ k < 2 * (n * sz)) :
    ∀ p ∈ (history (State.init, []) ops).2.2, 2 ^ k ∣ p.1 := by
  have key : ∀ (ops : List Call) (c : State × Held), (∀ op ∈ ops, op.Representable) →
      (∀ op ∈ ops, ∀ n sz, op = .allocate n sz → 2 ^ k < 2 * (n * sz)) → Sound c → DeviceAlloc.Fine k c.1 →
      Sound (history c ops).2 ∧ DeviceAlloc.Fine k (history c ops).2.1 := by
    intro ops
    induction ops with
    | nil => intro c _ _ h1 h2; exact ⟨h1, h2⟩
    | cons op ops ih =>
      intro c h1 h2 h3 h4
      exact ih _ (fun o ho => h1 o (by simp [ho])) (fun o ho => h2 o (by simp [ho])) (sound_call h3 op (h1 op (by simp))).1
        (fine_host_call h3 h4 op (h1 op (by simp)) (h2 op (by simp)))
  obtain ⟨hs, hf⟩ := key ops _ hr hm sound_init ⟨by intro i l _ hl; simp [State.init] at hl, by simp [State.init]⟩
  intro p hp
  obtain ⟨l, hl, _⟩ := hs.known p hp
  exact (hf.used _ hl).2

/-- Blocks of eight-byte elements released in the order that breaks smaller ones. -/
example : (history (State.init, []) [.reserve 32, .allocate 1 8, .allocate 1 8, .allocate 1 8, .allocate 1 8, .free 8, .free 16, .allocate 2 8]).2.2
    = [(8, 16), (24, 8), (0, 8)] := by decide +kernel

end PV.Props
