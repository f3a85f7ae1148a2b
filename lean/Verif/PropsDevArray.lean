import Verif.DevArrayLemmas
/-
  C131, C132: arrays on devices.
-/
namespace PV.Props
open PV PV.DevArray

variable {α : Type} [Inhabited α]

/-- The value of a call, if it gives one. -/
def valA {μ β : Type} : Res μ β → Option β
  | .ok b _ => some b
  | _ => none

/-- The state after a call, if its behaviour is defined. -/
def stA {μ β : Type} : Res μ β → Option μ
  | .ok _ w => some w
  | .throw w => some w
  | .ub => none

/-- No arrays, no memory in use. -/
def noArrays : World α := ⟨fun _ => none, fun _ => none, 1⟩

/-- Which operations a program may use: constructors where there is no array, everything else on arrays which exist, no assignment of an
    array to itself, kernels write inside of an array.  OpenCL arrays have no copy constructor. -/
def LegalArr (kind : Kind) (w : World α) : Op α → Prop
  | .new i => w.objs i = none
  | .newVec i _ => w.objs i = none
  | .newSize i _ => w.objs i = none
  | .copyNew i j => kind = .cuda ∧ w.objs i = none ∧ w.objs j ≠ none
  | .moveNew i j => w.objs i = none ∧ w.objs j ≠ none
  | .copy i j => w.objs i ≠ none ∧ w.objs j ≠ none ∧ i ≠ j
  | .move i j => w.objs i ≠ none ∧ w.objs j ≠ none
  | .assign i _ => w.objs i ≠ none
  | .resize i _ => w.objs i ≠ none
  | .destroy i => w.objs i ≠ none
  | .write i k _ => valA (empty i w) = some false ∧ ∃ n, valA (size i w) = some n ∧ k < n

/-- Arrays an operation may change. -/
def Touches : Op α → Nat → Prop
  | .new i, k | .newVec i _, k | .newSize i _, k | .copyNew i _, k | .copy i _, k | .assign i _, k | .resize i _, k | .destroy i, k | .write i _ _, k => k = i
  | .moveNew i j, k | .move i j, k => k = i ∨ k = j

/-- Every state a program can reach, whatever allocations and copies fail. -/
inductive Reach (kind : Kind) : World α → Prop where
  | start : Reach kind noArrays
  | next {w w' : World α} (e : Env α) (op : Op α) : Reach kind w → LegalArr kind w op → stA (step kind e op w) = some w' → Reach kind w'

def goodEnv : Env α := ⟨true, true, fun _ => default⟩

theorem noArrays_inv : Inv (noArrays : World α) :=
  ⟨fun _ _ h => absurd h (by simp [noArrays]), fun _ _ _ _ h => absurd h (by simp [noArrays]), fun _ h => absurd rfl h, Nat.one_pos⟩

theorem noArrays_tight : Tight (noArrays : World α) :=
  ⟨fun _ _ h => absurd h (by simp [noArrays]), fun _ h => absurd rfl h⟩

theorem alive_of {w : World α} {i : Nat} (h : w.objs i ≠ none) : ∃ o, w.objs i = some o := by
  cases ho : w.objs i with
  | none => exact absurd ho h
  | some o => exact ⟨o, rfl⟩

theorem step_any {w : World α} (h : Inv w) (kind : Kind) (e : Env α) (op : Op α) (hl : LegalArr kind w op) :
    ∃ w', stA (step kind e op w) = some w' ∧ Inv w' ∧ ∀ k, ¬ Touches op k → w'.objs k = w.objs k ∧ view w' k = view w k := by
  have hctor : ∀ (i : Nat) (body : M (World α) Unit), w.objs i = none →
      (∃ w', Keeps (added w i) w' i ∧ (body (added w i) = .ok () w' ∨ body (added w i) = .throw w')) →
      ∃ w', stA (ctor i body w) = some w' ∧ Inv w' ∧ ∀ k, k ≠ i → w'.objs k = w.objs k ∧ view w' k = view w k := by
    rintro i body hi ⟨w', hk, hb | hb⟩
    · rw [ctor_ok hi hb]
      refine ⟨w', rfl, hk.inv, fun k hki => ⟨(hk.objs k hki).trans (upd_other _ _ hki), ?_⟩⟩
      rw [hk.views k hki, view_added, if_neg hki]
    · rw [ctor_throw hi hb]
      refine ⟨_, rfl, hk.inv.dropped i, fun k hki => ⟨(upd_other _ _ hki).trans ((hk.objs k hki).trans (upd_other _ _ hki)), ?_⟩⟩
      rw [view_dropped, if_neg hki, hk.views k hki, view_added, if_neg hki]
  have hkeep : ∀ (i : Nat) (r : Res (World α) Unit), (∃ w', Keeps w w' i ∧ (r = .ok () w' ∨ r = .throw w')) →
      ∃ w', stA r = some w' ∧ Inv w' ∧ ∀ k, k ≠ i → w'.objs k = w.objs k ∧ view w' k = view w k := by
    rintro i r ⟨w', hk, hr | hr⟩ <;> rw [hr] <;> exact ⟨w', rfl, hk.inv, fun k hki => ⟨hk.objs k hki, hk.views k hki⟩⟩
  have halloc : ∀ {w : World α} (h : Inv w) {i : Nat} {o : Obj} (ho : w.objs i = some o) (n : Nat),
      ∃ w', Keeps w w' i ∧ (allocateO e i n w = .ok () w' ∨ allocateO e i n w = .throw w') := by
    intro w h i o ho n
    obtain ⟨w', k, ⟨h1, _⟩ | h1⟩ := allocateO_any h e ho n
    · exact ⟨w', k, .inl h1⟩
    · exact ⟨w', k, .inr h1⟩
  have hfill : ∀ {w : World α} (h : Inv w) {i : Nat} {o : Obj} (ho : w.objs i = some o) (v : List α),
      ∃ w', Keeps w w' i ∧ ((allocateO e i v.length >>= fun _ => copyFrom e i v) w = .ok () w' ∨ (allocateO e i v.length >>= fun _ => copyFrom e i v) w = .throw w') := by
    intro w h i o ho v
    obtain ⟨w1, k1, ⟨h1, o1, ho1, _⟩ | h1⟩ := allocateO_any h e ho v.length
    · obtain ⟨w2, k2, h2⟩ := copyFrom_any k1.inv e ho1 v
      rw [bind_ok h1]
      exact ⟨w2, k1.trans k2, h2⟩
    · exact ⟨w1, k1, .inr (bind_throw h1)⟩
  have hself : ∀ (w : World α) (i : Nat), (added w i).objs i = some ⟨0, 0⟩ := fun w i => upd_same _ _ _
  cases op with
  | new i => exact hctor i _ hl ⟨_, ⟨h.added i, fun _ _ => rfl, fun _ _ => rfl, _, hself w i⟩, .inl rfl⟩
  | newVec i v => exact hctor i _ hl (hfill (h.added i) (hself w i) v)
  | newSize i n => exact hctor i _ hl (halloc (h.added i) (hself w i) n)
  | copyNew i j =>
    obtain ⟨hk, hi, hj⟩ := hl
    obtain ⟨p, hp⟩ := alive_of hj
    have hij : i ≠ j := fun hc => by rw [hc, hp] at hi; exact absurd hi (by simp)
    subst hk
    exact hctor i _ hi (copyO_any (h.added i) .cuda e (hself w i) ((upd_other _ _ (Ne.symm hij)).trans hp) hij)
  | moveNew i j =>
    obtain ⟨hi, hj⟩ := hl
    obtain ⟨p, hp⟩ := alive_of hj
    have hij : i ≠ j := fun hc => by rw [hc, hp] at hi; exact absurd hi (by simp)
    have hp' : (added w i).objs j = some p := (upd_other _ _ (Ne.symm hij)).trans hp
    refine ⟨swapped (added w i) i j ⟨0, 0⟩ p, ?_, (h.added i).swapped (hself w i) hp', fun k hk => ?_⟩
    · show stA (ctor i (swapO i j) w) = _
      rw [ctor_ok hi (swapO_ok (hself w i) hp')]
      rfl
    · have hki : k ≠ i := fun hc => hk (.inl hc)
      have hkj : k ≠ j := fun hc => hk (.inr hc)
      have hs : swapIx i j k = k := by rw [swapIx, if_neg hkj, if_neg hki]
      rw [swapped_objs (hself w i) hp', view_swapped (hself w i) hp', hs, view_added, if_neg hki]
      exact ⟨upd_other _ _ hki, rfl⟩
  | copy i j =>
    obtain ⟨hi, hj, hij⟩ := hl
    obtain ⟨o, ho⟩ := alive_of hi
    obtain ⟨p, hp⟩ := alive_of hj
    exact hkeep i _ (copyO_any h kind e ho hp hij)
  | move i j =>
    obtain ⟨hi, hj⟩ := hl
    obtain ⟨o, ho⟩ := alive_of hi
    obtain ⟨p, hp⟩ := alive_of hj
    refine ⟨swapped w i j o p, ?_, h.swapped ho hp, fun k hk => ?_⟩
    · show stA (swapO i j w) = _
      rw [swapO_ok ho hp]
      rfl
    · have hki : k ≠ i := fun hc => hk (.inl hc)
      have hkj : k ≠ j := fun hc => hk (.inr hc)
      have hs : swapIx i j k = k := by rw [swapIx, if_neg hkj, if_neg hki]
      rw [swapped_objs ho hp, view_swapped ho hp, hs]
      exact ⟨rfl, rfl⟩
  | assign i v =>
    obtain ⟨o, ho⟩ := alive_of hl
    exact hkeep i _ (hfill h ho v)
  | resize i n =>
    obtain ⟨o, ho⟩ := alive_of hl
    exact hkeep i _ (halloc h ho n)
  | destroy i =>
    obtain ⟨o, ho⟩ := alive_of hl
    rw [destroy_ok h kind e ho]
    refine ⟨_, rfl, (h.emptied ho).dropped i, fun k hk => ⟨(upd_other _ _ hk).trans (upd_other _ _ hk), ?_⟩⟩
    rw [view_dropped, if_neg (show ¬ k = i from hk)]
    exact view_freed h ho hk
  | write i k x =>
    obtain ⟨he, n, hn, hk⟩ := hl
    cases ho : w.objs i with
    | none =>
      rw [empty, bind_ub (by rw [obj, ho])] at he
      exact absurd he (by simp [valA])
    | some o =>
      have hd : o.data ≠ 0 := by
        rw [empty, bind_ok (obj_ok ho)] at he
        intro hc
        rw [hc] at he
        exact absurd (Option.some.inj he) (by decide)
      have hs : o.size = n := by
        rw [size, bind_ok (obj_ok ho)] at hn
        exact Option.some.inj hn
      obtain ⟨_, l, h1, h2⟩ := h.own i o ho hd
      have hst : step kind e (.write i k x) w = .ok () { w with heap := upd w.heap o.data (some (l.set k x)) } := by
        show writeO i k x w = _
        rw [writeO, bind_ok (obj_ok ho), bind_ok (block_ok h1), if_pos (by omega)]
        rfl
      have := keeps_fill h ho hd (l := l.set k x) (by rw [List.length_set, h2])
      exact ⟨_, by rw [hst]; rfl, this.inv, fun m hm => ⟨this.objs m hm, this.views m hm⟩⟩

theorem Reach.inv {kind : Kind} {w : World α} (h : Reach kind w) : Inv w := by
  induction h with
  | start => exact noArrays_inv
  | next e op _ hl hs ih =>
    obtain ⟨w', h1, h2, _⟩ := step_any ih kind e op hl
    rw [hs] at h1
    injection h1 with h1
    rw [h1]
    exact h2

theorem size_val {w : World α} {i : Nat} {o : Obj} (ho : w.objs i = some o) : valA (size i w) = some o.size := by
  rw [size, bind_ok (obj_ok ho)]
  rfl

theorem empty_val {w : World α} {i : Nat} {o : Obj} (ho : w.objs i = some o) : valA (empty i w) = some (o.data == 0) := by
  rw [empty, bind_ok (obj_ok ho)]
  rfl

theorem get_val {w : World α} (h : Inv w) {i : Nat} {o : Obj} (ho : w.objs i = some o) : get goodEnv i w = .ok ((view w i).getD []) w := by
  rw [DevArray.get, bind_ok (obj_ok ho), view, ho]
  by_cases hd : o.data = 0
  · rw [if_neg (not_not_intro hd), Option.map_some, if_pos hd]
    rfl
  · obtain ⟨_, l, h1, h2⟩ := h.own i o ho hd
    rw [if_pos hd, if_pos (show goodEnv.copies = true from rfl), bind_ok (block_ok h1), if_pos (by omega), List.take_of_length_le (by omega), Option.map_some, if_neg hd, h1]
    rfl

/-- **C131**.  Whatever allocations and copies fail, an operation on arrays either ends or throws, it never releases or uses memory which
    is not there, and arrays which it does not touch keep their contents; reading an array gives `size()` values. -/
theorem C131_array_safe {kind : Kind} {w : World α} (h : Reach kind w) (e : Env α) (op : Op α) (hl : LegalArr kind w op) :
    (∃ w', stA (step kind e op w) = some w' ∧
      ∀ k, ¬ Touches op k → (w.objs k = none → w'.objs k = none) ∧
        (w.objs k ≠ none → w'.objs k ≠ none ∧ valA (size k w') = valA (size k w) ∧ valA (empty k w') = valA (empty k w)
          ∧ valA (get goodEnv k w') = valA (get goodEnv k w)))
    ∧ ∀ k, w.objs k ≠ none → ∃ n l, valA (size k w) = some n ∧ valA (get goodEnv k w) = some l ∧ l.length = n := by
  refine ⟨?_, fun k hk => ?_⟩
  · obtain ⟨w', h1, h2, h3⟩ := step_any h.inv kind e op hl
    refine ⟨w', h1, fun k hk => ?_⟩
    obtain ⟨h4, h5⟩ := h3 k hk
    refine ⟨fun h6 => h4.trans h6, fun h6 => ?_⟩
    obtain ⟨o, ho⟩ := alive_of h6
    have ho' := h4.trans ho
    rw [size_val ho', size_val ho, empty_val ho', empty_val ho, get_val h2 ho', get_val h.inv ho, h5]
    exact ⟨by rw [ho']; simp, rfl, rfl, rfl⟩
  · obtain ⟨o, ho⟩ := alive_of hk
    obtain ⟨l, hv, hlen⟩ := view_len h.inv ho
    refine ⟨o.size, l, size_val ho, ?_, hlen⟩
    rw [get_val h.inv ho, hv]
    rfl

/-- An operation which is legal in a state which can be reached. -/
example : LegalArr .cuda (noArrays : World Nat) (.newVec 0 [1, 2, 3]) := rfl

/-! ### What arrays contain when nothing fails -/

abbrev Arrays (α : Type) := Nat → Option (List α)

def putA (s : Arrays α) (i : Nat) (x : Option (List α)) : Arrays α := fun k => if k = i then x else s k

/-- What each operation does to the contents, and whether it throws: a copy of an empty array throws, and so does every copy in OpenCL;
    `resize` keeps the contents only if the size is the same. -/
def specStep (kind : Kind) (junk : Nat → α) (op : Op α) (s : Arrays α) : Arrays α × Bool :=
  match op with
  | .new i => (putA s i (some []), false)
  | .newVec i v => (putA s i (some v), false)
  | .newSize i n => (putA s i (some ((List.range n).map junk)), false)
  | .copyNew i j => if (s j).map List.length = some 0 then (s, true) else (putA s i (s j), false)
  | .moveNew i j => (putA (putA s i (s j)) j (some []), false)
  | .copy i j => match kind with
    | .openCl => (s, true)
    | .cuda => (putA s i (s j), decide ((s j).map List.length = some 0))
  | .move i j => (putA (putA s i (s j)) j (s i), false)
  | .assign i v => (putA s i (some v), false)
  | .resize i n => (if (s i).map List.length = some n then s else putA s i (some ((List.range n).map junk)), false)
  | .destroy i => (putA s i none, false)
  | .write i k x => (putA s i ((s i).map fun l => l.set k x), false)

/-- The legal operations in terms of the contents. -/
def LegalSpec (kind : Kind) (s : Arrays α) : Op α → Prop
  | .new i => s i = none
  | .newVec i _ => s i = none
  | .newSize i _ => s i = none
  | .copyNew i j => kind = .cuda ∧ s i = none ∧ s j ≠ none
  | .moveNew i j => s i = none ∧ s j ≠ none
  | .copy i j => s i ≠ none ∧ s j ≠ none ∧ i ≠ j
  | .move i j => s i ≠ none ∧ s j ≠ none
  | .assign i _ => s i ≠ none
  | .resize i _ => s i ≠ none
  | .destroy i => s i ≠ none
  | .write i k _ => ∃ l, s i = some l ∧ k < l.length

/-- A program: every operation with the contents of new memory. -/
abbrev Prog (α : Type) := List (Op α × (Nat → α))

/-- The contents after a program, and which operations threw. -/
def specRun (kind : Kind) : Prog α → Arrays α → Arrays α × List Bool
  | [], s => (s, [])
  | (op, junk) :: ops, s =>
    let r := specStep kind junk op s
    let t := specRun kind ops r.1
    (t.1, r.2 :: t.2)

def LegalProg (kind : Kind) : Prog α → Arrays α → Prop
  | [], _ => True
  | (op, junk) :: ops, s => LegalSpec kind s op ∧ LegalProg kind ops (specStep kind junk op s).1

def raisedA {μ β : Type} : Res μ β → Bool
  | .throw _ => true
  | _ => false

/-- A program on a device on which nothing fails; exceptions are caught. -/
def runArr (kind : Kind) : Prog α → World α → Option (World α × List Bool)
  | [], w => some (w, [])
  | (op, junk) :: ops, w =>
    (stA (step kind ⟨true, true, junk⟩ op w)).bind fun w' =>
      (runArr kind ops w').map fun t => (t.1, raisedA (step kind ⟨true, true, junk⟩ op w) :: t.2)

theorem put_view {w w' : World α} {i : Nat} {x : Option (List α)} (h : ∀ k, k ≠ i → view w' k = view w k) (hi : view w' i = x) : view w' = putA (view w) i x := by
  funext k
  unfold putA
  split
  · rename_i hk
    rw [hk, hi]
  · rename_i hk
    exact h k hk

theorem view_none {w : World α} {i : Nat} : view w i = none ↔ w.objs i = none := by
  rw [view, Option.map_eq_none_iff]

theorem alive_view {w : World α} {i : Nat} (h : view w i ≠ none) : ∃ o, w.objs i = some o :=
  alive_of fun hc => h (view_none.mpr hc)

theorem step_good {w : World α} (h : Inv w) (t : Tight w) (kind : Kind) (junk : Nat → α) (op : Op α) (hl : LegalSpec kind (view w) op) :
    ∃ w', step kind ⟨true, true, junk⟩ op w = (if (specStep kind junk op (view w)).2 then .throw w' else .ok () w')
      ∧ Inv w' ∧ Tight w' ∧ view w' = (specStep kind junk op (view w)).1 := by
  have hself : ∀ (w : World α) (i : Nat), (added w i).objs i = some ⟨0, 0⟩ := fun w i => upd_same _ _ _
  have hvadd : ∀ i k, k ≠ i → view (added w i) k = view w k := fun i k hk => by rw [view_added, if_neg hk]
  have hfill : ∀ {w : World α} (h : Inv w) (t : Tight w) {i : Nat} {o : Obj} (ho : w.objs i = some o) (v : List α),
      ∃ w', (allocateO ⟨true, true, junk⟩ i v.length >>= fun _ => copyFrom ⟨true, true, junk⟩ i v) w = .ok () w' ∧ Keeps w w' i ∧ Tight w' ∧ view w' i = some v := by
    intro w h t i o ho v
    obtain ⟨w1, a1, k1, t1, ⟨o1, ho1, hs1⟩, _⟩ := allocateO_good h t (e := ⟨true, true, junk⟩) rfl ho v.length
    obtain ⟨w2, a2, k2, t2, v2⟩ := copyFrom_good k1.inv t1 (e := ⟨true, true, junk⟩) rfl ho1 hs1
    exact ⟨w2, (bind_ok a1).trans a2, k1.trans k2, t2, v2⟩
  cases op with
  | new i =>
    have hi := view_none.mp hl
    refine ⟨added w i, ctor_ok hi rfl, h.added i, t.added hi, put_view (hvadd i) ?_⟩
    rw [view_added, if_pos rfl]
  | newVec i v =>
    have hi := view_none.mp hl
    obtain ⟨w', a, k, t', hv⟩ := hfill (h.added i) (t.added hi) (hself w i) v
    exact ⟨w', ctor_ok hi a, k.inv, t', put_view (fun m hm => (k.views m hm).trans (hvadd i m hm)) hv⟩
  | newSize i n =>
    have hi := view_none.mp hl
    obtain ⟨w', a, k, t', _, hv⟩ := allocateO_good (h.added i) (t.added hi) (e := ⟨true, true, junk⟩) rfl (hself w i) n
    refine ⟨w', ctor_ok hi a, k.inv, t', put_view (fun m hm => (k.views m hm).trans (hvadd i m hm)) ?_⟩
    rw [hv]
    split
    · rename_i hn
      rw [view_added, if_pos rfl, ← show 0 = n from hn]
      rfl
    · rfl
  | copyNew i j =>
    obtain ⟨hk, hi, hj⟩ := hl
    replace hi := view_none.mp hi
    obtain ⟨p, hp⟩ := alive_view hj
    have hij : i ≠ j := fun hc => by rw [hc, hp] at hi; exact absurd hi (by simp)
    subst hk
    have hp' : (added w i).objs j = some p := (upd_other _ _ (Ne.symm hij)).trans hp
    obtain ⟨w', a, k, t', hv, hsame⟩ := copyO_good (h.added i) (t.added hi) (e := ⟨true, true, junk⟩) rfl rfl (hself w i) hp' hij
    obtain ⟨l, hl1, hl2⟩ := view_len h hp
    show ∃ w', ctor i (copyO .cuda ⟨true, true, junk⟩ i j) w = _ ∧ _
    by_cases hz : p.size = 0
    · have hnil : l = [] := List.length_eq_zero_iff.mp (by omega)
      rw [if_pos hz] at a
      have hs : specStep .cuda junk (.copyNew i j) (view w) = (view w, true) := by
        simp only [specStep]
        rw [hl1, hnil]
        exact if_pos rfl
      rw [hs]
      refine ⟨w, ?_, h, t, rfl⟩
      rw [ctor_throw hi a, hsame rfl hz, dropped_added hi]
      rfl
    · have hne : ¬ (view w j).map List.length = some 0 := fun hc => by
        rw [hl1] at hc
        exact hz (hl2.symm.trans (Option.some.inj hc))
      rw [if_neg hz] at a
      have hs : specStep .cuda junk (.copyNew i j) (view w) = (putA (view w) i (view w j), false) := by
        simp only [specStep]
        rw [if_neg hne]
      rw [hs]
      refine ⟨w', ctor_ok hi a, k.inv, t', put_view (fun m hm => (k.views m hm).trans (hvadd i m hm)) ?_⟩
      rw [hv, hvadd i j (Ne.symm hij)]
  | moveNew i j =>
    obtain ⟨hi, hj⟩ := hl
    replace hi := view_none.mp hi
    obtain ⟨p, hp⟩ := alive_view hj
    have hij : i ≠ j := fun hc => by rw [hc, hp] at hi; exact absurd hi (by simp)
    have hp' : (added w i).objs j = some p := (upd_other _ _ (Ne.symm hij)).trans hp
    refine ⟨swapped (added w i) i j ⟨0, 0⟩ p, ctor_ok hi (swapO_ok (hself w i) hp'), (h.added i).swapped (hself w i) hp', (t.added hi).swapped (hself w i) hp', ?_⟩
    funext k
    rw [view_swapped (hself w i) hp']
    show _ = putA (putA (view w) i (view w j)) j (some []) k
    unfold putA swapIx
    by_cases h1 : k = j
    · rw [if_pos h1, if_pos h1, view_added, if_pos rfl]
    · rw [if_neg h1, if_neg h1]
      by_cases h2 : k = i
      · rw [if_pos h2, if_pos h2, hvadd i j (Ne.symm hij)]
      · rw [if_neg h2, if_neg h2, hvadd i k h2]
  | copy i j =>
    obtain ⟨hi, hj, hij⟩ := hl
    obtain ⟨o, ho⟩ := alive_view hi
    obtain ⟨p, hp⟩ := alive_view hj
    cases kind with
    | openCl => exact ⟨w, rfl, h, t, rfl⟩
    | cuda =>
      obtain ⟨w', a, k, t', hv, _⟩ := copyO_good h t (e := ⟨true, true, junk⟩) rfl rfl ho hp hij
      obtain ⟨l, hl1, hl2⟩ := view_len h hp
      refine ⟨w', ?_, k.inv, t', put_view k.views hv⟩
      show copyO .cuda ⟨true, true, junk⟩ i j w = if decide ((view w j).map List.length = some 0) = true then _ else _
      rw [a, hl1, Option.map_some, hl2]
      by_cases hz : p.size = 0
      · rw [if_pos hz, if_pos (by rw [hz]; rfl)]
      · rw [if_neg hz, if_neg (by simpa using hz)]
  | move i j =>
    obtain ⟨hi, hj⟩ := hl
    obtain ⟨o, ho⟩ := alive_view hi
    obtain ⟨p, hp⟩ := alive_view hj
    refine ⟨swapped w i j o p, swapO_ok ho hp, h.swapped ho hp, t.swapped ho hp, ?_⟩
    funext k
    rw [view_swapped ho hp]
    show _ = putA (putA (view w) i (view w j)) j (view w i) k
    unfold putA swapIx
    by_cases h1 : k = j
    · rw [if_pos h1, if_pos h1]
    · rw [if_neg h1, if_neg h1]
      by_cases h2 : k = i
      · rw [if_pos h2, if_pos h2]
      · rw [if_neg h2, if_neg h2]
  | assign i v =>
    obtain ⟨o, ho⟩ := alive_view hl
    obtain ⟨w', a, k, t', hv⟩ := hfill h t ho v
    exact ⟨w', a, k.inv, t', put_view k.views hv⟩
  | resize i n =>
    obtain ⟨o, ho⟩ := alive_view hl
    obtain ⟨w', a, k, t', _, hv⟩ := allocateO_good h t (e := ⟨true, true, junk⟩) rfl ho n
    obtain ⟨l, hl1, hl2⟩ := view_len h ho
    refine ⟨w', a, k.inv, t', ?_⟩
    show view w' = if (view w i).map List.length = some n then view w else putA (view w) i (some ((List.range n).map junk))
    rw [hl1, Option.map_some, hl2]
    by_cases hn : o.size = n
    · rw [if_pos (by rw [hn])]
      rw [if_pos hn] at hv
      funext m
      by_cases hm : m = i
      · rw [hm, hv]
      · exact k.views m hm
    · rw [if_neg (by simpa using hn)]
      rw [if_neg hn] at hv
      exact put_view k.views hv
  | destroy i =>
    obtain ⟨o, ho⟩ := alive_view hl
    refine ⟨_, destroy_ok h kind _ ho, (h.emptied ho).dropped i, (t.emptied h ho).dropped (h.emptied ho) (upd_same _ _ _) rfl, ?_⟩
    refine put_view (fun k hk => ?_) ?_
    · rw [view_dropped, if_neg hk]
      exact view_freed h ho hk
    · rw [view_dropped, if_pos rfl]
  | write i k x =>
    obtain ⟨l, hl1, hk⟩ := hl
    obtain ⟨o, ho⟩ := alive_view (w := w) (i := i) (by rw [hl1]; simp)
    obtain ⟨l', hl1', hl2⟩ := view_len h ho
    rw [hl1] at hl1'
    injection hl1' with hll
    subst hll
    have hd : o.data ≠ 0 := fun hc => by
      have := (data_zero h t ho).mp hc
      omega
    obtain ⟨_, l', h1, h2⟩ := h.own i o ho hd
    have hv' := view_of ho hd h1
    rw [hl1] at hv'
    injection hv' with hll
    subst hll
    have hst : step kind ⟨true, true, junk⟩ (.write i k x) w = .ok () { w with heap := upd w.heap o.data (some (l.set k x)) } := by
      show writeO i k x w = _
      rw [writeO, bind_ok (obj_ok ho), bind_ok (block_ok h1), if_pos (by omega)]
      rfl
    have hkp := keeps_fill h ho hd (l := l.set k x) (by rw [List.length_set, h2])
    refine ⟨_, hst, hkp.inv, t.fill ho, put_view hkp.views ?_⟩
    rw [view_fill h ho hd, if_pos rfl, hl1]
    rfl

theorem runArr_good (kind : Kind) (ops : Prog α) : ∀ (w : World α), Inv w → Tight w → LegalProg kind ops (view w) →
    ∃ w', runArr kind ops w = some (w', (specRun kind ops (view w)).2) ∧ Inv w' ∧ Tight w' ∧ view w' = (specRun kind ops (view w)).1 := by
  induction ops with
  | nil => exact fun w h t _ => ⟨w, rfl, h, t, rfl⟩
  | cons op ops ih =>
    obtain ⟨op, junk⟩ := op
    rintro w h t ⟨hl, hls⟩
    obtain ⟨w1, a1, h1, t1, v1⟩ := step_good h t kind junk op hl
    rw [← v1] at hls
    obtain ⟨w2, a2, h2, t2, v2⟩ := ih w1 h1 t1 hls
    have hst : stA (step kind ⟨true, true, junk⟩ op w) = some w1 ∧ raisedA (step kind ⟨true, true, junk⟩ op w) = (specStep kind junk op (view w)).2 := by
      rw [a1]
      cases (specStep kind junk op (view w)).2 <;> exact ⟨rfl, rfl⟩
    refine ⟨w2, ?_, h2, t2, ?_⟩
    · rw [runArr, hst.1, hst.2, Option.bind_some, a2, Option.map_some]
      simp only [specRun, v1]
    · rw [v2]
      simp only [specRun, v1]

/-- **C132, partial**.  If nothing fails, arrays contain after every program what the operations say: `get`, `size` and `empty` give the
    list of `specRun`, exceptions come exactly where `specRun` says, arrays share nothing, and no memory is in use beside the memory of
    the arrays which are not empty.  Missing from the property: copies of empty arrays, copies in OpenCL and assignment to itself. -/
theorem C132_array_contents_partial (kind : Kind) (ops : Prog α) (hl : LegalProg kind ops fun _ => none) :
    ∃ w, runArr kind ops noArrays = some (w, (specRun kind ops fun _ => none).2)
      ∧ (∀ i, (specRun kind ops fun _ => none).1 i = none → w.objs i = none)
      ∧ (∀ i l, (specRun kind ops fun _ => none).1 i = some l →
          valA (get goodEnv i w) = some l ∧ valA (size i w) = some l.length ∧ valA (empty i w) = some l.isEmpty)
      ∧ ∀ b, w.heap b ≠ none → ∃ i l, (specRun kind ops fun _ => none).1 i = some l ∧ l ≠ [] ∧ ∃ o, w.objs i = some o ∧ o.data = b := by
  have hv : view (noArrays : World α) = fun _ => none := rfl
  rw [← hv] at hl ⊢
  obtain ⟨w, a, h, t, v⟩ := runArr_good kind ops noArrays noArrays_inv noArrays_tight hl
  rw [← v]
  refine ⟨w, a, fun i => view_none.mp, fun i l hi => ?_, fun b hb => ?_⟩
  · obtain ⟨o, ho⟩ := alive_view (w := w) (i := i) (by rw [hi]; simp)
    obtain ⟨l', h1, h2⟩ := view_len h ho
    rw [hi] at h1
    injection h1 with h1
    subst h1
    rw [get_val h ho, size_val ho, empty_val ho, hi, h2]
    refine ⟨rfl, rfl, congrArg some ?_⟩
    rw [Bool.eq_iff_iff, beq_iff_eq, data_zero h t ho, ← h2, List.length_eq_zero_iff, List.isEmpty_iff]
  · obtain ⟨i, o, ho, hd⟩ := t.used b hb
    obtain ⟨l, h1, h2⟩ := view_len h ho
    refine ⟨i, l, h1, fun hc => ?_, o, ho, hd⟩
    have := (h.fresh b hb).1
    have := (data_zero h t ho).mpr (by rw [← h2, hc]; rfl)
    omega

/-- When all arrays are gone all memory is released. -/
theorem C132_no_leak (kind : Kind) (ops : Prog α) (hl : LegalProg kind ops fun _ => none) (hall : ∀ i, (specRun kind ops fun _ => none).1 i = none) :
    ∃ w r, runArr kind ops noArrays = some (w, r) ∧ ∀ b, w.heap b = none := by
  obtain ⟨w, a, _, _, h⟩ := C132_array_contents_partial kind ops hl
  refine ⟨w, _, a, fun b => ?_⟩
  cases hb : w.heap b with
  | none => rfl
  | some x =>
    obtain ⟨i, l, h1, _⟩ := h b (by rw [hb]; simp)
    rw [hall i] at h1
    exact absurd h1 (by simp)

/-- A program with every kind of operation. -/
def sampleProg : Prog Nat :=
  [(.newVec 0 [1, 2, 3], fun k => k), (.new 1, fun k => k), (.copy 1 0, fun k => k), (.write 1 2 9, fun k => k), (.moveNew 2 0, fun k => k),
   (.copyNew 3 1, fun k => k), (.move 3 2, fun k => k), (.resize 2 2, fun k => k + 5), (.assign 1 [4], fun k => k), (.newSize 4 2, fun k => k + 7), (.destroy 4, fun k => k)]

example : LegalProg .cuda sampleProg (fun _ => none) := by
  simp [sampleProg, LegalProg, LegalSpec, specStep, putA]

example : (specRun .cuda sampleProg (fun _ => none)).1 1 = some [4] ∧ (specRun .cuda sampleProg (fun _ => none)).1 2 = some [5, 6]
    ∧ (specRun .cuda sampleProg (fun _ => none)).1 0 = some [] ∧ (specRun .cuda sampleProg (fun _ => none)).1 3 = some [1, 2, 3]
    ∧ (specRun .cuda sampleProg (fun _ => none)).1 4 = none := by decide

/-! ### What is wrong -/

def run2 (kind : Kind) : List (Env Nat × Op Nat) → World Nat → Option (World Nat × List Bool)
  | [], w => some (w, [])
  | (e, op) :: ops, w =>
    (stA (step kind e op w)).bind fun w' => (run2 kind ops w').map fun t => (t.1, raisedA (step kind e op w) :: t.2)

def okE : Env Nat := ⟨true, true, fun _ => 7⟩
def noRoom : Env Nat := ⟨false, true, fun _ => 7⟩
def noCopy : Env Nat := ⟨true, false, fun _ => 7⟩

/-- A copy of an empty array throws and empties the target; assigning an array to itself is undefined; OpenCL arrays cannot be copied. -/
theorem C132_wrong :
    ((run2 .cuda [(okE, .new 0), (okE, .newVec 1 [1]), (okE, .copy 1 0)] noArrays).map fun r => (r.2, valA (get goodEnv 1 r.1))) = some ([false, false, true], some [])
    ∧ ((run2 .cuda [(okE, .newVec 0 [1]), (okE, .copy 0 0)] noArrays).isNone = true)
    ∧ ((run2 .openCl [(okE, .newVec 0 [1]), (okE, .new 1), (okE, .copy 1 0)] noArrays).map fun r => (r.2, valA (get goodEnv 1 r.1))) = some ([false, false, true], some []) := by
  decide

/-- After a failed allocation an array keeps its old size although it is empty.  A second `resize` to the old size does nothing and
    reports no error, the values assigned next are lost without an error, and reading gives zeros. -/
theorem C132_wrong_stale_size :
    ((run2 .cuda [(okE, .newVec 0 [1, 2]), (noRoom, .resize 0 3), (okE, .resize 0 2), (okE, .assign 0 [5, 6])] noArrays).map
      fun r => (r.2, valA (size 0 r.1), valA (empty 0 r.1), valA (get goodEnv 0 r.1))) = some ([false, true, false, false], some 2, some true, some [0, 0]) := by
  decide

/-- A constructor from values whose copy fails leaves memory which nothing can release. -/
theorem C132_wrong_leak :
    ((run2 .cuda [(noCopy, .newVec 0 [1, 2])] noArrays).map fun r => (r.2, (r.1.objs 0).isNone, (r.1.heap 1).isSome)) = some ([true], true, true) := by
  decide

end PV.Props
