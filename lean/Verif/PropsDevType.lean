import Verif.DevType
import Verif.PropsDevArray
/-
  C133: single values on devices.
-/
namespace PV.Props
open PV PV.DevArray PV.DevType

variable {α : Type} [Inhabited α]

/-- The ghost size says whether there is a block. -/
def OneV (w : World α) : Prop := ∀ i o, w.objs i = some o → o.size = if o.data = 0 then 0 else 1

/-- Which operations a program may use. -/
def LegalVal (kind : Kind) (w : World α) : TOp α → Prop
  | .new i => w.objs i = none
  | .newVal i _ => w.objs i = none
  | .copyNew i j => kind = .cuda ∧ w.objs i = none ∧ w.objs j ≠ none
  | .moveNew i j => w.objs i = none ∧ w.objs j ≠ none
  | .copy i j => w.objs i ≠ none ∧ w.objs j ≠ none ∧ i ≠ j
  | .move i j => w.objs i ≠ none ∧ w.objs j ≠ none
  | .assign i _ => w.objs i ≠ none
  | .destroy i => w.objs i ≠ none
  | .write i _ => ∃ x, valA (getT goodEnv i w) = some x

/-- Values an operation may change. -/
def TouchesV : TOp α → Nat → Prop
  | .new i, k | .newVal i _, k | .copyNew i _, k | .copy i _, k | .assign i _, k | .destroy i, k | .write i _, k => k = i
  | .moveNew i j, k | .move i j, k => k = i ∨ k = j

/-- Every state a program can reach, whatever allocations and copies fail. -/
inductive ReachV (kind : Kind) : World α → Prop where
  | start : ReachV kind noArrays
  | next {w w' : World α} (e : Env α) (op : TOp α) : ReachV kind w → LegalVal kind w op → stA (stepT kind e op w) = some w' → ReachV kind w'

/-- The value of an object; `some none` after its value was moved away. -/
def vals (w : World α) (i : Nat) : Option (Option α) := (view w i).map List.head?

theorem OneV.keep {w w' : World α} {i : Nat} {o' : Obj} (h : OneV w) (hk : ∀ j, j ≠ i → w'.objs j = w.objs j) (hi : w'.objs i = some o') (ho : o'.size = if o'.data = 0 then 0 else 1) : OneV w' := by
  intro j p hp
  by_cases hj : j = i
  · subst hj
    rw [hi] at hp
    injection hp with hp
    rw [← hp, ho]
  · exact h j p ((hk j hj).symm.trans hp)

theorem allocateT_ok {w : World α} (h : Inv w) (e : Env α) {i : Nat} (ho : w.objs i = some ⟨0, 0⟩) :
    allocateT e i w = if e.room then .ok () (allocd e w i ⟨0, 0⟩ 1) else .throw w := by
  have hf : freeO i w = .ok () w := by
    rw [freeO, bind_ok (obj_ok ho)]
    rfl
  rw [allocateT, bind_ok hf]
  by_cases hr : e.room = true
  · rw [if_pos hr]
    have ha : allocBlock e 1 w = .ok w.next { w with heap := upd w.heap w.next (some ((List.range 1).map e.junk)), next := w.next + 1 } := if_pos hr
    rw [bind_ok ha]
    rfl
  · rw [if_neg hr]
    exact bind_throw (if_neg hr)

theorem keeps_alloc {w : World α} (h : Inv w) (e : Env α) {i : Nat} (ho : w.objs i = some ⟨0, 0⟩) : Keeps w (allocd e w i ⟨0, 0⟩ 1) i :=
  ⟨h.allocd e ho (by decide), fun j hj => upd_other _ _ hj, fun j hj => view_allocd h e ho hj, _, upd_same _ _ _⟩

theorem one_added {w : World α} (h : OneV w) (i : Nat) : OneV (added w i) :=
  h.keep (fun _ hj => upd_other _ _ hj) (upd_same _ _ _) rfl

theorem one_alloc {w : World α} (hI : Inv w) (h : OneV w) (e : Env α) (i : Nat) : OneV (allocd e w i ⟨0, 0⟩ 1) :=
  h.keep (fun _ hj => upd_other _ _ hj) (upd_same _ _ _) (by
    have := hI.next
    rw [if_neg (by dsimp only; omega)])

theorem one_dropped {w : World α} (h : OneV w) (i : Nat) : OneV (dropped w i) := fun k o ho => h k o (dropped_objs ho).2

theorem one_swapped {w : World α} (h : OneV w) {i j : Nat} {o p : Obj} (ho : w.objs i = some o) (hp : w.objs j = some p) : OneV (swapped w i j o p) :=
  fun k q hq => h (swapIx i j k) q ((swapped_objs ho hp k).symm.trans hq)

/-- A block of length 1. -/
theorem own_one {w : World α} (h : Inv w) (h1 : OneV w) {i : Nat} {o : Obj} (ho : w.objs i = some o) (hd : o.data ≠ 0) : ∃ x, w.heap o.data = some [x] ∧ o.size = 1 := by
  obtain ⟨_, l, hl, hlen⟩ := h.own i o ho hd
  have hs := h1 i o ho
  rw [if_neg hd] at hs
  rw [hs] at hlen
  obtain ⟨x, hx⟩ := List.length_eq_one_iff.mp hlen
  exact ⟨x, by rw [hl, hx], hs⟩

theorem copyFromT_ok {w : World α} (h : Inv w) (h1 : OneV w) (e : Env α) {i : Nat} {o : Obj} (ho : w.objs i = some o) (x : α) :
    copyFromT e i x w = if o.data ≠ 0 ∧ e.copies = true then .ok () { w with heap := upd w.heap o.data (some [x]) } else .throw w := by
  rw [copyFromT, bind_ok (obj_ok ho)]
  by_cases hd : o.data = 0
  · rw [if_neg (not_not_intro hd), if_neg (fun hc => hc.1 hd)]
    rfl
  · obtain ⟨y, hy, _⟩ := own_one h h1 ho hd
    rw [if_pos hd]
    by_cases hc : e.copies = true
    · rw [if_pos hc, if_pos ⟨hd, hc⟩, bind_ok (block_ok hy), if_pos (by simp)]
      rfl
    · rw [if_neg hc, if_neg (fun h => hc h.2)]
      rfl

theorem copyT_ok {w : World α} (h : Inv w) (h1 : OneV w) (e : Env α) {i j : Nat} {o p : Obj} (ho : w.objs i = some o) (hp : w.objs j = some p) (hij : i ≠ j) :
    copyT .cuda e i j w = if o.data ≠ 0 ∧ p.data ≠ 0 ∧ e.copies = true then .ok () { w with heap := upd w.heap o.data (w.heap p.data) } else .throw w := by
  show (obj i >>= fun o => obj j >>= fun p => if o.data ≠ 0 ∧ p.data ≠ 0 then copyBlock e o.data p.data 1 else throwE) w = _
  rw [bind_ok (obj_ok ho), bind_ok (obj_ok hp)]
  by_cases hd : o.data ≠ 0 ∧ p.data ≠ 0
  · rw [if_pos hd, copyBlock]
    by_cases hc : e.copies = true
    · obtain ⟨x, hx, _⟩ := own_one h h1 ho hd.1
      obtain ⟨y, hy, _⟩ := own_one h h1 hp hd.2
      have hne : o.data ≠ p.data := fun he => hij (h.dist i j o p ho hp he hd.1)
      rw [if_neg (by rw [hc]; simp [hd.1]), if_neg hne, bind_ok (block_ok hy), bind_ok (block_ok hx), if_pos (by simp), if_pos ⟨hd.1, hd.2, hc⟩, hy]
      rfl
    · rw [if_pos (.inr (by simpa using hc)), if_neg (fun h => hc h.2.2)]
      rfl
  · rw [if_neg hd, if_neg (fun h => hd ⟨h.1, h.2.1⟩)]
    rfl

theorem getT_ok {w : World α} (h : Inv w) (h1 : OneV w) {i : Nat} {o : Obj} (ho : w.objs i = some o) : valA (getT goodEnv i w) = (vals w i).getD none := by
  rw [getT, bind_ok (obj_ok ho)]
  by_cases hd : o.data = 0
  · have hs := h1 i o ho
    rw [if_pos hd] at hs
    rw [if_neg (not_not_intro hd), vals, view, ho, Option.map_some, if_pos hd, hs]
    rfl
  · obtain ⟨x, hx, _⟩ := own_one h h1 ho hd
    rw [if_pos hd, if_pos (show goodEnv.copies = true from rfl), bind_ok (block_ok hx), vals, view_of ho hd hx]
    rfl

theorem vals_none {w : World α} {i : Nat} : vals w i = none ↔ w.objs i = none := by
  rw [vals, Option.map_eq_none_iff, view_none]

theorem vals_data {w : World α} (h : Inv w) (h1 : OneV w) {i : Nat} {o : Obj} (ho : w.objs i = some o) : vals w i = some (if o.data = 0 then none else (w.heap o.data).bind List.head?) := by
  by_cases hd : o.data = 0
  · have hs := h1 i o ho
    rw [if_pos hd] at hs
    rw [if_pos hd, vals, view, ho, Option.map_some, if_pos hd, hs]
    rfl
  · obtain ⟨x, hx, _⟩ := own_one h h1 ho hd
    rw [if_neg hd, vals, view_of ho hd hx, hx]
    rfl

theorem stepT_any {w : World α} (h : Inv w) (h1 : OneV w) (kind : Kind) (e : Env α) (op : TOp α) (hl : LegalVal kind w op) :
    ∃ w', stA (stepT kind e op w) = some w' ∧ Inv w' ∧ OneV w' ∧ ∀ k, ¬ TouchesV op k → w'.objs k = w.objs k ∧ view w' k = view w k := by
  have hctor : ∀ (i : Nat) (body : M (World α) Unit), w.objs i = none →
      (∃ w', (Keeps (added w i) w' i ∧ OneV w') ∧ (body (added w i) = .ok () w' ∨ body (added w i) = .throw w')) →
      ∃ w', stA (ctor i body w) = some w' ∧ Inv w' ∧ OneV w' ∧ ∀ k, k ≠ i → w'.objs k = w.objs k ∧ view w' k = view w k := by
    rintro i body hi ⟨w', ⟨hk, ho⟩, hb | hb⟩
    · rw [ctor_ok hi hb]
      refine ⟨w', rfl, hk.inv, ho, fun k hki => ⟨(hk.objs k hki).trans (upd_other _ _ hki), ?_⟩⟩
      rw [hk.views k hki, view_added, if_neg hki]
    · rw [ctor_throw hi hb]
      refine ⟨_, rfl, hk.inv.dropped i, one_dropped ho i, fun k hki => ⟨(upd_other _ _ hki).trans ((hk.objs k hki).trans (upd_other _ _ hki)), ?_⟩⟩
      rw [view_dropped, if_neg hki, hk.views k hki, view_added, if_neg hki]
  have hkeep : ∀ (i : Nat) (r : Res (World α) Unit), (∃ w', (Keeps w w' i ∧ OneV w') ∧ (r = .ok () w' ∨ r = .throw w')) →
      ∃ w', stA r = some w' ∧ Inv w' ∧ OneV w' ∧ ∀ k, k ≠ i → w'.objs k = w.objs k ∧ view w' k = view w k := by
    rintro i r ⟨w', ⟨hk, ho⟩, hr | hr⟩ <;> rw [hr] <;> exact ⟨w', rfl, hk.inv, ho, fun k hki => ⟨hk.objs k hki, hk.views k hki⟩⟩
  have hrefl : ∀ {w : World α} (_ : Inv w) {i : Nat} {o : Obj} (_ : w.objs i = some o), Keeps w w i := fun h _ o ho => ⟨h, fun _ _ => rfl, fun _ _ => rfl, o, ho⟩
  have hassign : ∀ {w : World α} (h : Inv w) (h1 : OneV w) {i : Nat} {o : Obj} (ho : w.objs i = some o) (x : α),
      ∃ w', (Keeps w w' i ∧ OneV w') ∧ (copyFromT e i x w = .ok () w' ∨ copyFromT e i x w = .throw w') := by
    intro w h h1 i o ho x
    rw [copyFromT_ok h h1 e ho]
    split
    · rename_i hc
      obtain ⟨_, _, hs⟩ := own_one h h1 ho hc.1
      exact ⟨_, ⟨keeps_fill h ho hc.1 (l := [x]) hs.symm, h1⟩, .inl rfl⟩
    · exact ⟨w, ⟨hrefl h ho, h1⟩, .inr rfl⟩
  have hcopy : ∀ {w : World α} (h : Inv w) (h1 : OneV w) {i j : Nat} {o p : Obj} (ho : w.objs i = some o) (hp : w.objs j = some p) (hij : i ≠ j),
      ∃ w', (Keeps w w' i ∧ OneV w') ∧ (copyT .cuda e i j w = .ok () w' ∨ copyT .cuda e i j w = .throw w') := by
    intro w h h1 i j o p ho hp hij
    rw [copyT_ok h h1 e ho hp hij]
    split
    · rename_i hc
      obtain ⟨_, _, hs⟩ := own_one h h1 ho hc.1
      obtain ⟨y, hy, _⟩ := own_one h h1 hp hc.2.1
      rw [hy]
      exact ⟨_, ⟨keeps_fill h ho hc.1 (l := [y]) hs.symm, h1⟩, .inl rfl⟩
    · exact ⟨w, ⟨hrefl h ho, h1⟩, .inr rfl⟩
  have hself : ∀ (w : World α) (i : Nat), (added w i).objs i = some ⟨0, 0⟩ := fun w i => upd_same _ _ _
  cases op with
  | new i =>
    refine hctor i _ hl ?_
    rw [allocateT_ok (h.added i) e (hself w i)]
    split
    · exact ⟨_, ⟨keeps_alloc (h.added i) e (hself w i), one_alloc (h.added i) (one_added h1 i) e i⟩, .inl rfl⟩
    · exact ⟨_, ⟨hrefl (h.added i) (hself w i), one_added h1 i⟩, .inr rfl⟩
  | newVal i x =>
    refine hctor i _ hl ?_
    by_cases hr : e.room = true
    · have ha := allocateT_ok (h.added i) e (hself w i)
      rw [if_pos hr] at ha
      have hk := keeps_alloc (h.added i) e (hself w i)
      have ho := one_alloc (h.added i) (one_added h1 i) e i
      rw [bind_ok ha]
      obtain ⟨w', ⟨k', o'⟩, r⟩ := hassign hk.inv ho (upd_same _ _ _) x
      exact ⟨w', ⟨hk.trans k', o'⟩, r⟩
    · have ha := allocateT_ok (h.added i) e (hself w i)
      rw [if_neg hr] at ha
      exact ⟨_, ⟨hrefl (h.added i) (hself w i), one_added h1 i⟩, .inr (bind_throw ha)⟩
  | copyNew i j =>
    obtain ⟨hk, hi, hj⟩ := hl
    obtain ⟨p, hp⟩ := alive_of hj
    have hij : i ≠ j := fun hc => by rw [hc, hp] at hi; exact absurd hi (by simp)
    subst hk
    refine hctor i _ hi ?_
    by_cases hr : e.room = true
    · have ha := allocateT_ok (h.added i) e (hself w i)
      rw [if_pos hr] at ha
      have hk := keeps_alloc (h.added i) e (hself w i)
      have ho := one_alloc (h.added i) (one_added h1 i) e i
      rw [bind_ok ha]
      obtain ⟨w', ⟨k', o'⟩, r⟩ := hcopy hk.inv ho (j := j) (p := p) (upd_same _ _ _) ((hk.objs j (Ne.symm hij)).trans ((upd_other _ _ (Ne.symm hij)).trans hp)) hij
      exact ⟨w', ⟨hk.trans k', o'⟩, r⟩
    · have ha := allocateT_ok (h.added i) e (hself w i)
      rw [if_neg hr] at ha
      exact ⟨_, ⟨hrefl (h.added i) (hself w i), one_added h1 i⟩, .inr (bind_throw ha)⟩
  | moveNew i j =>
    obtain ⟨hi, hj⟩ := hl
    obtain ⟨p, hp⟩ := alive_of hj
    have hij : i ≠ j := fun hc => by rw [hc, hp] at hi; exact absurd hi (by simp)
    have hp' : (added w i).objs j = some p := (upd_other _ _ (Ne.symm hij)).trans hp
    refine ⟨swapped (added w i) i j ⟨0, 0⟩ p, ?_, (h.added i).swapped (hself w i) hp', one_swapped (one_added h1 i) (hself w i) hp', fun k hk => ?_⟩
    · show stA (ctor i (swapO i j) w) = _
      rw [ctor_ok hi (swapO_ok (hself w i) hp')]
      rfl
    · have hki : k ≠ i := fun hc => hk (.inl hc)
      have hkj : k ≠ j := fun hc => hk (.inr hc)
      have hs : swapIx i j k = k := by rw [swapIx, if_neg hkj, if_neg hki]
      rw [swapped_objs (hself w i) hp', view_swapped (hself w i) hp', hs, view_added, if_neg hki]
      exact ⟨upd_other _ _ hki, rfl⟩
  | copy i j =>
    obtain ⟨hi, hj, hij⟩ := hl
    obtain ⟨o, ho⟩ := alive_of hi
    obtain ⟨p, hp⟩ := alive_of hj
    cases kind with
    | openCl => exact hkeep i _ ⟨w, ⟨hrefl h ho, h1⟩, .inr rfl⟩
    | cuda => exact hkeep i _ (hcopy h h1 ho hp hij)
  | move i j =>
    obtain ⟨hi, hj⟩ := hl
    obtain ⟨o, ho⟩ := alive_of hi
    obtain ⟨p, hp⟩ := alive_of hj
    refine ⟨swapped w i j o p, ?_, h.swapped ho hp, one_swapped h1 ho hp, fun k hk => ?_⟩
    · show stA (swapO i j w) = _
      rw [swapO_ok ho hp]
      rfl
    · have hki : k ≠ i := fun hc => hk (.inl hc)
      have hkj : k ≠ j := fun hc => hk (.inr hc)
      have hs : swapIx i j k = k := by rw [swapIx, if_neg hkj, if_neg hki]
      rw [swapped_objs ho hp, view_swapped ho hp, hs]
      exact ⟨rfl, rfl⟩
  | assign i x =>
    obtain ⟨o, ho⟩ := alive_of hl
    exact hkeep i _ (hassign h h1 ho x)
  | destroy i =>
    obtain ⟨o, ho⟩ := alive_of hl
    have hd := destroy_ok h kind e ho
    rw [show stepT kind e (.destroy i) w = _ from hd]
    refine ⟨_, rfl, (h.emptied ho).dropped i, one_dropped (h1.keep (fun _ hj => upd_other _ _ hj) (upd_same _ _ _) rfl) i, fun k hk => ⟨(upd_other _ _ hk).trans (upd_other _ _ hk), ?_⟩⟩
    rw [view_dropped, if_neg (show ¬ k = i from hk)]
    exact view_freed h ho hk
  | write i x =>
    obtain ⟨y, hy⟩ := hl
    cases ho : w.objs i with
    | none =>
      rw [getT, bind_ub (by rw [obj, ho])] at hy
      exact absurd hy (by simp [valA])
    | some o =>
      rw [getT_ok h h1 ho, vals_data h h1 ho, Option.getD_some] at hy
      have hd : o.data ≠ 0 := fun hc => by
        rw [if_pos hc] at hy
        exact absurd hy (by simp)
      obtain ⟨z, hz, hs⟩ := own_one h h1 ho hd
      have hst : stepT kind e (.write i x) w = .ok () { w with heap := upd w.heap o.data (some [x]) } := by
        show writeO i 0 x w = _
        rw [writeO, bind_ok (obj_ok ho), bind_ok (block_ok hz), if_pos (by simp)]
        rfl
      have := keeps_fill h ho hd (l := [x]) hs.symm
      exact ⟨_, by rw [hst]; rfl, this.inv, h1, fun m hm => ⟨this.objs m hm, this.views m hm⟩⟩

theorem noArrays_one : OneV (noArrays : World α) := fun _ _ h => absurd h (by simp [noArrays])

theorem ReachV.inv {kind : Kind} {w : World α} (h : ReachV kind w) : Inv w ∧ OneV w := by
  induction h with
  | start => exact ⟨noArrays_inv, noArrays_one⟩
  | next e op _ hl hs ih =>
    obtain ⟨w', h1, h2, h3, _⟩ := stepT_any ih.1 ih.2 kind e op hl
    rw [hs] at h1
    injection h1 with h1
    rw [h1]
    exact ⟨h2, h3⟩

/-- **C133, safety**.  Whatever allocations and copies fail, an operation on values either ends or throws, and values which it does not
    touch stay. -/
theorem C133_value_safe {kind : Kind} {w : World α} (h : ReachV kind w) (e : Env α) (op : TOp α) (hl : LegalVal kind w op) :
    ∃ w', stA (stepT kind e op w) = some w' ∧
      ∀ k, ¬ TouchesV op k → (w.objs k = none ↔ w'.objs k = none) ∧ valA (getT goodEnv k w') = valA (getT goodEnv k w) := by
  obtain ⟨w', h1, h2, h3, h4⟩ := stepT_any h.inv.1 h.inv.2 kind e op hl
  refine ⟨w', h1, fun k hk => ?_⟩
  obtain ⟨h5, h6⟩ := h4 k hk
  rw [h5]
  refine ⟨Iff.rfl, ?_⟩
  cases ho : w.objs k with
  | none =>
    have hub : ∀ w : World α, w.objs k = none → getT goodEnv k w = .ub := fun w hw => bind_ub (by rw [obj, hw])
    rw [hub w' (h5.trans ho), hub w ho]
  | some o => rw [getT_ok h2 h3 (h5.trans ho), getT_ok h.inv.1 h.inv.2 ho, vals, vals, h6]

example : LegalVal .cuda (noArrays : World Nat) (.newVal 0 5) := rfl

/-! ### Values when nothing fails -/

abbrev Vals (α : Type) := Nat → Option (Option α)

def putV (s : Vals α) (i : Nat) (x : Option (Option α)) : Vals α := fun k => if k = i then x else s k

/-- What each operation does to the values (`some none`: the value was moved away), and whether it throws. -/
def specStepV (kind : Kind) (junk : α) (op : TOp α) (s : Vals α) : Vals α × Bool :=
  match op with
  | .new i => (putV s i (some (some junk)), false)
  | .newVal i x => (putV s i (some (some x)), false)
  | .copyNew i j => (putV s i (s j), false)
  | .moveNew i j => (putV (putV s i (s j)) j (some none), false)
  | .copy i j => match kind, s i, s j with
    | .cuda, some (some _), some (some x) => (putV s i (some (some x)), false)
    | _, _, _ => (s, true)
  | .move i j => (putV (putV s i (s j)) j (s i), false)
  | .assign i x => match s i with
    | some (some _) => (putV s i (some (some x)), false)
    | _ => (s, true)
  | .destroy i => (putV s i none, false)
  | .write i x => (putV s i (some (some x)), false)

/-- The legal operations; the copy constructor only for objects which have a value. -/
def LegalSpecV (kind : Kind) (s : Vals α) : TOp α → Prop
  | .new i => s i = none
  | .newVal i _ => s i = none
  | .copyNew i j => kind = .cuda ∧ s i = none ∧ ∃ x, s j = some (some x)
  | .moveNew i j => s i = none ∧ s j ≠ none
  | .copy i j => s i ≠ none ∧ s j ≠ none ∧ i ≠ j
  | .move i j => s i ≠ none ∧ s j ≠ none
  | .assign i _ => s i ≠ none
  | .destroy i => s i ≠ none
  | .write i _ => ∃ x, s i = some (some x)

abbrev ProgV (α : Type) := List (TOp α × α)

def specRunV (kind : Kind) : ProgV α → Vals α → Vals α × List Bool
  | [], s => (s, [])
  | (op, junk) :: ops, s =>
    let r := specStepV kind junk op s
    let t := specRunV kind ops r.1
    (t.1, r.2 :: t.2)

def LegalProgV (kind : Kind) : ProgV α → Vals α → Prop
  | [], _ => True
  | (op, junk) :: ops, s => LegalSpecV kind s op ∧ LegalProgV kind ops (specStepV kind junk op s).1

def runVal (kind : Kind) : ProgV α → World α → Option (World α × List Bool)
  | [], w => some (w, [])
  | (op, junk) :: ops, w =>
    (stA (stepT kind ⟨true, true, fun _ => junk⟩ op w)).bind fun w' =>
      (runVal kind ops w').map fun t => (t.1, raisedA (stepT kind ⟨true, true, fun _ => junk⟩ op w) :: t.2)

theorem putV_vals {w w' : World α} {i : Nat} {x : Option (Option α)} (h : ∀ k, k ≠ i → view w' k = view w k) (hi : vals w' i = x) : vals w' = putV (vals w) i x := by
  funext k
  unfold putV
  split
  · rename_i hk
    rw [hk, hi]
  · rename_i hk
    rw [vals, vals, h k hk]

theorem stepT_good {w : World α} (h : Inv w) (h1 : OneV w) (t : Tight w) (kind : Kind) (junk : α) (op : TOp α) (hl : LegalSpecV kind (vals w) op) :
    ∃ w', stepT kind ⟨true, true, fun _ => junk⟩ op w = (if (specStepV kind junk op (vals w)).2 then .throw w' else .ok () w')
      ∧ Inv w' ∧ OneV w' ∧ Tight w' ∧ vals w' = (specStepV kind junk op (vals w)).1 := by
  have hself : ∀ (w : World α) (i : Nat), (added w i).objs i = some ⟨0, 0⟩ := fun w i => upd_same _ _ _
  have hvadd : ∀ i k, k ≠ i → view (added w i) k = view w k := fun i k hk => by rw [view_added, if_neg hk]
  have hal : ∀ {i : Nat}, vals w i ≠ none → ∃ o, w.objs i = some o := fun hi => alive_of fun hc => hi (vals_none.mpr hc)
  cases op with
  | new i =>
    have hi := vals_none.mp hl
    have ha := allocateT_ok (h.added i) ⟨true, true, fun _ => junk⟩ (hself w i)
    rw [if_pos rfl] at ha
    have hk := keeps_alloc (h.added i) ⟨true, true, fun _ => junk⟩ (hself w i)
    refine ⟨_, ctor_ok hi ha, hk.inv, one_alloc (h.added i) (one_added h1 i) _ i, (t.added hi).allocd (h.added i) _ (hself w i), ?_⟩
    refine putV_vals (fun k hki => (hk.views k hki).trans (hvadd i k hki)) ?_
    rw [vals, view_allocd_same (h.added i)]
    rfl
  | newVal i x =>
    have hi := vals_none.mp hl
    have ha := allocateT_ok (h.added i) ⟨true, true, fun _ => junk⟩ (hself w i)
    rw [if_pos rfl] at ha
    have hk := keeps_alloc (h.added i) ⟨true, true, fun _ => junk⟩ (hself w i)
    have ho1 := one_alloc (h.added i) (one_added h1 i) ⟨true, true, fun _ => junk⟩ i
    have hn : (⟨(added w i).next, 1⟩ : Obj).data ≠ 0 := Nat.ne_of_gt h.next
    have hc := copyFromT_ok hk.inv ho1 ⟨true, true, fun _ => junk⟩ (i := i) (o := ⟨(added w i).next, 1⟩) (upd_same _ _ _) x
    rw [if_pos ⟨hn, rfl⟩] at hc
    have hk2 := keeps_fill hk.inv (i := i) (o := ⟨(added w i).next, 1⟩) (upd_same _ _ _) hn (l := [x]) rfl
    refine ⟨_, ctor_ok hi ((bind_ok ha).trans hc), hk2.inv, ho1, ((t.added hi).allocd (h.added i) _ (hself w i)).fill (i := i) (o := ⟨(added w i).next, 1⟩) (upd_same _ _ _), ?_⟩
    refine putV_vals (fun k hki => (hk2.views k hki).trans ((hk.views k hki).trans (hvadd i k hki))) ?_
    rw [vals, view_fill hk.inv (i := i) (o := ⟨(added w i).next, 1⟩) (upd_same _ _ _) hn, if_pos rfl]
    rfl
  | copyNew i j =>
    obtain ⟨hkind, hi, x, hj⟩ := hl
    replace hi := vals_none.mp hi
    obtain ⟨p, hp⟩ := hal (i := j) (by rw [hj]; simp)
    have hij : i ≠ j := fun hc => by rw [hc, hp] at hi; exact absurd hi (by simp)
    subst hkind
    have ha := allocateT_ok (h.added i) ⟨true, true, fun _ => junk⟩ (hself w i)
    rw [if_pos rfl] at ha
    have hk := keeps_alloc (h.added i) ⟨true, true, fun _ => junk⟩ (hself w i)
    have ho1 := one_alloc (h.added i) (one_added h1 i) ⟨true, true, fun _ => junk⟩ i
    have hn : (⟨(added w i).next, 1⟩ : Obj).data ≠ 0 := Nat.ne_of_gt h.next
    have hpd : p.data ≠ 0 := fun hc => by
      rw [vals_data h h1 hp, if_pos hc] at hj
      exact absurd hj (by simp)
    have hp' := (hk.objs j (Ne.symm hij)).trans ((upd_other _ _ (Ne.symm hij)).trans hp)
    have hc := copyT_ok hk.inv ho1 ⟨true, true, fun _ => junk⟩ (i := i) (j := j) (o := ⟨(added w i).next, 1⟩) (p := p) (upd_same _ _ _) hp' hij
    rw [if_pos ⟨hn, hpd, rfl⟩] at hc
    obtain ⟨y, hy, _⟩ := own_one hk.inv ho1 hp' hpd
    rw [hy] at hc
    have hk2 := keeps_fill hk.inv (i := i) (o := ⟨(added w i).next, 1⟩) (upd_same _ _ _) hn (l := [y]) rfl
    refine ⟨_, ctor_ok hi ((bind_ok ha).trans hc), hk2.inv, ho1, ((t.added hi).allocd (h.added i) _ (hself w i)).fill (i := i) (o := ⟨(added w i).next, 1⟩) (upd_same _ _ _), ?_⟩
    refine putV_vals (fun k hki => (hk2.views k hki).trans ((hk.views k hki).trans (hvadd i k hki))) ?_
    rw [vals, view_fill hk.inv (i := i) (o := ⟨(added w i).next, 1⟩) (upd_same _ _ _) hn, if_pos rfl, vals, ← hvadd i j (Ne.symm hij), ← hk.views j (Ne.symm hij), view_of hp' hpd hy]
  | moveNew i j =>
    obtain ⟨hi, hj⟩ := hl
    replace hi := vals_none.mp hi
    obtain ⟨p, hp⟩ := hal hj
    have hij : i ≠ j := fun hc => by rw [hc, hp] at hi; exact absurd hi (by simp)
    have hp' : (added w i).objs j = some p := (upd_other _ _ (Ne.symm hij)).trans hp
    refine ⟨swapped (added w i) i j ⟨0, 0⟩ p, ctor_ok hi (swapO_ok (hself w i) hp'), (h.added i).swapped (hself w i) hp', one_swapped (one_added h1 i) (hself w i) hp', (t.added hi).swapped (hself w i) hp', ?_⟩
    funext k
    rw [vals, view_swapped (hself w i) hp']
    show _ = putV (putV (vals w) i (vals w j)) j (some none) k
    unfold putV swapIx
    by_cases h1 : k = j
    · rw [if_pos h1, if_pos h1, view_added, if_pos rfl]
      rfl
    · rw [if_neg h1, if_neg h1]
      by_cases h2 : k = i
      · rw [if_pos h2, if_pos h2, hvadd i j (Ne.symm hij)]
        rfl
      · rw [if_neg h2, if_neg h2, hvadd i k h2]
        rfl
  | copy i j =>
    obtain ⟨hi, hj, hij⟩ := hl
    obtain ⟨o, ho⟩ := hal hi
    obtain ⟨p, hp⟩ := hal hj
    have vo := vals_data h h1 ho
    have vp := vals_data h h1 hp
    cases kind with
    | openCl => exact ⟨w, rfl, h, h1, t, rfl⟩
    | cuda =>
      show ∃ w', copyT .cuda ⟨true, true, fun _ => junk⟩ i j w = _ ∧ _
      rw [copyT_ok h h1 _ ho hp hij]
      by_cases hod : o.data = 0
      · have hs : specStepV .cuda junk (.copy i j) (vals w) = (vals w, true) := by
          simp only [specStepV]
          rw [vo, if_pos hod]
        rw [hs, if_neg (fun hc => hc.1 hod)]
        exact ⟨w, rfl, h, h1, t, rfl⟩
      by_cases hpd : p.data = 0
      · obtain ⟨x, hx, _⟩ := own_one h h1 ho hod
        have hs : specStepV .cuda junk (.copy i j) (vals w) = (vals w, true) := by
          simp only [specStepV]
          rw [vo, if_neg hod, hx, vp, if_pos hpd]
          rfl
        rw [hs, if_neg (fun hc => hc.2.1 hpd)]
        exact ⟨w, rfl, h, h1, t, rfl⟩
      · obtain ⟨x, hx, hsz⟩ := own_one h h1 ho hod
        obtain ⟨y, hy, _⟩ := own_one h h1 hp hpd
        have hs : specStepV .cuda junk (.copy i j) (vals w) = (putV (vals w) i (some (some y)), false) := by
          simp only [specStepV]
          rw [vo, if_neg hod, hx, vp, if_neg hpd, hy]
          rfl
        rw [hs, if_pos ⟨hod, hpd, rfl⟩, hy]
        have hk := keeps_fill h ho hod (l := [y]) hsz.symm
        refine ⟨_, rfl, hk.inv, h1, t.fill ho, putV_vals hk.views ?_⟩
        rw [vals, view_fill h ho hod, if_pos rfl]
        rfl
  | move i j =>
    obtain ⟨hi, hj⟩ := hl
    obtain ⟨o, ho⟩ := hal hi
    obtain ⟨p, hp⟩ := hal hj
    refine ⟨swapped w i j o p, swapO_ok ho hp, h.swapped ho hp, one_swapped h1 ho hp, t.swapped ho hp, ?_⟩
    funext k
    rw [vals, view_swapped ho hp]
    show _ = putV (putV (vals w) i (vals w j)) j (vals w i) k
    unfold putV swapIx
    by_cases h1 : k = j
    · rw [if_pos h1, if_pos h1]
      rfl
    · rw [if_neg h1, if_neg h1]
      by_cases h2 : k = i
      · rw [if_pos h2, if_pos h2]
        rfl
      · rw [if_neg h2, if_neg h2]
        rfl
  | assign i x =>
    obtain ⟨o, ho⟩ := hal hl
    have vo := vals_data h h1 ho
    show ∃ w', copyFromT ⟨true, true, fun _ => junk⟩ i x w = _ ∧ _
    rw [copyFromT_ok h h1 _ ho]
    by_cases hod : o.data = 0
    · have hs : specStepV kind junk (.assign i x) (vals w) = (vals w, true) := by
        simp only [specStepV]
        rw [vo, if_pos hod]
      rw [hs, if_neg (fun hc => hc.1 hod)]
      exact ⟨w, rfl, h, h1, t, rfl⟩
    · obtain ⟨y, hy, hsz⟩ := own_one h h1 ho hod
      have hs : specStepV kind junk (.assign i x) (vals w) = (putV (vals w) i (some (some x)), false) := by
        simp only [specStepV]
        rw [vo, if_neg hod, hy]
        rfl
      rw [hs, if_pos ⟨hod, rfl⟩]
      have hk := keeps_fill h ho hod (l := [x]) hsz.symm
      refine ⟨_, rfl, hk.inv, h1, t.fill ho, putV_vals hk.views ?_⟩
      rw [vals, view_fill h ho hod, if_pos rfl]
      rfl
  | destroy i =>
    obtain ⟨o, ho⟩ := hal hl
    refine ⟨_, destroy_ok h kind ⟨true, true, fun _ => junk⟩ ho, (h.emptied ho).dropped i, one_dropped (h1.keep (fun _ hj => upd_other _ _ hj) (upd_same _ _ _) rfl) i, (t.emptied h ho).dropped (h.emptied ho) (upd_same _ _ _) rfl, ?_⟩
    refine putV_vals (fun k hk => ?_) ?_
    · rw [view_dropped, if_neg hk]
      exact view_freed h ho hk
    · rw [vals, view_dropped, if_pos rfl]
      rfl
  | write i x =>
    obtain ⟨y, hy⟩ := hl
    obtain ⟨o, ho⟩ := hal (i := i) (by rw [hy]; simp)
    have hd : o.data ≠ 0 := fun hc => by
      rw [vals_data h h1 ho, if_pos hc] at hy
      exact absurd hy (by simp)
    obtain ⟨z, hz, hs⟩ := own_one h h1 ho hd
    have hst : stepT kind ⟨true, true, fun _ => junk⟩ (.write i x) w = .ok () { w with heap := upd w.heap o.data (some [x]) } := by
      show writeO i 0 x w = _
      rw [writeO, bind_ok (obj_ok ho), bind_ok (block_ok hz), if_pos (by simp)]
      rfl
    have hk := keeps_fill h ho hd (l := [x]) hs.symm
    refine ⟨_, hst, hk.inv, h1, t.fill ho, putV_vals hk.views ?_⟩
    rw [vals, view_fill h ho hd, if_pos rfl]
    rfl

theorem runVal_good (kind : Kind) (ops : ProgV α) : ∀ (w : World α), Inv w → OneV w → Tight w → LegalProgV kind ops (vals w) →
    ∃ w', runVal kind ops w = some (w', (specRunV kind ops (vals w)).2) ∧ Inv w' ∧ OneV w' ∧ Tight w' ∧ vals w' = (specRunV kind ops (vals w)).1 := by
  induction ops with
  | nil => exact fun w h h1 t _ => ⟨w, rfl, h, h1, t, rfl⟩
  | cons op ops ih =>
    obtain ⟨op, junk⟩ := op
    rintro w h h1 t ⟨hl, hls⟩
    obtain ⟨w1, a1, i1, o1, t1, v1⟩ := stepT_good h h1 t kind junk op hl
    rw [← v1] at hls
    obtain ⟨w2, a2, i2, o2, t2, v2⟩ := ih w1 i1 o1 t1 hls
    have hst : stA (stepT kind ⟨true, true, fun _ => junk⟩ op w) = some w1 ∧ raisedA (stepT kind ⟨true, true, fun _ => junk⟩ op w) = (specStepV kind junk op (vals w)).2 := by
      rw [a1]
      cases (specStepV kind junk op (vals w)).2 <;> exact ⟨rfl, rfl⟩
    refine ⟨w2, ?_, i2, o2, t2, ?_⟩
    · rw [runVal, hst.1, hst.2, Option.bind_some, a2, Option.map_some]
      simp only [specRunV, v1]
    · rw [v2]
      simp only [specRunV, v1]

/-- **C133, partial**.  If nothing fails, objects have after every program the values which the operations say, `get` throws exactly for
    objects whose value was moved away, exceptions come where `specRunV` says, and no memory is in use beside that of the values.
    Missing: copy construction from an object whose value was moved away, copies in OpenCL, assignment to itself. -/
theorem C133_value_contents_partial (kind : Kind) (ops : ProgV α) (hl : LegalProgV kind ops fun _ => none) :
    ∃ w, runVal kind ops noArrays = some (w, (specRunV kind ops fun _ => none).2)
      ∧ (∀ i, (specRunV kind ops fun _ => none).1 i = none → w.objs i = none)
      ∧ (∀ i x, (specRunV kind ops fun _ => none).1 i = some x → valA (getT goodEnv i w) = x ∧ (x = none → raisedA (getT goodEnv i w) = true))
      ∧ ∀ b, w.heap b ≠ none → ∃ i x o, (specRunV kind ops fun _ => none).1 i = some (some x) ∧ w.objs i = some o ∧ o.data = b := by
  have hv : vals (noArrays : World α) = fun _ => none := rfl
  rw [← hv] at hl ⊢
  obtain ⟨w, a, h, h1, t, v⟩ := runVal_good kind ops noArrays noArrays_inv noArrays_one noArrays_tight hl
  rw [← v]
  refine ⟨w, a, fun i => vals_none.mp, fun i x hi => ?_, fun b hb => ?_⟩
  · obtain ⟨o, ho⟩ := alive_of (w := w) (i := i) fun hc => by rw [vals_none.mpr hc] at hi; exact absurd hi (by simp)
    rw [getT_ok h h1 ho, hi]
    refine ⟨rfl, fun hx => ?_⟩
    have hd : o.data = 0 := by
      by_cases hd : o.data = 0
      · exact hd
      · obtain ⟨y, hy, _⟩ := own_one h h1 ho hd
        rw [vals_data h h1 ho, if_neg hd, hy, hx] at hi
        exact absurd hi (by simp)
    rw [getT, bind_ok (obj_ok ho), if_neg (not_not_intro hd)]
    rfl
  · obtain ⟨i, o, ho, hd⟩ := t.used b hb
    have hd0 : o.data ≠ 0 := by
      have := (h.fresh b hb).1
      omega
    obtain ⟨y, hy, _⟩ := own_one h h1 ho hd0
    refine ⟨i, y, o, ?_, ho, hd⟩
    rw [vals_data h h1 ho, if_neg hd0, hy]
    rfl

def sampleProgV : ProgV Nat :=
  [(.newVal 0 3, 0), (.new 1, 8), (.copy 1 0, 0), (.write 1 9, 0), (.moveNew 2 0, 0), (.copyNew 3 1, 0), (.move 3 2, 0), (.assign 0 5, 0), (.copy 1 0, 0), (.assign 1 4, 0), (.destroy 2, 0)]

example : LegalProgV .cuda sampleProgV (fun _ => none) := by
  simp [sampleProgV, LegalProgV, LegalSpecV, specStepV, putV]

example : (specRunV .cuda sampleProgV fun _ => none).2 = [false, false, false, false, false, false, false, true, true, false, false]
    ∧ (specRunV .cuda sampleProgV fun _ => none).1 3 = some (some 3) ∧ (specRunV .cuda sampleProgV fun _ => none).1 1 = some (some 4)
    ∧ (specRunV .cuda sampleProgV fun _ => none).1 0 = some none := by decide

/-- A copy of an object whose value was moved away throws and leaves memory which nothing can release, although nothing failed; a value
    moved away cannot be assigned again; assignment to itself is undefined. -/
theorem C133_wrong :
    ((runVal .cuda [(.newVal 0 3, 0), (.moveNew 1 0, 0), (.copyNew 2 0, 0)] (noArrays : World Nat)).map
      fun r => (r.2, (r.1.objs 2).isNone, (r.1.heap 2).isSome)) = some ([false, false, true], true, true)
    ∧ ((runVal .cuda [(.newVal 0 3, 0), (.moveNew 1 0, 0), (.assign 0 4, 0)] (noArrays : World Nat)).map fun r => r.2) = some [false, false, true]
    ∧ (runVal .cuda [(.newVal 0 3, 0), (.copy 0 0, 0)] (noArrays : World Nat)).isNone = true := by
  decide

end PV.Props
