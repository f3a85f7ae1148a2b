import Verif.TypeManager
import Verif.PropsReduce
import Mathlib.Data.List.Induction
/-
  C66: which function is called for an image type; C87: order of registration; C88: conversion of images for a call.
-/
namespace PV.Props
open PV PV.TypeManager

/-! ### C66 -/

/-- Some call of the history registered function `f` in slot `s` of type `t`. -/
def Registered (ops : List Op) (t : Nat) (s : Slot) (f : Nat) : Prop := ∃ tb force, Op.setTable t tb force ∈ ops ∧ tb s = some f

/-- The last switch of the conversion in the history, initially off -/
def conversionOn (ops : List Op) : Bool :=
  (ops.reverse.findSome? fun o => match o with | .enable b => some b | _ => none).getD false

theorem run_snoc (ops : List Op) (o : Op) : run (ops ++ [o]) = step (run ops) o := by
  rw [run, run, List.foldl_append]
  rfl

theorem run_enabled (ops : List Op) : (run ops).enabled = conversionOn ops := by
  induction ops using List.reverseRecOn with
  | nil => rfl
  | append_singleton ops o ih =>
    rw [run_snoc]
    have hc : conversionOn (ops ++ [o]) = ((match o with | .enable b => some b | _ => none : Option Bool).getD (conversionOn ops)) := by
      rw [conversionOn, List.reverse_append, List.reverse_singleton, List.singleton_append, List.findSome?_cons, conversionOn]
      cases o <;> rfl
    rw [hc]
    cases o with
    | setTable t tb f =>
      rw [step, setFunctionTable]
      cases (run ops).tables t <;> exact ih
    | setConvert i o =>
      rw [step, setConvertFunction]
      split <;> exact ih
    | enable b => rfl

/-- What registering a table does to one slot of one type -/
theorem setTable_slot (m : Mgr) (t t' : Nat) (tb : Table) (force : Bool) (s : Slot) :
    ((setFunctionTable m t tb force).tables t').bind (fun tb => tb s) =
      if t' = t then
        match m.tables t with
        | some old => if merged s then setFunction (old s) (tb s) force else old s
        | none => tb s
      else (m.tables t').bind fun tb => tb s := by
  rw [setFunctionTable]
  cases h : m.tables t with
  | none =>
    dsimp only
    by_cases ht : t' = t
    · rw [if_pos ht, if_pos ht]
      rfl
    · rw [if_neg ht, if_neg ht]
  | some old =>
    dsimp only
    by_cases ht : t' = t
    · rw [if_pos ht, if_pos ht]
      rfl
    · rw [if_neg ht, if_neg ht]

theorem step_other (m : Mgr) (o : Op) (h : ∀ t tb f, o ≠ .setTable t tb f) : (step m o).tables = m.tables := by
  cases o with
  | setTable t tb f => exact absurd rfl (h t tb f)
  | setConvert i o =>
    rw [step, setConvertFunction]
    split <;> rfl
  | enable b => rfl

/-- Every function in a table was registered there. -/
theorem slot_registered (ops : List Op) (t : Nat) (s : Slot) (f : Nat) (h : ((run ops).tables t).bind (fun tb => tb s) = some f) : Registered ops t s f := by
  induction ops using List.reverseRecOn generalizing f with
  | nil => simp [run, newMgr] at h
  | append_singleton ops o ih =>
    have up : ∀ f, Registered ops t s f → Registered (ops ++ [o]) t s f := fun f ⟨tb, force, h1, h2⟩ => ⟨tb, force, List.mem_append_left _ h1, h2⟩
    rw [run_snoc] at h
    by_cases ho : ∃ t' tb force, o = .setTable t' tb force
    · obtain ⟨t', tb, force, rfl⟩ := ho
      rw [step, setTable_slot] at h
      by_cases ht : t = t'
      · subst ht
        rw [if_pos rfl] at h
        have new : tb s = some f → Registered (ops ++ [.setTable t tb force]) t s f := fun hf => ⟨tb, force, by simp, hf⟩
        cases hm : (run ops).tables t with
        | none =>
          rw [hm] at h
          exact new h
        | some old =>
          rw [hm] at h
          dsimp only at h
          have old' : old s = some f → Registered (ops ++ [.setTable t tb force]) t s f := fun hf => up f (ih f (by rw [hm]; exact hf))
          split at h
          · rw [setFunction] at h
            split at h
            · exact new h
            · exact old' h
          · exact old' h
      · rw [if_neg ht] at h
        exact up f (ih f h)
    · rw [step_other _ _ fun t tb f hc => ho ⟨t, tb, f, hc⟩] at h
      exact up f (ih f h)

theorem setFunction_isSome {a b : Option Nat} {force : Bool} (h : a.isSome ∨ b.isSome) : (setFunction a b force).isSome := by
  rw [setFunction]
  cases a <;> cases b <;> cases force <;> simp_all

/-- A function registered for a type stays available (one of the functions registered there). -/
theorem registered_slot (ops : List Op) (t : Nat) (s : Slot) (f : Nat) (hs : merged s = true) (h : Registered ops t s f) :
    ((run ops).tables t).bind (fun tb => tb s) ≠ none := by
  induction ops using List.reverseRecOn with
  | nil =>
    obtain ⟨tb, force, h1, _⟩ := h
    exact absurd h1 (by simp)
  | append_singleton ops o ih =>
    obtain ⟨tb, force, h1, h2⟩ := h
    rw [run_snoc]
    by_cases ho : ∃ t' tb force, o = .setTable t' tb force
    · obtain ⟨t', tb', force', rfl⟩ := ho
      rw [step, setTable_slot]
      by_cases ht : t = t'
      · subst ht
        rw [if_pos rfl]
        rcases List.mem_append.1 h1 with hm | hm
        · have := ih ⟨tb, force, hm, h2⟩
          cases hm : (run ops).tables t with
          | none =>
            rw [hm] at this
            exact absurd rfl this
          | some old =>
            rw [hm] at this
            dsimp only
            rw [if_pos hs]
            have h3 : (old s).isSome := Option.isSome_iff_ne_none.2 this
            exact Option.isSome_iff_ne_none.1 (setFunction_isSome (Or.inl h3))
        · have he := List.mem_singleton.1 hm
          injection he with _ he2 he3
          subst he2
          cases hm : (run ops).tables t with
          | none =>
            dsimp only
            rw [h2]
            simp
          | some old =>
            dsimp only
            rw [if_pos hs]
            exact Option.isSome_iff_ne_none.1 (setFunction_isSome (Or.inr (by rw [h2]; rfl)))
      · rw [if_neg ht]
        refine ih ⟨tb, force, ?_, h2⟩
        rcases List.mem_append.1 h1 with hm | hm
        · exact hm
        · have he := List.mem_singleton.1 hm
          injection he with he1
          exact absurd he1 ht
    · rw [step_other _ _ fun t tb f hc => ho ⟨t, tb, f, hc⟩]
      refine ih ⟨tb, force, ?_, h2⟩
      rcases List.mem_append.1 h1 with hm | hm
      · exact hm
      · exact absurd ⟨t, tb, force, (List.mem_singleton.1 hm).symm⟩ ho

/-- C66: a call on an image of type t calls a function some call of the history registered in this slot, for type t unless conversion is
    switched on; otherwise there is an exception. -/
theorem C66_selected (ops : List Op) (s : Slot) (t f t' : Nat) (h : select (run ops) s t = some (f, t')) :
    Registered ops t' s f ∧ (t' = t ∨ conversionOn ops = true) := by
  rw [select] at h
  cases hm : (run ops).tables t with
  | none =>
    rw [hm] at h
    exact absurd h (by simp)
  | some tb =>
    rw [hm] at h
    dsimp only at h
    cases hs : tb s with
    | some g =>
      rw [hs] at h
      simp only [Option.some.injEq, Prod.mk.injEq] at h
      obtain ⟨rfl, rfl⟩ := h
      refine ⟨slot_registered ops _ s _ ?_, Or.inl rfl⟩
      rw [hm]
      exact hs
    | none =>
      rw [hs] at h
      dsimp only at h
      split at h
      · rename_i he
        obtain ⟨a, _, ha⟩ := List.exists_of_findSome?_eq_some h
        obtain ⟨g, hg, hgf⟩ := Option.map_eq_some_iff.1 ha
        simp only [Prod.mk.injEq] at hgf
        obtain ⟨rfl, rfl⟩ := hgf
        exact ⟨slot_registered ops _ s _ hg, Or.inr ((run_enabled ops).symm.trans he)⟩
      · exact absurd h (by simp)

/-- C66 for all slots but RgbToRgba, RgbaToRgb and Shift: if a function was registered for the type, one registered for this type is called. -/
theorem C66_own_partial (ops : List Op) (s : Slot) (t f : Nat) (hs : merged s = true) (h : Registered ops t s f) :
    ∃ f', select (run ops) s t = some (f', t) ∧ Registered ops t s f' := by
  have h1 := registered_slot ops t s f hs h
  obtain ⟨f', h2⟩ := Option.ne_none_iff_exists'.1 h1
  refine ⟨f', ?_, slot_registered ops t s f' h2⟩
  obtain ⟨tb, h3, h4⟩ := Option.bind_eq_some_iff.1 h2
  rw [select, h3]
  dsimp only
  rw [h4]

/-- C66: with conversion on, a type without the function gets the one of the smallest type which has it. -/
theorem C66_other_partial (ops : List Op) (s : Slot) (t f t' : Nat) (hs : merged s = true) (ht : ∃ tb force, Op.setTable t tb force ∈ ops)
    (hnone : ∀ f, ¬ Registered ops t s f) (hon : conversionOn ops = true) (h : Registered ops t' s f) (ht' : t' < 256) :
    ∃ f2 t2, select (run ops) s t = some (f2, t2) ∧ Registered ops t2 s f2 ∧ ∀ t3, t3 < t2 → ∀ g, ¬ Registered ops t3 s g := by
  have hex : ∀ (ops : List Op) (t : Nat), (∃ tb force, Op.setTable t tb force ∈ ops) → ∃ tb, (run ops).tables t = some tb := by
    intro ops t
    induction ops using List.reverseRecOn with
    | nil => exact fun ⟨_, _, h⟩ => absurd h (by simp)
    | append_singleton ops o ih =>
      rintro ⟨tb, force, hm⟩
      rw [run_snoc]
      by_cases ho : ∃ t' tb force, o = .setTable t' tb force
      · obtain ⟨t', tb', force', rfl⟩ := ho
        rw [step, setFunctionTable]
        by_cases htt : t = t'
        · subst htt
          cases (run ops).tables t
          · exact ⟨_, if_pos rfl⟩
          · exact ⟨_, if_pos rfl⟩
        · have := ih ⟨tb, force, by
            rcases List.mem_append.1 hm with hm | hm
            · exact hm
            · have he := List.mem_singleton.1 hm
              injection he with he1
              exact absurd he1 htt⟩
          obtain ⟨tb2, h2⟩ := this
          cases (run ops).tables t'
          · exact ⟨tb2, (if_neg htt).trans h2⟩
          · exact ⟨tb2, (if_neg htt).trans h2⟩
      · rw [step_other _ _ fun t tb f hc => ho ⟨t, tb, f, hc⟩]
        refine ih ⟨tb, force, ?_⟩
        rcases List.mem_append.1 hm with hm | hm
        · exact hm
        · exact absurd ⟨t, tb, force, (List.mem_singleton.1 hm).symm⟩ ho
  obtain ⟨tb, htb⟩ := hex ops t ht
  have htbs : tb s = none := by
    by_contra hc
    obtain ⟨g, hg⟩ := Option.ne_none_iff_exists'.1 hc
    exact hnone g (slot_registered ops t s g (by rw [htb]; exact hg))
  have hsel : select (run ops) s t = (imageTypes (run ops)).findSome? fun t => (((run ops).tables t).bind fun tb => tb s).map fun f => (f, t) := by
    rw [select, htb]
    dsimp only
    rw [htbs]
    dsimp only
    rw [if_pos ((run_enabled ops).trans hon)]
  have key : ∀ L : List Nat, L.Pairwise (· < ·) → (∃ t ∈ L, ((run ops).tables t).bind (fun tb => tb s) ≠ none) →
      ∃ f2 t2, (L.findSome? fun t => (((run ops).tables t).bind fun tb => tb s).map fun f => (f, t)) = some (f2, t2) ∧
        ((run ops).tables t2).bind (fun tb => tb s) = some f2 ∧ ∀ t3 ∈ L, t3 < t2 → ((run ops).tables t3).bind (fun tb => tb s) = none := by
    intro L
    induction L with
    | nil => exact fun _ ⟨_, h, _⟩ => absurd h (by simp)
    | cons a L ih =>
      intro hp hx
      rw [List.pairwise_cons] at hp
      cases ha : ((run ops).tables a).bind (fun tb => tb s) with
      | some g =>
        refine ⟨g, a, ?_, ha, ?_⟩
        · rw [List.findSome?_cons, ha]
          rfl
        · intro t3 h3 hlt
          rcases List.mem_cons.1 h3 with rfl | h3
          · omega
          · have := hp.1 t3 h3
            omega
      | none =>
        obtain ⟨x, hxL, hxn⟩ := hx
        have hxL : x ∈ L := by
          rcases List.mem_cons.1 hxL with rfl | h
          · exact absurd ha hxn
          · exact h
        obtain ⟨f2, t2, h1, h2, h3⟩ := ih hp.2 ⟨x, hxL, hxn⟩
        refine ⟨f2, t2, ?_, h2, ?_⟩
        · rw [List.findSome?_cons, ha]
          exact h1
        · intro t3 ht3 hlt
          rcases List.mem_cons.1 ht3 with rfl | ht3
          · exact ha
          · exact h3 t3 ht3 hlt
  have hpw : (imageTypes (run ops)).Pairwise (· < ·) := List.Pairwise.filter _ List.pairwise_lt_range
  have hmem : t' ∈ imageTypes (run ops) := by
    have := registered_slot ops t' s f hs h
    refine List.mem_filter.2 ⟨List.mem_range.2 ht', ?_⟩
    cases hc : (run ops).tables t' with
    | none =>
      rw [hc] at this
      exact absurd rfl this
    | some tb => rfl
  obtain ⟨f2, t2, h1, h2, h3⟩ := key _ hpw ⟨t', hmem, registered_slot ops t' s f hs h⟩
  refine ⟨f2, t2, hsel.trans h1, slot_registered ops t2 s f2 h2, ?_⟩
  intro t3 hlt g hg
  have hne := registered_slot ops t3 s g hs hg
  by_cases h256 : t3 < 256
  · refine hne (h3 t3 ?_ hlt)
    refine List.mem_filter.2 ⟨List.mem_range.2 h256, ?_⟩
    cases hc : (run ops).tables t3 with
    | none =>
      rw [hc] at hne
      exact absurd rfl hne
    | some tb => rfl
  · have : t2 ∈ imageTypes (run ops) := by
      obtain ⟨a, ha, hab⟩ := List.exists_of_findSome?_eq_some h1
      obtain ⟨_, _, he⟩ := Option.map_eq_some_iff.1 hab
      simp only [Prod.mk.injEq] at he
      rw [← he.2]
      exact ha
    have := List.mem_range.1 (List.mem_filter.1 this).1
    omega

/-- The table of the ordinary functions and that of the SIMD functions, which has fewer -/
def cpuTable : Table := fun _ => some 1
def simdTable : Table := fun s => if s = .Invert ∨ s = .Sum then some 2 else none

/-- C66 is false for RgbToRgba, RgbaToRgb and Shift: registered in the second table for a type they are lost. -/
theorem C66_wrong : Registered [.setTable 0 simdTable true, .setTable 0 cpuTable false] 0 .Shift 1 ∧
    select (run [.setTable 0 simdTable true, .setTable 0 cpuTable false]) .Shift 0 = none := by
  refine ⟨⟨cpuTable, false, by simp, rfl⟩, by decide⟩

example : select (run [.setTable 0 simdTable true, .setTable 0 cpuTable false]) .Invert 0 = some (2, 0) ∧
    select (run [.setTable 0 simdTable true, .setTable 0 cpuTable false]) .Flip 0 = some (1, 0) := by decide

/-! ### C87 -/

/-- C87, all slots but three: a forced registration is in effect whatever was registered without force before and after it. -/
theorem C87_forced_partial (pre post : List Op) (t : Nat) (tb : Table) (s : Slot) (f : Nat) (hs : merged s = true) (hf : tb s = some f)
    (hpost : ∀ tb', Op.setTable t tb' true ∈ post → tb' s = none) :
    select (run (pre ++ .setTable t tb true :: post)) s t = some (f, t) := by
  have h1 : ((run (pre ++ [.setTable t tb true])).tables t).bind (fun tb => tb s) = some f := by
    rw [run_snoc, step, setTable_slot, if_pos rfl]
    cases (run pre).tables t with
    | none => exact hf
    | some old =>
      dsimp only
      rw [if_pos hs, setFunction, hf]
      simp
  have h2 : ∀ post : List Op, (∀ tb', Op.setTable t tb' true ∈ post → tb' s = none) →
      ((run (pre ++ [.setTable t tb true] ++ post)).tables t).bind (fun tb => tb s) = some f := by
    intro post
    induction post using List.reverseRecOn with
    | nil => exact fun _ => by rw [List.append_nil]; exact h1
    | append_singleton post o ih =>
      intro hp
      have ih := ih fun tb' hm => hp tb' (List.mem_append_left _ hm)
      rw [← List.append_assoc, run_snoc]
      by_cases ho : ∃ t' tb force, o = .setTable t' tb force
      · obtain ⟨t', tb', force', rfl⟩ := ho
        rw [step, setTable_slot]
        by_cases htt : t = t'
        · subst htt
          rw [if_pos rfl]
          obtain ⟨old, h3, h4⟩ := Option.bind_eq_some_iff.1 ih
          rw [h3]
          dsimp only
          rw [if_pos hs, setFunction, h4]
          cases force' with
          | false => simp
          | true =>
            have := hp tb' (by simp)
            rw [this]
            simp
        · rw [if_neg htt]
          exact ih
      · rw [step_other _ _ fun t tb f hc => ho ⟨t, tb, f, hc⟩]
        exact ih
  have h3 := h2 post hpost
  rw [List.append_assoc, List.singleton_append] at h3
  obtain ⟨tb', h4, h5⟩ := Option.bind_eq_some_iff.1 h3
  rw [select, h4]
  dsimp only
  rw [h5]

/-- C87, all slots but three: the tables of the ordinary and the SIMD functions may be registered in either order. -/
theorem C87_order_partial (t : Nat) (a b : Table) (s : Slot) (hs : merged s = true) :
    select (run [.setTable t a false, .setTable t b true]) s t = select (run [.setTable t b true, .setTable t a false]) s t := by
  have key : ∀ ops : List Op, conversionOn ops = false → select (run ops) s t = (((run ops).tables t).bind fun tb => tb s).map fun f => (f, t) := by
    intro ops ho
    rw [select]
    cases (run ops).tables t with
    | none => rfl
    | some tb =>
      dsimp only
      rw [Option.bind_some]
      cases tb s with
      | some f => rfl
      | none =>
        dsimp only
        rw [run_enabled, ho]
        rfl
  rw [key _ rfl, key _ rfl]
  have e1 : ((run [.setTable t a false, .setTable t b true]).tables t).bind (fun tb => tb s) = setFunction (a s) (b s) true := by
    rw [show [Op.setTable t a false, .setTable t b true] = [Op.setTable t a false] ++ [.setTable t b true] from rfl, run_snoc, step, setTable_slot, if_pos rfl]
    have : (run [Op.setTable t a false]).tables t = some a := by
      rw [run, List.foldl_cons, List.foldl_nil, step, setFunctionTable]
      exact if_pos rfl
    rw [this]
    dsimp only
    rw [if_pos hs]
  have e2 : ((run [.setTable t b true, .setTable t a false]).tables t).bind (fun tb => tb s) = setFunction (b s) (a s) false := by
    rw [show [Op.setTable t b true, .setTable t a false] = [Op.setTable t b true] ++ [.setTable t a false] from rfl, run_snoc, step, setTable_slot, if_pos rfl]
    have : (run [Op.setTable t b true]).tables t = some b := by
      rw [run, List.foldl_cons, List.foldl_nil, step, setFunctionTable]
      exact if_pos rfl
    rw [this]
    dsimp only
    rw [if_pos hs]
  rw [e1, e2]
  rw [setFunction, setFunction]
  cases a s <;> cases b s <;> rfl

/-- C87 is false for the other three slots. -/
theorem C87_wrong : select (run [.setTable 0 cpuTable false, .setTable 0 simdTable true]) .RgbToRgba 0 = some (1, 0) ∧
    select (run [.setTable 0 simdTable true, .setTable 0 cpuTable false]) .RgbToRgba 0 = none := by decide

/-! ### C88 -/

variable {α : Type}

/-- An image can be converted for a call of a function for images of another type. -/
def InOk (m : Mgr) (type : Nat) (i : Img α) : Prop := i.type = type ∨ (m.images type = true ∧ m.convert (i.type, type) = true)

/-- … and back -/
def OutOk (m : Mgr) (type : Nat) (i : Img α) : Prop :=
  i.type = type ∨ (m.images type = true ∧ m.convert (i.type, type) = true ∧ m.convert (type, i.type) = true)

/-- The images after the call: the output has its new value and its old type. -/
def result (imgs : Nat → Img α) (o : Nat) (v : α) : Nat → Img α := fun k => if k = o then ⟨(imgs o).type, v⟩ else imgs k

theorem image_run (id : Nat) (s : State α) : image id s = .ok (s.imgs id) s := rfl

theorem manage_same {m : Mgr} {grow : Nat → Nat} {type : Nat} {c : Bool} {id : Nat} {s : State α} (h : (s.imgs id).type = type) :
    manage m grow type c id s = .ok (.direct id) s := by
  rw [manage, bind_ok (image_run id s)]
  rw [if_neg (not_not.2 h)]
  rfl

theorem clone_ok {m : Mgr} {type : Nat} {i : Img α} {s : State α} (h1 : m.images type = true) (h2 : m.convert (i.type, type) = true) :
    clone m type i s = .ok i.val s := by
  rw [clone, h1, h2]
  rfl

theorem manage_in {m : Mgr} {grow : Nat → Nat} {type : Nat} {id : Nat} {s : State α} (h : (s.imgs id).type ≠ type) (h1 : m.images type = true)
    (h2 : m.convert ((s.imgs id).type, type) = true) :
    manage m grow type true id s = .ok (.input (s.ins.push grow (s.imgs id).val).gen s.ins.elems.length) { s with ins := s.ins.push grow (s.imgs id).val } := by
  rw [manage, bind_ok (image_run id s)]
  rw [if_pos h, if_pos rfl, bind_ok (clone_ok h1 h2)]
  rfl

theorem manage_out {m : Mgr} {grow : Nat → Nat} {type : Nat} {id : Nat} {s : State α} (h : (s.imgs id).type ≠ type) (h1 : m.images type = true)
    (h2 : m.convert ((s.imgs id).type, type) = true) :
    manage m grow type false id s = .ok (.output (s.outs.push grow (s.imgs id).val).gen s.outs.elems.length)
      { s with outs := s.outs.push grow (s.imgs id).val, outputs := s.outputs ++ [id] } := by
  rw [manage, bind_ok (image_run id s)]
  rw [if_pos h, if_neg (by simp)]
  rw [bind_ok (show addOutput id s = .ok () { s with outputs := s.outputs ++ [id] } from rfl), bind_ok (clone_ok h1 h2)]
  rfl

/-- The reference a call gets for its only input, and the clones then -/
def inRef (type id : Nat) (i : Img α) : Ref := if i.type = type then .direct id else .input 1 0
def inClones (grow : Nat → Nat) (type : Nat) (i : Img α) : Clones α := if i.type = type then ⟨0, 0, []⟩ else ⟨1, grow 0, [i.val]⟩
def outRef (type id : Nat) (i : Img α) : Ref := if i.type = type then .direct id else .output 1 0
def outputList (type id : Nat) (i : Img α) : List Nat := if i.type = type then [] else [id]

theorem manage_first_in {m : Mgr} {grow : Nat → Nat} {type i : Nat} {s : State α} (h : InOk m type (s.imgs i)) (hs : s.ins = ⟨0, 0, []⟩) :
    manage m grow type true i s = .ok (inRef type i (s.imgs i)) { s with ins := inClones grow type (s.imgs i) } := by
  rw [inRef, inClones]
  by_cases hc : (s.imgs i).type = type
  · rw [if_pos hc, if_pos hc, manage_same hc, ← hs]
  · obtain ⟨h1, h2⟩ := h.resolve_left hc
    rw [if_neg hc, if_neg hc, manage_in hc h1 h2, hs]
    rfl

theorem manage_first_out {m : Mgr} {grow : Nat → Nat} {type i : Nat} {s : State α} (h : OutOk m type (s.imgs i)) (hs : s.outs = ⟨0, 0, []⟩)
    (ho : s.outputs = []) : manage m grow type false i s = .ok (outRef type i (s.imgs i))
      { s with outs := inClones grow type (s.imgs i), outputs := outputList type i (s.imgs i) } := by
  rw [outRef, inClones, outputList]
  by_cases hc : (s.imgs i).type = type
  · rw [if_pos hc, if_pos hc, if_pos hc, manage_same hc, ← hs, ← ho]
  · obtain ⟨h1, h2, _⟩ := h.resolve_left hc
    rw [if_neg hc, if_neg hc, if_neg hc, manage_out hc h1 h2, hs, ho]
    rfl

theorem deref_in {grow : Nat → Nat} {type i : Nat} {s : State α} (hs : s.ins = inClones grow type (s.imgs i)) :
    deref (inRef type i (s.imgs i)) s = .ok (s.imgs i).val s := by
  rw [inRef]
  by_cases hc : (s.imgs i).type = type
  · rw [if_pos hc]
    rfl
  · rw [inClones, if_neg hc] at hs
    rw [if_neg hc, deref, hs]
    rfl

theorem deref_out {grow : Nat → Nat} {type i : Nat} {s : State α} (hs : s.outs = inClones grow type (s.imgs i)) :
    deref (outRef type i (s.imgs i)) s = .ok (s.imgs i).val s := by
  rw [outRef]
  by_cases hc : (s.imgs i).type = type
  · rw [if_pos hc]
    rfl
  · rw [inClones, if_neg hc] at hs
    rw [if_neg hc, deref, hs]
    rfl

/-- Writing the output and destroying the manager -/
theorem assign_destroy {m : Mgr} {grow : Nat → Nat} {type o : Nat} {s : State α} {v : α} (h : OutOk m type (s.imgs o))
    (hs : s.outs = inClones grow type (s.imgs o)) (ho : s.outputs = outputList type o (s.imgs o)) :
    ∃ s1 s2, assign (outRef type o (s.imgs o)) v s = .ok () s1 ∧ destroy m type s1 = .ok () s2 ∧ s2.imgs = result s.imgs o v := by
  rw [outRef]
  by_cases hc : (s.imgs o).type = type
  · rw [outputList, if_pos hc] at ho
    rw [if_pos hc]
    refine ⟨{ s with imgs := fun k => if k = o then ⟨(s.imgs o).type, v⟩ else s.imgs k }, { s with imgs := fun k => if k = o then ⟨(s.imgs o).type, v⟩ else s.imgs k }, rfl, ?_, rfl⟩
    rw [destroy, ho]
    rfl
  · obtain ⟨_, _, h3⟩ := h.resolve_left hc
    rw [outputList, if_neg hc] at ho
    rw [inClones, if_neg hc] at hs
    rw [if_neg hc]
    refine ⟨{ s with outs := ⟨1, grow 0, [v]⟩ }, { s with imgs := fun k => if k = o then ⟨(s.imgs o).type, v⟩ else s.imgs k, outs := ⟨1, grow 0, [v]⟩ }, ?_, ?_, rfl⟩
    · rw [assign, hs]
      rfl
    · rw [destroy, ho]
      show fold _ [(0, o)] () _ = _
      rw [fold_cons]
      refine (bind_ok (a := ()) (m' := { s with imgs := fun k => if k = o then ⟨(s.imgs o).type, v⟩ else s.imgs k, outs := ⟨1, grow 0, [v]⟩ }) ?_).trans (by rw [← ho]; rfl)
      show restore m type 0 o _ = _
      rw [restore]
      dsimp only
      rw [if_pos h3, ← ho]
      rfl

theorem managed_ok {m : Mgr} {type : Nat} {body : M (State α) Unit} {s s1 s2 : State α} (h1 : body s = .ok () s1) (h2 : destroy m type s1 = .ok () s2) :
    managed m type body s = .ok () s2 := by
  rw [managed, h1]
  exact h2

/-- Writing back the clones from number `k` on -/
theorem restore_all {m : Mgr} {type : Nat} (l : List Nat) : ∀ (k : Nat) (s : State α), l.Nodup →
    (∀ id ∈ l, m.convert (type, (s.imgs id).type) = true) → k + l.length ≤ s.outs.elems.length →
    ∃ s', fold (fun (p : Nat × Nat) _ => restore m type p.1 p.2) ((List.range' k l.length).zip l) () s = .ok () s' ∧
      (∀ j (hj : j < l.length), ∃ v, s.outs.elems[k + j]? = some v ∧ s'.imgs l[j] = ⟨(s.imgs l[j]).type, v⟩) ∧
      ∀ i, i ∉ l → s'.imgs i = s.imgs i := by
  induction l with
  | nil =>
    intro k s _ _ _
    exact ⟨s, rfl, fun j hj => absurd hj (by simp), fun i _ => rfl⟩
  | cons a l ih =>
    intro k s hn hc hl
    rw [List.nodup_cons] at hn
    simp only [List.length_cons] at hl
    have hk : k < s.outs.elems.length := by omega
    obtain ⟨s1, hs1⟩ : ∃ s1 : State α, s1 = { s with imgs := fun j => if j = a then ⟨(s.imgs a).type, s.outs.elems[k]⟩ else s.imgs j } := ⟨_, rfl⟩
    have hr : restore m type k a s = .ok () s1 := by
      rw [restore, if_pos (hc a (by simp)), List.getElem?_eq_getElem hk, hs1]
    have ho : s1.outs = s.outs := by rw [hs1]
    have hi : ∀ i, i ≠ a → s1.imgs i = s.imgs i := by
      intro i h
      rw [hs1]
      exact if_neg h
    have ha : s1.imgs a = ⟨(s.imgs a).type, s.outs.elems[k]⟩ := by
      rw [hs1]
      exact if_pos rfl
    obtain ⟨s2, h1, h2, h3⟩ := ih (k + 1) s1 hn.2 (fun id h => by
      rw [hi id (fun e => hn.1 (e ▸ h))]
      exact hc id (by simp [h])) (by rw [ho]; omega)
    refine ⟨s2, ?_, ?_, ?_⟩
    · rw [List.length_cons, List.range'_succ, List.zip_cons_cons, fold_cons]
      exact (bind_ok hr).trans h1
    · intro j hj
      cases j with
      | zero =>
        refine ⟨s.outs.elems[k], List.getElem?_eq_getElem hk, ?_⟩
        show s2.imgs a = _
        rw [h3 a hn.1, ha]
        rfl
      | succ j =>
        have hj' : j < l.length := by simpa using hj
        obtain ⟨v, e1, e2⟩ := h2 j hj'
        rw [ho] at e1
        refine ⟨v, by rw [← e1]; congr 1; omega, ?_⟩
        show s2.imgs l[j] = ⟨(s.imgs l[j]).type, v⟩
        rw [e2, hi l[j] (fun e => hn.1 (e ▸ List.getElem_mem hj'))]
    · intro i hi'
      rw [List.mem_cons, not_or] at hi'
      rw [h3 i hi'.2, hi i hi'.1]

/-- Passing several outputs to a manager -/
def manageOutputs (m : Mgr) (grow : Nat → Nat) (type : Nat) (ids : List Nat) : M (State α) Unit :=
  fold (fun id _ => do
    let _ ← manage m grow type false id
    pure ()) ids ()

theorem manageOutputs_ok {m : Mgr} {grow : Nat → Nat} {type : Nat} (h1 : m.images type = true) (ids : List Nat) : ∀ (s : State α),
    (∀ id ∈ ids, (s.imgs id).type ≠ type ∧ m.convert ((s.imgs id).type, type) = true) →
    ∃ s', manageOutputs m grow type ids s = .ok () s' ∧ s'.imgs = s.imgs ∧ s'.outputs = s.outputs ++ ids ∧
      s'.outs.elems = s.outs.elems ++ ids.map fun id => (s.imgs id).val := by
  induction ids with
  | nil =>
    intro s _
    exact ⟨s, rfl, rfl, by simp, by simp⟩
  | cons a ids ih =>
    intro s h
    obtain ⟨h2, h3⟩ := h a (by simp)
    obtain ⟨s1, hs1⟩ : ∃ s1 : State α, s1 = { s with outs := s.outs.push grow (s.imgs a).val, outputs := s.outputs ++ [a] } := ⟨_, rfl⟩
    have hm : ∃ r, manage m grow type false a s = .ok r s1 := ⟨_, by rw [manage_out h2 h1 h3, hs1]⟩
    obtain ⟨r, hm⟩ := hm
    have e1 : s1.imgs = s.imgs := by rw [hs1]
    have e2 : s1.outs.elems = s.outs.elems ++ [(s.imgs a).val] := by
      rw [hs1]
      show (s.outs.push grow (s.imgs a).val).elems = _
      rw [Clones.push]
      split <;> rfl
    obtain ⟨s2, g1, g2, g3, g4⟩ := ih s1 (fun id hid => by
      rw [e1]
      exact h id (by simp [hid]))
    refine ⟨s2, ?_, by rw [g2, e1], ?_, ?_⟩
    · rw [manageOutputs, fold_cons]
      refine (bind_ok (a := ()) (m' := s1) ?_).trans g1
      exact (bind_ok hm).trans rfl
    · rw [g3, hs1]
      simp
    · rw [g4, e2, e1]
      simp

/-- C88: a manager which was given several different outputs of other types writes each result back to the image it belongs to, and changes
    no other image. -/
theorem C88_outputs (m : Mgr) (grow : Nat → Nat) (type : Nat) (imgs : Nat → Img α) (ids : List Nat) (hn : ids.Nodup) (h1 : m.images type = true)
    (h : ∀ id ∈ ids, (imgs id).type ≠ type ∧ m.convert ((imgs id).type, type) = true ∧ m.convert (type, (imgs id).type) = true) :
    ∃ s, manageOutputs m grow type ids (start imgs) = .ok () s ∧ s.imgs = imgs ∧ s.outs.elems = ids.map (fun id => (imgs id).val) ∧
      ∀ results : List α, results.length = ids.length →
        ∃ s', destroy m type { s with outs := { s.outs with elems := results } } = .ok () s' ∧
          (∀ (k : Nat) (hk : k < ids.length) (hr : k < results.length), s'.imgs ids[k] = ⟨(imgs ids[k]).type, results[k]⟩) ∧
          ∀ i, i ∉ ids → s'.imgs i = imgs i := by
  obtain ⟨s, g1, g2, g3, g4⟩ := manageOutputs_ok (grow := grow) h1 ids (start imgs) (fun id hid => ⟨(h id hid).1, (h id hid).2.1⟩)
  have e : (start imgs).imgs = imgs := rfl
  rw [e] at g2 g4
  refine ⟨s, g1, g2, by rw [g4]; rfl, fun results hres => ?_⟩
  have g5 : s.outputs = ids := by rw [g3]; rfl
  obtain ⟨s', r1, r2, r3⟩ := restore_all (m := m) (type := type) ids 0 { s with outs := { s.outs with elems := results } } hn
    (fun id hid => by
      show m.convert (type, (s.imgs id).type) = true
      rw [g2]
      exact (h id hid).2.2) (by show 0 + ids.length ≤ results.length; omega)
  refine ⟨s', ?_, ?_, ?_⟩
  · rw [destroy]
    show fold _ ((List.range s.outputs.length).zip s.outputs) () _ = _
    rw [← g5, ← List.range_eq_range'] at r1
    exact r1
  · intro k hk hr
    obtain ⟨v, v1, v2⟩ := r2 k hk
    have v3 : results[0 + k]? = some v := v1
    rw [Nat.zero_add, List.getElem?_eq_getElem hr] at v3
    rw [v2, Option.some.inj v3]
    show Img.mk (s.imgs ids[k]).type v = _
    rw [g2]
  · intro i hi
    rw [r3 i hi]
    show s.imgs i = _
    rw [g2]

/-- C88: a call with one input and one output has the effect of the function on images of its own type, whatever the types of the images
    are, in whatever order the arguments are evaluated and however vectors grow. -/
theorem C88_one (m : Mgr) (grow : Nat → Nat) (type : Nat) (outFirst : Bool) (F : α → α → α) (imgs : Nat → Img α) (i o : Nat)
    (hi : InOk m type (imgs i)) (ho : OutOk m type (imgs o)) :
    ∃ s, call1 m grow type outFirst F i o (start imgs) = .ok () s ∧ s.imgs = result imgs o (F (imgs i).val (imgs o).val) := by
  obtain ⟨S, hS⟩ : ∃ S : State α, S = ⟨imgs, inClones grow type (imgs i), inClones grow type (imgs o), outputList type o (imgs o)⟩ := ⟨_, rfl⟩
  have hargs : args m grow type outFirst i o (start imgs) = .ok (inRef type i (imgs i), outRef type o (imgs o)) S := by
    rw [args]
    cases outFirst with
    | false =>
      rw [if_neg (by simp)]
      refine (bind_ok (manage_first_in (s := start imgs) hi rfl)).trans ?_
      refine (bind_ok (manage_first_out (s := ⟨imgs, inClones grow type (imgs i), ⟨0, 0, []⟩, []⟩) ho rfl rfl)).trans ?_
      rw [hS]
      rfl
    | true =>
      rw [if_pos rfl]
      refine (bind_ok (manage_first_out (s := start imgs) ho rfl rfl)).trans ?_
      refine (bind_ok (manage_first_in (s := ⟨imgs, ⟨0, 0, []⟩, inClones grow type (imgs o), outputList type o (imgs o)⟩) hi rfl)).trans ?_
      rw [hS]
      rfl
  have e : S.imgs = imgs := by rw [hS]
  have d1 : deref (inRef type i (imgs i)) S = .ok (imgs i).val S := by
    have := deref_in (grow := grow) (type := type) (i := i) (s := S) (by rw [hS])
    rw [e] at this
    exact this
  have d2 : deref (outRef type o (imgs o)) S = .ok (imgs o).val S := by
    have := deref_out (grow := grow) (type := type) (i := o) (s := S) (by rw [hS])
    rw [e] at this
    exact this
  obtain ⟨s1, s2, h1, h2, h3⟩ := assign_destroy (m := m) (grow := grow) (type := type) (o := o) (s := S) (v := F (imgs i).val (imgs o).val)
    (by rw [e]; exact ho) (by rw [hS]) (by rw [hS])
  rw [e] at h1 h3
  exact ⟨s2, managed_ok ((bind_ok hargs).trans ((bind_ok d1).trans ((bind_ok d2).trans h1))) h2, h3⟩

/-- C88 for two inputs, one of which has the type of the function -/
theorem C88_two_partial (m : Mgr) (grow : Nat → Nat) (type : Nat) (F : α → α → α → α) (imgs : Nat → Img α) (i1 i2 o : Nat)
    (hi1 : InOk m type (imgs i1)) (hi2 : InOk m type (imgs i2)) (ho : OutOk m type (imgs o)) (h : (imgs i1).type = type ∨ (imgs i2).type = type) :
    ∃ s, call2 m grow type F i1 i2 o (start imgs) = .ok () s ∧ s.imgs = result imgs o (F (imgs i1).val (imgs i2).val (imgs o).val) := by
  obtain ⟨c, hc⟩ : ∃ c : Clones α, c = if (imgs i1).type = type then inClones grow type (imgs i2) else inClones grow type (imgs i1) := ⟨_, rfl⟩
  obtain ⟨S, hS⟩ : ∃ S : State α, S = ⟨imgs, c, inClones grow type (imgs o), outputList type o (imgs o)⟩ := ⟨_, rfl⟩
  have e : S.imgs = imgs := by rw [hS]
  have a1 : manage m grow type true i1 (start imgs) = .ok (inRef type i1 (imgs i1)) ⟨imgs, inClones grow type (imgs i1), ⟨0, 0, []⟩, []⟩ :=
    manage_first_in (s := start imgs) hi1 rfl
  have a2 : manage m grow type true i2 ⟨imgs, inClones grow type (imgs i1), ⟨0, 0, []⟩, []⟩ = .ok (inRef type i2 (imgs i2)) ⟨imgs, c, ⟨0, 0, []⟩, []⟩ := by
    by_cases h1 : (imgs i1).type = type
    · have e0 : inClones grow type (imgs i1) = ⟨0, 0, []⟩ := by rw [inClones, if_pos h1]
      rw [if_pos h1] at hc
      rw [hc, e0]
      exact manage_first_in (s := ⟨imgs, ⟨0, 0, []⟩, ⟨0, 0, []⟩, []⟩) hi2 rfl
    · have h2 := h.resolve_left h1
      rw [if_neg h1] at hc
      rw [hc, inRef, if_pos h2]
      exact manage_same h2
  have a3 : manage m grow type false o ⟨imgs, c, ⟨0, 0, []⟩, []⟩ = .ok (outRef type o (imgs o)) S := by
    rw [hS]
    exact manage_first_out (s := ⟨imgs, c, ⟨0, 0, []⟩, []⟩) ho rfl rfl
  have d1 : deref (inRef type i1 (imgs i1)) S = .ok (imgs i1).val S := by
    by_cases h1 : (imgs i1).type = type
    · rw [inRef, if_pos h1, deref, e]
    · rw [if_neg h1] at hc
      have := deref_in (grow := grow) (type := type) (i := i1) (s := S) (by rw [hS, hc])
      rw [e] at this
      exact this
  have d2 : deref (inRef type i2 (imgs i2)) S = .ok (imgs i2).val S := by
    by_cases h2 : (imgs i2).type = type
    · rw [inRef, if_pos h2, deref, e]
    · rw [if_pos (h.resolve_right h2)] at hc
      have := deref_in (grow := grow) (type := type) (i := i2) (s := S) (by rw [hS, hc])
      rw [e] at this
      exact this
  have d3 : deref (outRef type o (imgs o)) S = .ok (imgs o).val S := by
    have := deref_out (grow := grow) (type := type) (i := o) (s := S) (by rw [hS])
    rw [e] at this
    exact this
  obtain ⟨s1, s2, h1, h2, h3⟩ := assign_destroy (m := m) (grow := grow) (type := type) (o := o) (s := S) (v := F (imgs i1).val (imgs i2).val (imgs o).val)
    (by rw [e]; exact ho) (by rw [hS]) (by rw [hS])
  rw [e] at h1 h3
  exact ⟨s2, managed_ok ((bind_ok a1).trans ((bind_ok a2).trans ((bind_ok a3).trans ((bind_ok d1).trans ((bind_ok d2).trans ((bind_ok d3).trans h1)))))) h2, h3⟩

theorem managed_throw {m : Mgr} {type : Nat} {body : M (State α) Unit} {s s1 s2 : State α} (h1 : body s = .throw s1) (h2 : destroy m type s1 = .ok () s2) :
    managed m type body s = .throw s2 := by
  rw [managed, h1]
  dsimp only
  rw [h2]

/-- C88: if the input cannot be converted there is an exception and no image changes. -/
theorem C88_rejects (m : Mgr) (grow : Nat → Nat) (type : Nat) (outFirst : Bool) (F : α → α → α) (imgs : Nat → Img α) (i o : Nat)
    (hi : ¬ InOk m type (imgs i)) (ho : OutOk m type (imgs o)) :
    ∃ s, call1 m grow type outFirst F i o (start imgs) = .throw s ∧ s.imgs = imgs := by
  have hne : (imgs i).type ≠ type := fun h => hi (Or.inl h)
  have hc : ∀ s : State α, clone m type (imgs i) s = .throw s := by
    intro s
    rw [clone, if_neg]
    intro hcc
    rw [Bool.and_eq_true] at hcc
    exact hi (Or.inr hcc)
  have hm : ∀ s : State α, s.imgs = imgs → manage m grow type true i s = .throw s := by
    intro s hs
    rw [manage, bind_ok (image_run i s), hs, if_pos hne, if_pos rfl, bind_throw (hc s)]
  cases outFirst with
  | false =>
    refine ⟨start imgs, managed_throw (s1 := start imgs) (bind_throw ?_) rfl, rfl⟩
    rw [args, if_neg (by simp), bind_throw (hm _ rfl)]
  | true =>
    have a1 : manage m grow type false o (start imgs) = .ok (outRef type o (imgs o)) ⟨imgs, ⟨0, 0, []⟩, inClones grow type (imgs o), outputList type o (imgs o)⟩ :=
      manage_first_out (s := start imgs) ho rfl rfl
    have a2 : args m grow type true i o (start imgs) = .throw ⟨imgs, ⟨0, 0, []⟩, inClones grow type (imgs o), outputList type o (imgs o)⟩ := by
      rw [args, if_pos rfl, bind_ok a1, bind_throw (hm _ rfl)]
    refine ⟨⟨imgs, ⟨0, 0, []⟩, inClones grow type (imgs o), outputList type o (imgs o)⟩, managed_throw (bind_throw a2) ?_, rfl⟩
    by_cases h2 : (imgs o).type = type
    · rw [destroy, outputList, if_pos h2]
      rfl
    · obtain ⟨_, _, h3⟩ := ho.resolve_left h2
      rw [destroy, outputList, if_neg h2, inClones, if_neg h2]
      show fold _ [(0, o)] () _ = _
      rw [fold_cons]
      refine (bind_ok (a := ()) (m' := ⟨imgs, ⟨0, 0, []⟩, ⟨1, grow 0, [(imgs o).val]⟩, [o]⟩) ?_).trans rfl
      show restore m type 0 o _ = _
      rw [restore]
      dsimp only
      rw [if_pos h3]
      show Res.ok () _ = Res.ok () _
      congr 2
      funext k
      by_cases hk : k = o
      · rw [if_pos hk, hk]
      · rw [if_neg hk]

/-! #### Examples -/

/-- Types 0 and 1 with conversions in both directions, or only from 0 to 1, or none -/
def bothWays : Mgr := run [.setTable 0 (fun _ => none) false, .setTable 1 cpuTable false, .setConvert 0 1, .setConvert 1 0, .enable true]
def oneWay : Mgr := run [.setTable 0 (fun _ => none) false, .setTable 1 cpuTable false, .setConvert 0 1, .enable true]
def noWay : Mgr := run [.setTable 0 (fun _ => none) false, .setTable 1 cpuTable false, .enable true]

/-- Image k has type 0 and value 10 + k; images from 5 on have type 1. -/
def someImages : Nat → Img Nat := fun k => ⟨if k < 5 then 0 else 1, 10 + k⟩

example : select bothWays .Threshold 0 = some (1, 1) := by decide

example : InOk bothWays 1 (someImages 0) ∧ OutOk bothWays 1 (someImages 2) := ⟨Or.inr ⟨by decide, by decide⟩, Or.inr ⟨by decide, by decide, by decide⟩⟩

/-- Hypotheses of `C88_outputs`: three outputs of type 0 given to a manager of type 1 -/
example : [2, 0, 4].Nodup ∧ bothWays.images 1 = true ∧ ∀ id ∈ [2, 0, 4], (someImages id).type ≠ 1 ∧
    bothWays.convert ((someImages id).type, 1) = true ∧ bothWays.convert (1, (someImages id).type) = true := by decide

example : ¬ InOk noWay 1 (someImages 0) ∧ OutOk noWay 1 (someImages 7) :=
  ⟨fun h => h.elim (by decide) (fun h => absurd h.1 (by decide)), Or.inl (by decide)⟩

/-- The doubling of capacity of common implementations -/
def doubling (n : Nat) : Nat := if n = 0 then 1 else 2 * n

/-- Values of the images after a call -/
def values (r : Res (State Nat) Unit) : Option (List Nat) :=
  match r with
  | .ok _ s => some ((List.range 4).map fun k => (s.imgs k).val)
  | _ => none

theorem someImages_call : values (call1 bothWays doubling 1 false (fun a b => a * 100 + b) 0 2 (start someImages)) = some [10, 11, 1012, 13] := by decide

/-- C88 is false for two inputs of another type: the second clone reallocates the vector and the first reference dangles. -/
theorem C88_wrong_two : isUb (call2 bothWays doubling 1 (fun a b _ => a + b) 0 1 2 (start someImages)) = true := by decide

/-- C88 is false when the conversion of the output is not registered: the exception makes the destructor read an output clone which does not
    exist. -/
theorem C88_wrong_unregistered : isUb (call1 noWay doubling 1 false (fun a b => a + b) 6 0 (start someImages)) = true := by decide

/-- C88 is false when only the conversion back is missing: the destructor throws. -/
theorem C88_wrong_back : isUb (call1 oneWay doubling 1 false (fun a b => a + b) 0 1 (start someImages)) = true := by decide

/-- C88 for functions which do not convert, called with images of their type: the output gets the result, no other image changes, the type
    stays. -/
theorem C88_plain {type : Nat} (F : α → α → α) {i o : Nat} {s : State α} (hi : (s.imgs i).type = type) (ho : (s.imgs o).type = type) :
    ∃ s', callPlain type F i o s = .ok () s' ∧ (s'.imgs o).val = F (s.imgs i).val (s.imgs o).val ∧ (s'.imgs o).type = type ∧
      ∀ k, k ≠ o → s'.imgs k = s.imgs k := by
  refine ⟨{ s with imgs := fun k => if k = o then ⟨type, F (s.imgs i).val (s.imgs o).val⟩ else s.imgs k }, ?_, ?_, ?_, fun k hk => if_neg hk⟩
  · rw [callPlain, if_pos ⟨hi, ho⟩]
  · dsimp only; rw [if_pos rfl]
  · dsimp only; rw [if_pos rfl]

/-- C88 is false for functions which do not convert (all but AbsoluteDifference, ConvertToGrayScale, Histogram and Threshold): the function
    of type 1 is selected and called with images of type 0. -/
theorem C88_wrong_plain : select bothWays .Invert 0 = some (1, 1) ∧ isUb (callPlain 1 (fun a b => a + b) 0 2 (start someImages)) = true := by decide

end PV.Props
