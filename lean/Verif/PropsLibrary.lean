import Verif.Library
import Verif.PropsType
/-
  C160: which function a call of `penguinV::` reaches in the library as it is linked.
-/
namespace PV.Props
open PV PV.TypeManager PV.Library

/-- Addresses of different functions are different. -/
theorem address_inj (m m' : Module) (s s' : Slot) (h : address m s = address m' s') : m = m' ∧ s = s' := by
  have h1 : ∀ s : Slot, s.ctorIdx < 64 := by intro s; cases s <;> decide
  rw [address, address] at h
  have a := h1 s
  have b := h1 s'
  have e1 : m.ctorIdx = m'.ctorIdx := by omega
  have e2 : s.ctorIdx = s'.ctorIdx := by omega
  refine ⟨?_, ?_⟩
  · cases m <;> cases m' <;> first | rfl | exact absurd e1 (by decide)
  · have back : ∀ s : Slot, baseEntries[s.ctorIdx]? = some (s, s) := by intro s; cases s <;> rfl
    have := back s
    rw [e2, back s'] at this
    simpa using this.symm

/-- Every member of a table holds the function of its name, or nothing. -/
theorem table_name (m : Module) (s : Slot) : table m s = none ∨ table m s = some (address m s) := by
  cases m <;> cases s <;> decide

theorem table_eq {m : Module} {s : Slot} {f : Nat} (h : table m s = some f) : f = address m s := by
  cases table_name m s with
  | inl h1 => exact absurd (h1.symm.trans h) (by simp)
  | inr h1 => exact (Option.some.inj (h1.symm.trans h)).symm

/-- The functions registered in a program -/
theorem registered_linked (l : List Module) (on : Bool) (t : Nat) (s : Slot) (f : Nat) :
    Registered (l.flatMap registrator ++ [.enable on]) t s f ↔ ∃ m ∈ l, imageType m = t ∧ table m s = some f := by
  constructor
  · rintro ⟨tb, force, h1, h2⟩
    have h1 : Op.setTable t tb force ∈ l.flatMap registrator := by simpa using h1
    obtain ⟨m, hm, h3⟩ := List.mem_flatMap.1 h1
    have h4 : imageType m = t ∧ table m = tb := by
      cases m <;> simp [registrator] at h3 <;> exact ⟨h3.1.symm, h3.2.1.symm⟩
    exact ⟨m, hm, h4.1, h4.2 ▸ h2⟩
  · rintro ⟨m, hm, h1, h2⟩
    refine ⟨table m, forced m, ?_, h2⟩
    have : Op.setTable t (table m) (forced m) ∈ registrator m := by rw [← h1]; exact List.mem_cons_self
    exact List.mem_append_left _ (List.mem_flatMap.2 ⟨m, hm, this⟩)

theorem conversionOn_linked (ops : List Op) (on : Bool) : conversionOn (ops ++ [.enable on]) = on := by
  rw [conversionOn, List.reverse_append]
  rfl

theorem member_eq {s k : Slot} (h : member s = some k) : k = s ∧ merged s = true := by
  cases s <;> revert h <;> simp [member, merged] <;> exact fun h => h.symm

theorem last_split {α : Type} [DecidableEq α] {x : α} {l : List α} (h : x ∈ l) : ∃ a b, l = a ++ x :: b ∧ x ∉ b := by
  induction l with
  | nil => exact absurd h (by simp)
  | cons y l ih =>
    by_cases hl : x ∈ l
    · obtain ⟨a, b, h1, h2⟩ := ih hl
      exact ⟨y :: a, b, by rw [h1]; rfl, h2⟩
    · cases List.mem_cons.1 h with
      | inl e => exact ⟨[], l, by rw [e]; rfl, hl⟩
      | inr e => exact absurd e hl

theorem no_table (ops : List Op) (t : Nat) (h : ∀ tb force, Op.setTable t tb force ∉ ops) : (run ops).tables t = none := by
  induction ops using List.reverseRecOn with
  | nil => rfl
  | append_singleton ops o ih =>
    have ih := ih fun tb force h1 => h tb force (List.mem_append_left _ h1)
    rw [run_snoc]
    cases o with
    | setTable t' tb f =>
      have ht : t ≠ t' := fun e => h tb f (by rw [e]; simp)
      rw [step, setFunctionTable]
      cases (run ops).tables t' with
      | none => exact (if_neg ht).trans ih
      | some old => exact (if_neg ht).trans ih
    | setConvert i o => rw [step_other _ _ (by intro _ _ _ h; cases h)]; exact ih
    | enable b => rw [step_other _ _ (by intro _ _ _ h; cases h)]; exact ih

/-! ### The specification -/

/-- The file whose function has to run for images of this type, if there is one in the program: for images of the host the SIMD form goes before
    the plain form. -/
def Chosen (l : List Module) (type : Nat) (s : Slot) (m : Module) : Prop :=
  m ∈ l ∧ imageType m = type ∧ provides m s = true ∧ (m = .base → ¬ (Module.simd ∈ l ∧ provides .simd s = true))

/-- C160 for images of the host: whichever files are linked, in whichever order their tables are registered, whether conversions are
    enabled or not, every function of `penguinV` is the one of the same name, its SIMD form if there is one. -/
theorem C160_host (l : List Module) (on : Bool) (s : Slot) (m : Module) (hs : member s ≠ none) (h : Chosen l 0 s m) :
    invoke (linked l on) s 0 = some (.direct (address m s)) := by
  obtain ⟨k, hk⟩ := Option.ne_none_iff_exists'.1 hs
  obtain ⟨rfl, hm⟩ := member_eq hk
  obtain ⟨hl, ht, hp, hb⟩ := h
  have hsel : select (linked l on) k 0 = some (address m k, 0) := by
    have host : m = .base ∨ m = .simd := by cases m <;> simp [imageType] at ht ⊢
    cases host with
    | inr e =>
      subst e
      have htab : table .simd k = some (address .simd k) := by
        cases k <;> first | decide | exact absurd hp (by decide)
      obtain ⟨a, b, rfl, hnot⟩ := last_split hl
      have key := C87_forced_partial (a.flatMap registrator) (b.flatMap registrator ++ [.enable on]) 0 (table .simd) k _ hm htab ?_
      · rw [linked, List.flatMap_append, List.flatMap_cons, List.append_assoc]
        exact key
      · intro tb' hin
        have hin : Op.setTable 0 tb' true ∈ b.flatMap registrator := by simpa using hin
        obtain ⟨m, hmb, h3⟩ := List.mem_flatMap.1 hin
        have : m = .simd := by cases m <;> simp [registrator, forced] at h3 ⊢
        exact absurd (this ▸ hmb) hnot
    | inl e =>
      subst e
      have htab : table .base k = some (address .base k) := by cases k <;> decide
      obtain ⟨f, h1, h2⟩ := C66_own_partial _ k 0 _ hm ((registered_linked l on 0 k (address .base k)).2 ⟨.base, hl, rfl, htab⟩)
      obtain ⟨m', hm', h3, h4⟩ := (registered_linked l on 0 k f).1 h2
      have : m' = .base := by
        cases m' with
        | base => rfl
        | simd =>
          refine absurd ⟨hm', ?_⟩ (hb rfl)
          revert h4
          cases k <;> first | (intro _; decide) | (intro h; exact absurd h (by simp [table, entries, simdEntries]))
        | cuda => exact absurd h3 (by decide)
        | opencl => exact absurd h3 (by decide)
      subst this
      rw [linked, h1, table_eq h4]
  rw [invoke, hk, Option.map_some, hsel]
  simp

/-- The type of the images of a device -/
def Device (m : Module) : Prop := m = .cuda ∨ m = .opencl

/-- The members a file registers -/
def registers (m : Module) (s : Slot) : Bool := ((entries m).map Prod.fst).contains s

theorem registers_table (m : Module) (s : Slot) : registers m s = (table m s).isSome := by
  cases m <;> cases s <;> decide

/-- C160 for images of devices, all functions that are registered: the function of the device is called, in every order of initialisation.
    Missing: functions which the file has but does not register, see `C160_wrong_missing`. -/
theorem C160_device_partial (l : List Module) (on : Bool) (s : Slot) (m : Module) (hs : member s ≠ none) (hd : Device m) (hl : m ∈ l)
    (hr : registers m s = true) : invoke (linked l on) s (imageType m) = some (.direct (address m s)) := by
  obtain ⟨k, hk⟩ := Option.ne_none_iff_exists'.1 hs
  obtain ⟨rfl, hm⟩ := member_eq hk
  rw [registers_table] at hr
  obtain ⟨f, hf⟩ := Option.isSome_iff_exists.1 hr
  obtain ⟨f', h1, h2⟩ := C66_own_partial _ k _ _ hm ((registered_linked l on (imageType m) k f).2 ⟨m, hl, rfl, hf⟩)
  obtain ⟨m', hm', h3, h4⟩ := (registered_linked l on _ k f').1 h2
  have : m' = m := by
    cases hd with
    | inl e => subst e; cases m' <;> first | rfl | exact absurd h3 (by decide)
    | inr e => subst e; cases m' <;> first | rfl | exact absurd h3 (by decide)
  subst this
  rw [invoke, hk, Option.map_some, linked, h1, table_eq h4]
  simp

/-- Nothing is registered for the type: an exception, unless conversions are enabled. -/
theorem invoke_throws (l : List Module) (s k : Slot) (t : Nat) (hk : member s = some k) (h : ∀ m ∈ l, imageType m = t → table m s = none) :
    invoke (linked l false) s t = some .throws := by
  obtain ⟨rfl, hm⟩ := member_eq hk
  rw [invoke, hk, Option.map_some]
  have : select (linked l false) k t = none := by
    cases hsel : select (linked l false) k t with
    | none => rfl
    | some p =>
      obtain ⟨h1, h2⟩ := C66_selected _ k t p.1 p.2 hsel
      have h2 := h2.resolve_right (by rw [conversionOn_linked]; decide)
      obtain ⟨m, h3, h4, h5⟩ := (registered_linked l false _ k _).1 h1
      rw [h m h3 (h4.trans h2)] at h5
      exact absurd h5 (by simp)
  rw [this]

/-- C160: without the function for the type of the image, and conversions not enabled, there is an exception. -/
theorem C160_rejects (l : List Module) (s : Slot) (t : Nat) (hs : member s ≠ none) (h : ∀ m ∈ l, imageType m = t → provides m s = false) :
    invoke (linked l false) s t = some .throws := by
  obtain ⟨k, hk⟩ := Option.ne_none_iff_exists'.1 hs
  refine invoke_throws l s k t hk fun m hm ht => ?_
  have := h m hm ht
  revert this
  cases m <;> cases s <;> decide

/-- C160 is false for these functions: the files have them, but do not register them. -/
theorem C160_wrong_missing (l : List Module) (m : Module) (s : Slot)
    (h : (m, s) ∈ [(Module.cuda, Slot.Flip), (.cuda, .IsEqual), (.cuda, .SetPixel2), (.opencl, .Flip), (.opencl, .Normalize), (.opencl, .SetPixel2)]) :
    provides m s = true ∧ invoke (linked l false) s (imageType m) = some .throws := by
  have only : ∀ m', imageType m' = imageType m → table m' s = none := by
    intro m'
    revert h
    simp only [List.mem_cons, Prod.mk.injEq, List.not_mem_nil, or_false]
    rintro (⟨rfl, rfl⟩ | ⟨rfl, rfl⟩ | ⟨rfl, rfl⟩ | ⟨rfl, rfl⟩ | ⟨rfl, rfl⟩ | ⟨rfl, rfl⟩) <;> cases m' <;> decide
  refine ⟨?_, ?_⟩
  · revert h
    simp only [List.mem_cons, Prod.mk.injEq, List.not_mem_nil, or_false]
    rintro (⟨rfl, rfl⟩ | ⟨rfl, rfl⟩ | ⟨rfl, rfl⟩ | ⟨rfl, rfl⟩ | ⟨rfl, rfl⟩ | ⟨rfl, rfl⟩) <;> decide
  · obtain ⟨k, hk⟩ : ∃ k, member s = some k := by
      revert h
      simp only [List.mem_cons, Prod.mk.injEq, List.not_mem_nil, or_false]
      rintro (⟨rfl, rfl⟩ | ⟨rfl, rfl⟩ | ⟨rfl, rfl⟩ | ⟨rfl, rfl⟩ | ⟨rfl, rfl⟩ | ⟨rfl, rfl⟩) <;> exact ⟨_, rfl⟩
    exact invoke_throws l s k _ hk fun m' _ ht => only m' ht

/-- These are all: a function that a file has but does not register is one of them. -/
theorem C160_missing_exact (m : Module) (s : Slot) (h : provides m s = true) (hr : registers m s = false) :
    (m, s) ∈ [(Module.cuda, Slot.Flip), (.cuda, .IsEqual), (.cuda, .SetPixel2), (.opencl, .Flip), (.opencl, .Normalize), (.opencl, .SetPixel2)] := by
  revert h hr
  cases m <;> cases s <;> decide

/-- C160 is false with conversions: a function that the device does not register is looked for among those of the host, but the images
    are not converted: the function of the host gets images of the device. -/
theorem C160_wrong_conversion (l : List Module) (s : Slot) (m : Module) (hs : member s ≠ none) (hd : Device m) (hl : m ∈ l) (hb : Module.base ∈ l)
    (hr : registers m s = false) : ∃ m', imageType m' = 0 ∧ invoke (linked l true) s (imageType m) = some (.mixed (address m' s) 0) := by
  obtain ⟨k, hk⟩ := Option.ne_none_iff_exists'.1 hs
  obtain ⟨rfl, hm⟩ := member_eq hk
  have hno : ∀ f, ¬ Registered (l.flatMap registrator ++ [.enable true]) (imageType m) k f := by
    intro f hf
    obtain ⟨m', h1, h2, h3⟩ := (registered_linked l true _ k f).1 hf
    have : m' = m := by
      cases hd with
      | inl e => subst e; cases m' <;> first | rfl | exact absurd h2 (by decide)
      | inr e => subst e; cases m' <;> first | rfl | exact absurd h2 (by decide)
    subst this
    rw [registers_table, h3] at hr
    exact absurd hr (by simp)
  have htab : table .base k = some (address .base k) := by cases k <;> decide
  have hbase := (registered_linked l true 0 k (address .base k)).2 ⟨.base, hb, rfl, htab⟩
  have htb : ∃ tb force, Op.setTable (imageType m) tb force ∈ l.flatMap registrator ++ [.enable true] :=
    ⟨table m, forced m, List.mem_append_left _ (List.mem_flatMap.2 ⟨m, hl, List.mem_cons_self⟩)⟩
  obtain ⟨f2, t2, h1, h2, h3⟩ := C66_other_partial _ k (imageType m) _ 0 hm htb hno (conversionOn_linked _ _) hbase (by decide)
  have ht2 : t2 = 0 := by
    rcases Nat.eq_zero_or_pos t2 with h | h
    · exact h
    · exact absurd hbase (h3 0 h _)
  subst ht2
  obtain ⟨m', _, h5, h6⟩ := (registered_linked l true _ k _).1 h2
  refine ⟨m', h5, ?_⟩
  have hne : (0 : Nat) ≠ imageType m := by cases hd with
    | inl e => subst e; decide
    | inr e => subst e; decide
  have hmg : managed k = false := by
    revert hr
    cases hd with
    | inl e => subst e; cases k <;> decide
    | inr e => subst e; cases k <;> decide
  rw [invoke, hk, Option.map_some, linked, h1, table_eq h6]
  simp [hne, hmg]

/-- C160: the functions of `penguinV` are those of the table, but for five. -/
theorem C160_functions (m : Mgr) (s : Slot) (t : Nat) :
    invoke m s t = none ↔ s ∈ [Slot.ConvertTo16Bit, .ConvertTo8Bit, .RgbToRgba, .RgbaToRgb, .Shift] := by
  rw [invoke, Option.map_eq_none_iff]
  cases s <;> decide

/-- The conversions of a manager are those given to it. -/
theorem convert_run (ops : List Op) (i o : Nat) (h : i ≠ o) : (run ops).convert (i, o) = true ↔ Op.setConvert i o ∈ ops := by
  induction ops using List.reverseRecOn with
  | nil => simp [run, newMgr]
  | append_singleton ops op ih =>
    rw [run_snoc, List.mem_append, List.mem_singleton]
    cases op with
    | setTable t tb f =>
      rw [step, setFunctionTable]
      cases (run ops).tables t <;> simpa using ih
    | enable b => simpa [step] using ih
    | setConvert i' o' =>
      rw [step, setConvertFunction]
      by_cases e : i' = o'
      · subst e
        rw [if_pos rfl, Option.getD_none, ih]
        refine ⟨Or.inl, fun hm => hm.resolve_right fun e2 => ?_⟩
        injection e2 with a b
        exact h (a.trans b.symm)
      · rw [if_neg e, Option.getD_some]
        by_cases e3 : (i, o) = (i', o')
        · injection e3 with a b
          subst a b
          simp
        · have : Op.setConvert i o ≠ Op.setConvert i' o' := fun e4 => by
            injection e4 with a b
            exact e3 (by rw [a, b])
          simpa [e3, this] using ih

/-- C160: images of the host and of each device that is linked are converted in both directions, and no others. -/
theorem C160_conversions (l : List Module) (on : Bool) (i o : Nat) (h : i ≠ o) :
    (linked l on).convert (i, o) = true ↔ ∃ m, m ∈ l ∧ Device m ∧ ((i = 0 ∧ o = imageType m) ∨ (i = imageType m ∧ o = 0)) := by
  rw [linked, convert_run _ _ _ h]
  constructor
  · intro hm
    have hm : Op.setConvert i o ∈ l.flatMap registrator := by simpa using hm
    obtain ⟨m, h1, h2⟩ := List.mem_flatMap.1 hm
    refine ⟨m, h1, ?_⟩
    cases m <;> simp [registrator, Device, imageType] at h2 ⊢ <;> exact h2
  · rintro ⟨m, h1, h2, h3⟩
    refine List.mem_append_left _ (List.mem_flatMap.2 ⟨m, h1, ?_⟩)
    rcases h2 with rfl | rfl <;> rcases h3 with ⟨rfl, rfl⟩ | ⟨rfl, rfl⟩ <;> simp [registrator, imageType]

/-- C160 for images of a type whose table lacks the function, conversions enabled, in any history of registrations: AbsoluteDifference,
    ConvertToGrayScale, Histogram and Threshold are called with converted images, all other functions are not. -/
theorem C160_converted (ops : List Op) (s : Slot) (t f t' : Nat) (hs : member s ≠ none) (ht : ∃ tb force, Op.setTable t tb force ∈ ops)
    (hnone : ∀ f, ¬ Registered ops t s f) (hon : conversionOn ops = true) (h : Registered ops t' s f) (ht' : t' < 256) :
    ∃ f2 t2, Registered ops t2 s f2 ∧ (∀ t3, t3 < t2 → ∀ g, ¬ Registered ops t3 s g) ∧
      invoke (run ops) s t = some (if s ∈ [Slot.AbsoluteDifference, .ConvertToGrayScale, .Histogram, .Threshold] then .converted f2 t2 else .mixed f2 t2) := by
  obtain ⟨k, hk⟩ := Option.ne_none_iff_exists'.1 hs
  obtain ⟨rfl, hm⟩ := member_eq hk
  obtain ⟨f2, t2, h1, h2, h3⟩ := C66_other_partial ops k t f t' hm ht hnone hon h ht'
  refine ⟨f2, t2, h2, h3, ?_⟩
  have hne : t2 ≠ t := fun e => hnone f2 (e ▸ h2)
  have hmg : managed k = decide (k ∈ [Slot.AbsoluteDifference, .ConvertToGrayScale, .Histogram, .Threshold]) := by cases k <;> decide
  rw [invoke, hk, Option.map_some, h1]
  simp only [if_neg hne, hmg, decide_eq_true_eq]

/-- C160 is false for pinned images: no table is registered for them, every function throws. -/
theorem C160_wrong_pinned (l : List Module) (on : Bool) (s : Slot) (hs : member s ≠ none) : invoke (linked l on) s pinnedType = some .throws := by
  obtain ⟨k, hk⟩ := Option.ne_none_iff_exists'.1 hs
  have : (linked l on).tables pinnedType = none := no_table _ _ fun tb force h => by
    have h : Op.setTable pinnedType tb force ∈ l.flatMap registrator := by simpa using h
    obtain ⟨m, _, h3⟩ := List.mem_flatMap.1 h
    cases m <;> simp [registrator, imageType, pinnedType] at h3
  rw [invoke, hk, Option.map_some, select, this]

/-- A program with all files, the SIMD table first -/
def program : List Module := [.simd, .opencl, .base, .cuda]

example : Chosen program 0 .Invert .simd ∧ Chosen program 0 .Histogram .base ∧ ¬ Chosen program 0 .Invert .base := by
  refine ⟨⟨by decide, rfl, by decide, by decide⟩, ⟨by decide, rfl, by decide, by decide⟩, fun h => absurd h.2.2.2 (by decide)⟩

example : invoke (linked program true) .Histogram 1 = some (.direct (address .cuda .Histogram)) ∧
    invoke (linked program true) .Sum 3 = some (.mixed (address .simd .Sum) 0) ∧ invoke (linked program false) .Sum 3 = some .throws := by
  decide +kernel

example : (linked program true).convert (0, 3) = true ∧ (linked program true).convert (1, 0) = true ∧ (linked program true).convert (1, 3) = false := by
  decide +kernel

/-- A type of images of the program itself, 7, with a table of nothing -/
example : (∀ f, ¬ Registered [.setTable 0 (table .base) false, .setTable 7 (fun _ => none) false, .enable true] 7 .Histogram f) ∧
    invoke (run [.setTable 0 (table .base) false, .setTable 7 (fun _ => none) false, .enable true]) .Histogram 7 =
      some (.converted (address .base .Histogram) 0) := by
  refine ⟨fun f h => ?_, by decide +kernel⟩
  obtain ⟨tb, force, h1, h2⟩ := h
  simp only [List.mem_cons, Op.setTable.injEq, List.not_mem_nil, or_false, reduceCtorEq] at h1
  rcases h1 with ⟨h, _⟩ | ⟨_, rfl, _⟩
  · omega
  · cases h2

end PV.Props
