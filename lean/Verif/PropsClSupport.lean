import Verif.ClSupport
import Verif.PropsClDevice
/-
  C176: which device types are used, and whether OpenCL is supported.
-/
namespace PV.Props

open PV.ClSupport

/-- The types in force after a history: those of the last call, graphics cards only without one. -/
def Enabled (es : List (Bool × Bool)) (k : Kind) : Prop :=
  match es.getLast? with
  | none => k = .gpu
  | some e => match k with
    | .gpu => e.1 = true
    | .cpu => e.2 = true

/-- The machine has a device of an enabled type in a platform which answers. -/
def HasDevice (m : Machine) (es : List (Bool × Bool)) : Prop :=
  ∃ ps p d, m = some ps ∧ p ∈ ps ∧ p.first = true ∧ d ∈ p.devices ∧ Enabled es d.1

theorem history_eq (es : List (Bool × Bool)) (t : Types) : history es t = match es.getLast? with | none => t | some e => ⟨e.1, e.2⟩ := by
  induction es generalizing t with
  | nil => rfl
  | cons e es ih =>
    rw [history, ih]
    cases es with
    | nil => rfl
    | cons f es =>
      rw [List.getLast?_cons_cons]
      cases h : (f :: es).getLast? with
      | none => simp at h
      | some x => rfl

theorem has_iff (es : List (Bool × Bool)) (k : Kind) : (history es Types.initial).has k = true ↔ Enabled es k := by
  rw [history_eq, Enabled]
  cases es.getLast? with
  | none => cases k <;> simp [Types.initial, Types.has]
  | some e => cases k <;> simp [Types.has]

theorem has_any {t : Types} {k : Kind} (h : t.has k = true) : (!t.gpu && !t.cpu) = false := by
  cases k <;> simp_all [Types.has]

theorem mem_matching {p : Hw} {t : Types} {c : Nat} : c ∈ p.matching t ↔ ∃ d ∈ p.devices, t.has d.1 = true ∧ d.2 = c := by
  simp [Hw.matching, and_assoc]

theorem query_some {p : Hw} {t : Types} {ds : List Nat} (h : p.query t = some ds) :
    ds = p.matching t ∧ ds ≠ [] ∧ p.first = true ∧ (!t.gpu && !t.cpu) = false := by
  unfold Hw.query at h
  split at h
  · cases h
  · rename_i h1
    split at h
    · cases h
    · rename_i h2
      split at h
      · cases h
      · rename_i h3
        cases h
        exact ⟨rfl, h3, by simpa using h2, by simpa using h1⟩

theorem query_of {p : Hw} {t : Types} {d : Kind × Nat} (hf : p.first = true) (hd : d ∈ p.devices) (ht : t.has d.1 = true) :
    p.query t = some (p.matching t) := by
  have hm : p.matching t ≠ [] := List.ne_nil_of_mem (mem_matching.2 ⟨d, hd, ht, rfl⟩)
  unfold Hw.query
  rw [has_any ht, hf]
  simp [hm]

theorem anyDevice_iff (t : Types) (ps : List Hw) : anyDevice t ps = true ↔ ∃ p ∈ ps, ∃ ds, p.query t = some ds := by
  induction ps with
  | nil => simp [anyDevice]
  | cons p ps ih =>
    rw [anyDevice]
    cases hq : p.query t with
    | none => simp [hq, ih]
    | some ds =>
      have := (query_some hq).2.1
      simp [hq, List.length_pos_iff.2 this]

theorem supported_iff (m : Machine) (t : Types) : isOpenCLSupported m t = true ↔ ∃ ps p ds, m = some ps ∧ p ∈ ps ∧ p.query t = some ds := by
  unfold isOpenCLSupported
  constructor
  · intro h
    split at h
    · cases h
    · cases m with
      | none => cases h
      | some ps =>
        simp only at h
        split at h
        · cases h
        · obtain ⟨p, hp, ds, hq⟩ := (anyDevice_iff t ps).1 h
          exact ⟨ps, p, ds, rfl, hp, hq⟩
  · rintro ⟨ps, p, ds, rfl, hp, hq⟩
    rw [(query_some hq).2.2.2]
    simp only [Bool.false_eq_true, if_false]
    rw [if_neg (by have := List.length_pos_of_mem hp; omega)]
    exact (anyDevice_iff t ps).2 ⟨p, hp, ds, hq⟩

/-- **C176** `getDeviceSupportStatus` tells the types of the last call of `enableDeviceSupport`. -/
theorem C176_status (es : List (Bool × Bool)) :
    ((getDeviceSupportStatus (history es Types.initial)).1 = true ↔ Enabled es .gpu) ∧
    ((getDeviceSupportStatus (history es Types.initial)).2 = true ↔ Enabled es .cpu) :=
  ⟨has_iff es .gpu, has_iff es .cpu⟩

/-- **C176** OpenCL is supported exactly when a platform has a device of an enabled type. -/
theorem C176_supported (m : Machine) (es : List (Bool × Bool)) : isOpenCLSupported m (history es Types.initial) = true ↔ HasDevice m es := by
  rw [supported_iff]
  constructor
  · rintro ⟨ps, p, ds, hm, hp, hq⟩
    obtain ⟨rfl, h2, h3, _⟩ := query_some hq
    obtain ⟨c, hc⟩ := List.exists_mem_of_ne_nil _ h2
    obtain ⟨d, hd, ht, _⟩ := mem_matching.1 hc
    exact ⟨ps, p, d, hm, hp, h3, hd, (has_iff es _).1 ht⟩
  · rintro ⟨ps, p, d, hm, hp, hf, hd, ht⟩
    exact ⟨ps, p, _, hm, hp, query_of hf hd ((has_iff es _).2 ht)⟩

/-- The devices of a machine which should be listed: of the enabled types, in platforms which answer, and which can be used. -/
def Listable (usable : Nat → Bool) (m : Machine) (es : List (Bool × Bool)) (c : Nat) : Prop :=
  ∃ ps p d, m = some ps ∧ p ∈ ps ∧ p.first = true ∧ d ∈ p.devices ∧ Enabled es d.1 ∧ d.2 = c ∧ usable c = true

/-- **C176** Only devices of enabled types are ever listed, and all devices are closed, whatever calls fail. -/
theorem C176_types (usable : Nat → Bool) (m : Machine) (es : List (Bool × Bool)) (s : ClDevice.Mgr) :
    ∃ s', reset usable m (history es Types.initial) s = .ok () s' ∧ s'.devs = [] ∧
      ∀ c, c ∈ s'.supported → ∃ ps p d, m = some ps ∧ p ∈ ps ∧ d ∈ p.devices ∧ Enabled es d.1 ∧ d.2 = c := by
  cases m with
  | none => exact ⟨_, C139_no_platforms usable s, rfl, fun c hc => absurd hc (by simp)⟩
  | some ps =>
    refine ⟨_, C139_supported_exact usable _ s, rfl, fun c hc => ?_⟩
    have h1 := (C139_sublist usable _).subset hc
    obtain ⟨q, hq, hc⟩ := List.mem_flatMap.1 h1
    obtain ⟨p, hp, rfl⟩ := List.mem_map.1 hq
    simp only at hc
    cases hq : p.query (history es Types.initial) with
    | none => rw [hq] at hc; simp at hc
    | some ds =>
      rw [hq] at hc
      simp only [Option.getD_some] at hc
      rw [(query_some hq).1] at hc
      obtain ⟨d, hd, ht, e⟩ := mem_matching.1 hc
      exact ⟨ps, p, d, rfl, hp, hd, (has_iff es _).1 ht, e⟩

/-- **C176** If OpenCL is not supported, no device is listed. -/
theorem C176_unsupported (usable : Nat → Bool) (m : Machine) (es : List (Bool × Bool)) (s : ClDevice.Mgr)
    (h : isOpenCLSupported m (history es Types.initial) = false) :
    ∃ s', reset usable m (history es Types.initial) s = .ok () s' ∧ s'.supported = [] := by
  cases m with
  | none => exact ⟨_, C139_no_platforms usable s, rfl⟩
  | some ps =>
    refine ⟨_, C139_supported_exact usable _ s, ?_⟩
    have h1 := C139_sublist usable (ps.map fun p => (⟨p.query (history es Types.initial), p.second⟩ : ClDevice.Platform))
    have h2 : ((ps.map fun p => (⟨p.query (history es Types.initial), p.second⟩ : ClDevice.Platform)).flatMap fun p => p.devices.getD []) = [] := by
      rw [List.flatMap_eq_nil_iff]
      intro q hq
      obtain ⟨p, hp, rfl⟩ := List.mem_map.1 hq
      cases hq : p.query (history es Types.initial) with
      | none => simp [hq]
      | some ds =>
        have := (supported_iff (some ps) _).2 ⟨ps, p, ds, rfl, hp, hq⟩
        rw [h] at this
        cases this
    rw [h2] at h1
    exact List.sublist_nil.1 h1

/-- **C176** (partial: devices of enabled types can be used and platforms which answer do so twice) The devices listed are exactly those of enabled
    types, and there is one exactly when OpenCL is supported.
    Missing: devices which cannot be used (C139) and queries which fail; false, see `C176_wrong`. -/
theorem C176_listed_partial {usable : Nat → Bool} {m : Machine} {es : List (Bool × Bool)}
    (hu : ∀ ps p d, m = some ps → p ∈ ps → d ∈ p.devices → Enabled es d.1 → usable d.2 = true)
    (h2 : ∀ ps p, m = some ps → p ∈ ps → p.second = true) (s : ClDevice.Mgr) :
    ∃ s', reset usable m (history es Types.initial) s = .ok () s' ∧ (∀ c, c ∈ s'.supported ↔ Listable usable m es c) ∧
      (isOpenCLSupported m (history es Types.initial) = true ↔ s'.supported ≠ []) := by
  have key : ∃ s', reset usable m (history es Types.initial) s = .ok () s' ∧ ∀ c, c ∈ s'.supported ↔ Listable usable m es c := by
    cases m with
    | none =>
      refine ⟨_, C139_no_platforms usable s, fun c => ⟨fun hc => absurd hc (by simp), ?_⟩⟩
      rintro ⟨_, _, _, h, _⟩
      cases h
    | some ps =>
      obtain ⟨s', e, hs, _, _⟩ := C139_supported_partial (usable := usable)
        (ps := ps.map fun p => (⟨p.query (history es Types.initial), p.second⟩ : ClDevice.Platform)) (by
          intro q hq l hl c hc
          obtain ⟨p, hp, rfl⟩ := List.mem_map.1 hq
          obtain ⟨rfl, _, _, _⟩ := query_some hl
          obtain ⟨d, hd, ht, rfl⟩ := mem_matching.1 hc
          exact hu ps p d rfl hp hd ((has_iff es _).1 ht)) s
      refine ⟨s', e, fun c => ?_⟩
      rw [hs, usableOf, List.mem_flatMap]
      constructor
      · rintro ⟨q, hq, hc⟩
        obtain ⟨p, hp, rfl⟩ := List.mem_map.1 hq
        simp only [h2 ps p rfl hp, if_true, List.mem_filter] at hc
        cases hqq : p.query (history es Types.initial) with
        | none => rw [hqq] at hc; simp at hc
        | some ds =>
          rw [hqq] at hc
          obtain ⟨rfl, _, hf, _⟩ := query_some hqq
          obtain ⟨d, hd, ht, e⟩ := mem_matching.1 hc.1
          exact ⟨ps, p, d, rfl, hp, hf, hd, (has_iff es _).1 ht, e, hc.2⟩
      · rintro ⟨ps', p, d, hm, hp, hf, hd, ht, rfl, hus⟩
        cases hm
        refine ⟨_, List.mem_map.2 ⟨p, hp, rfl⟩, ?_⟩
        simp only [h2 ps p rfl hp, if_true, query_of hf hd ((has_iff es _).2 ht), Option.getD_some, List.mem_filter]
        exact ⟨mem_matching.2 ⟨d, hd, (has_iff es _).2 ht, rfl⟩, hus⟩
  obtain ⟨s', e, hs⟩ := key
  refine ⟨s', e, hs, ?_⟩
  rw [C176_supported]
  constructor
  · rintro ⟨ps, p, d, hm, hp, hf, hd, ht⟩
    exact List.ne_nil_of_mem ((hs d.2).2 ⟨ps, p, d, hm, hp, hf, hd, ht, rfl, hu ps p d hm hp hd ht⟩)
  · intro hne
    obtain ⟨c, hc⟩ := List.exists_mem_of_ne_nil _ hne
    obtain ⟨ps, p, d, hm, hp, hf, hd, ht, _⟩ := (hs c).1 hc
    exact ⟨ps, p, d, hm, hp, hf, hd, ht⟩

/-- A machine with two platforms: a processor; a processor and two graphics cards -/
def boxCl : Machine := some [⟨[(.cpu, 1)], true, true⟩, ⟨[(.gpu, 3), (.cpu, 2), (.gpu, 4)], true, true⟩]

/-- C176 does not hold in general: when the second query fails OpenCL is supported and the list is empty; a card which cannot be used is listed. -/
theorem C176_wrong :
    isOpenCLSupported (some [⟨[(.gpu, 3)], true, false⟩]) Types.initial = true ∧
    (stCl (reset (fun _ => true) (some [⟨[(.gpu, 3)], true, false⟩]) Types.initial (noCl []))).map ClDevice.Mgr.supported = some [] ∧
    isOpenCLSupported (some [⟨[(.gpu, 3)], true, true⟩]) Types.initial = true ∧
    (stCl (reset (fun _ => false) (some [⟨[(.gpu, 3)], true, true⟩]) Types.initial (noCl []))).map ClDevice.Mgr.supported = some [3] ∧
    ¬ Listable (fun _ => false) (some [⟨[(.gpu, 3)], true, true⟩]) [] 3 := by
  refine ⟨by decide, by decide, by decide, by decide, ?_⟩
  rintro ⟨_, _, _, _, _, _, _, _, _, h⟩
  cases h

/-- Only processors: 1 and 2 are listed; then only graphics cards, then nothing. -/
example : (stCl (reset (fun _ => true) boxCl (history [(true, true), (false, true)] Types.initial) (noCl []))).map ClDevice.Mgr.supported = some [1, 2] ∧
    (stCl (reset (fun _ => true) boxCl (history [(false, true), (true, false)] Types.initial) (noCl []))).map ClDevice.Mgr.supported = some [3, 4] ∧
    (stCl (reset (fun _ => true) boxCl (history [(false, false)] Types.initial) (noCl []))).map ClDevice.Mgr.supported = some [] := by decide

example : isOpenCLSupported boxCl (history [] Types.initial) = true ∧ isOpenCLSupported boxCl (history [(false, false)] Types.initial) = false ∧
    isOpenCLSupported (some [⟨[(.cpu, 1)], true, true⟩]) (history [] Types.initial) = false := by decide

/-- The hypotheses of `C176_listed_partial` hold for the machine when all devices work. -/
example (s : ClDevice.Mgr) : ∃ s', reset (fun _ => true) boxCl (history [(true, true)] Types.initial) s = .ok () s' ∧
    (∀ c, c ∈ s'.supported ↔ Listable (fun _ => true) boxCl [(true, true)] c) ∧
      (isOpenCLSupported boxCl (history [(true, true)] Types.initial) = true ↔ s'.supported ≠ []) :=
  C176_listed_partial (fun _ _ _ _ _ _ _ => rfl) (fun ps p h hp => by
    cases h
    simp at hp
    rcases hp with rfl | rfl <;> rfl) s

end PV.Props
