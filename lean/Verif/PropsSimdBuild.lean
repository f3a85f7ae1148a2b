import Verif.SimdBuildLemmas
import Verif.PropsSimdMove
import Verif.PropsSimdSum
/-
  Properties C147 and C148: which vector instructions a program uses, and the functions of `Image_Function_Simd` in every build, on every
  processor and after every sequence of calls which switch vector instructions on and off.
-/
namespace PV.Props

open PV.Simd (Kind Build Cpu Enable Setup Platform buildOf)

/-! ### C147 : the instructions in use -/

/-- The computer: its processor, and whether the operating system saves the registers of AVX and of AVX-512 -/
structure Machine where
  cpu : Cpu
  ymm : Bool
  zmm : Bool

/-- Feature bit `i` of a register of CPUID, if the processor has this leaf -/
def Feature (c : Cpu) (leaf reg i : Nat) : Prop :=
  c.arm = false ∧ leaf ≤ (c.cpuid 0 0).toNat ∧ (c.cpuid leaf reg).toNat.testBit i = true

def Sse2 (c : Cpu) : Prop := Feature c 1 3 26
def Ssse3 (c : Cpu) : Prop := Feature c 1 2 9
def Avx2 (c : Cpu) : Prop := Feature c 7 1 5
def Avx512F (c : Cpu) : Prop := Feature c 7 1 16
def Avx512DQ (c : Cpu) : Prop := Feature c 7 1 17
def Avx512CD (c : Cpu) : Prop := Feature c 7 1 28
def Avx512BW (c : Cpu) : Prop := Feature c 7 1 30
def Avx512VL (c : Cpu) : Prop := Feature c 7 1 31

/-- The computer can execute the instructions which the build uses for this kind. -/
def CanRun (b : Build) (m : Machine) : Kind → Prop
  | .avx512 => Avx512F m.cpu ∧ Avx512DQ m.cpu ∧ Avx512CD m.cpu ∧ Avx512BW m.cpu ∧ Avx512VL m.cpu ∧ m.zmm = true
  | .avx => Avx2 m.cpu ∧ m.ymm = true
  | .sse => Sse2 m.cpu ∧ (b.ssse3 = true → Ssse3 m.cpu)
  | .neon => m.cpu.arm = true
  | .cpu => True

/-- Is the kind switched on after these calls? The last call which is about this kind decides; at the start everything is on. -/
def SwitchedOn (k : Kind) (calls : List Enable) : Prop :=
  ∀ before e after on, calls = before ++ e :: after →
    (e = .simd on ∨ (k = .avx512 ∧ e = .avx512 on) ∨ (k = .avx ∧ e = .avx on) ∨ (k = .sse ∧ e = .sse on) ∨
      (k = .neon ∧ e = .neon on)) →
    (∀ e' ∈ after, ∀ on', e' ≠ .simd on' ∧ ¬ (k = .avx512 ∧ e' = .avx512 on') ∧ ¬ (k = .avx ∧ e' = .avx on') ∧
      ¬ (k = .sse ∧ e' = .sse on') ∧ ¬ (k = .neon ∧ e' = .neon on')) → on = true

/-- The order of preference -/
def strength : Kind → Nat
  | .avx512 => 4
  | .avx => 3
  | .sse => 2
  | .neon => 1
  | .cpu => 0

/-- May this kind be used: it is compiled in, switched on, and the computer has it. -/
def MayUse (s : Setup) (m : Machine) (k : Kind) : Prop :=
  k = .cpu ∨ (s.build.has k = true ∧ SwitchedOn k s.calls ∧ CanRun s.build m k)

/-- A computer for which the questions of the code are enough: the five parts of AVX-512 come together, the operating system saves the registers the
    processor has, and SSSE3 comes with SSE2 (if the build uses it). -/
structure Ordinary (b : Build) (m : Machine) : Prop where
  leaves : (m.cpu.cpuid 0 0).toNat < 2147483648
  five : (Avx512F m.cpu ∨ Avx512DQ m.cpu ∨ Avx512CD m.cpu ∨ Avx512BW m.cpu ∨ Avx512VL m.cpu) →
    Avx512F m.cpu ∧ Avx512DQ m.cpu ∧ Avx512CD m.cpu ∧ Avx512BW m.cpu ∧ Avx512VL m.cpu ∧ m.zmm = true
  ymm : Avx2 m.cpu → m.ymm = true
  ssse3 : b.ssse3 = true → Sse2 m.cpu → Ssse3 m.cpu

/-- The switch of a kind -/
def switchOf (w : Simd.Switches) : Kind → Bool
  | .avx512 => w.avx512
  | .avx => w.avx
  | .sse => w.sse
  | .neon => w.neon
  | .cpu => true

/-- Does a call set the switch of this kind? -/
def settingOf (k : Kind) (e : Enable) : Option Bool :=
  match e, k with
  | .simd on, _ => some on
  | .avx512 on, .avx512 => some on
  | .avx on, .avx => some on
  | .sse on, .sse => some on
  | .neon on, .neon => some on
  | _, _ => none

theorem switchOf_set (k : Kind) (hk : k ≠ .cpu) (w : Simd.Switches) (e : Enable) :
    switchOf (w.set e) k = (settingOf k e).getD (switchOf w k) := by
  cases e <;> cases k <;> first | rfl | exact absurd rfl hk

theorem settingOf_some (k : Kind) (hk : k ≠ .cpu) (e : Enable) (on : Bool) : settingOf k e = some on ↔
    (e = .simd on ∨ (k = .avx512 ∧ e = .avx512 on) ∨ (k = .avx ∧ e = .avx on) ∨ (k = .sse ∧ e = .sse on) ∨
      (k = .neon ∧ e = .neon on)) := by
  cases e <;> cases k <;> simp [settingOf] at hk ⊢

theorem switched_on (k : Kind) (hk : k ≠ .cpu) (calls : List Enable) :
    switchOf (Simd.switched calls) k = true ↔ SwitchedOn k calls := by
  have hnone : ∀ after : List Enable, (∀ e' ∈ after, ∀ on', e' ≠ .simd on' ∧ ¬ (k = .avx512 ∧ e' = .avx512 on') ∧
      ¬ (k = .avx ∧ e' = .avx on') ∧ ¬ (k = .sse ∧ e' = .sse on') ∧ ¬ (k = .neon ∧ e' = .neon on')) ↔
      ∀ e' ∈ after, settingOf k e' = none := by
    intro after
    constructor
    · intro h e' he'
      cases hs : settingOf k e' with
      | none => rfl
      | some on =>
        have h2 := h e' he' on
        have h3 := (settingOf_some k hk e' on).1 hs
        rcases h3 with h3 | h3 | h3 | h3 | h3
        · exact absurd h3 h2.1
        · exact absurd h3 h2.2.1
        · exact absurd h3 h2.2.2.1
        · exact absurd h3 h2.2.2.2.1
        · exact absurd h3 h2.2.2.2.2
    · intro h e' he' on
      have h2 : ¬ _ := fun h3 => Option.some_ne_none on (((settingOf_some k hk e' on).2 h3).symm.trans (h e' he'))
      exact ⟨fun h3 => h2 (Or.inl h3), fun h3 => h2 (Or.inr (Or.inl h3)), fun h3 => h2 (Or.inr (Or.inr (Or.inl h3))),
        fun h3 => h2 (Or.inr (Or.inr (Or.inr (Or.inl h3)))), fun h3 => h2 (Or.inr (Or.inr (Or.inr (Or.inr h3))))⟩
  have hno : ∀ (l : List Enable) (w : Simd.Switches), (∀ e' ∈ l, settingOf k e' = none) →
      switchOf (l.foldl Simd.Switches.set w) k = switchOf w k := by
    intro l
    induction l with
    | nil => intro w _; rfl
    | cons a t ih =>
      intro w hl
      rw [List.foldl_cons, ih _ fun e' he' => hl e' (List.mem_cons_of_mem _ he'), switchOf_set k hk, hl a (List.mem_cons_self ..)]
      rfl
  have hlast : ∀ l : List Enable, (∀ e ∈ l, settingOf k e = none) ∨
      ∃ before e after on, l = before ++ e :: after ∧ settingOf k e = some on ∧ ∀ e' ∈ after, settingOf k e' = none := by
    intro l
    induction l with
    | nil => exact Or.inl (by simp)
    | cons e l ih =>
      rcases ih with h | ⟨before, e', after, on, h1, h2, h3⟩
      · cases hs : settingOf k e with
        | none => exact Or.inl (by simpa [hs] using h)
        | some on => exact Or.inr ⟨[], e, l, on, rfl, hs, h⟩
      · exact Or.inr ⟨e :: before, e', after, on, by rw [h1]; rfl, h2, h3⟩
  have hstart : switchOf ⟨true, true, true, true⟩ k = true := by cases k <;> rfl
  have hstep : ∀ before e after on, settingOf k e = some on → (∀ e' ∈ after, settingOf k e' = none) →
      switchOf (Simd.switched (before ++ e :: after)) k = on := by
    intro before e after on h1 h2
    rw [Simd.switched, List.foldl_append, List.foldl_cons, hno _ _ h2, switchOf_set k hk, h1]
    rfl
  constructor
  · intro h before e after on he hset hrest
    subst he
    rw [hstep before e after on ((settingOf_some k hk e on).2 hset) ((hnone after).1 hrest)] at h
    exact h
  · intro h
    rcases hlast calls with h1 | ⟨before, e, after, on, h1, h2, h3⟩
    · exact (hno calls _ h1).trans hstart
    · have h4 := h before e after on h1 ((settingOf_some k hk e on).1 h2) ((hnone after).2 h3)
      rw [h1, hstep before e after on h2 h3, h4]

/-- The leaf numbers are compared as signed numbers. -/
theorem asInt_le {v : UInt32} (hv : v.toNat < 2147483648) (n : Nat) : Simd.asInt v ≥ n ↔ n ≤ v.toNat := by
  rw [Simd.asInt, if_pos hv]
  omega

theorem sse_supported {c : Cpu} (hc : (c.cpuid 0 0).toNat < 2147483648) : Simd.isSseSupported c = true ↔ Sse2 c := by
  have hb : (c.cpuid 1 3 &&& ((1 : UInt32) <<< 26) != 0) = (c.cpuid 1 3).toNat.testBit 26 := Simd.bit_test _ 26 (by decide)
  have hl := asInt_le hc 1
  rw [Simd.isSseSupported, Sse2, Feature, hb]
  cases c.arm
  · by_cases h : Simd.asInt (c.cpuid 0 0) ≥ 1
    · simp [h, hl.1 h]
    · have h' : ¬ 1 ≤ (c.cpuid 0 0).toNat := fun h2 => h (hl.2 h2)
      simp [h, h']
  · simp

theorem avx_supported {c : Cpu} (hc : (c.cpuid 0 0).toNat < 2147483648) : Simd.isAvxSupported c = true ↔ Avx2 c := by
  have hb : (c.cpuid 7 1 &&& ((1 : UInt32) <<< 5) != 0) = (c.cpuid 7 1).toNat.testBit 5 := Simd.bit_test _ 5 (by decide)
  have hl := asInt_le hc 7
  rw [Simd.isAvxSupported, Avx2, Feature, hb]
  cases c.arm
  · by_cases h : Simd.asInt (c.cpuid 0 0) ≥ 7
    · simp [h, hl.1 h]
    · have h' : ¬ 7 ≤ (c.cpuid 0 0).toNat := fun h2 => h (hl.2 h2)
      simp [h, h']
  · simp

/-- One of the five parts of AVX-512 is enough for the code. -/
theorem avx512_supported {c : Cpu} (hc : (c.cpuid 0 0).toNat < 2147483648) :
    Simd.isAvx512Supported c = true ↔ Avx512F c ∨ Avx512DQ c ∨ Avx512CD c ∨ Avx512BW c ∨ Avx512VL c := by
  have hb : ∀ i, i < 32 → (c.cpuid 7 1 &&& ((1 : UInt32) <<< UInt32.ofNat i) != 0) = (c.cpuid 7 1).toNat.testBit i :=
    fun i hi => Simd.bit_test _ i hi
  have h31 := hb 31 (by decide)
  have h30 := hb 30 (by decide)
  have h28 := hb 28 (by decide)
  have h17 := hb 17 (by decide)
  have h16 := hb 16 (by decide)
  have hl := asInt_le hc 7
  rw [Simd.isAvx512Supported, Simd.and_or_ne, Simd.and_or_ne, Simd.and_or_ne, Simd.and_or_ne]
  change (if c.arm = true then false else if Simd.asInt (c.cpuid 0 0) ≥ 7 then
    (((((c.cpuid 7 1 &&& ((1 : UInt32) <<< UInt32.ofNat 31) != 0) || (c.cpuid 7 1 &&& ((1 : UInt32) <<< UInt32.ofNat 30) != 0)) ||
      (c.cpuid 7 1 &&& ((1 : UInt32) <<< UInt32.ofNat 28) != 0)) || (c.cpuid 7 1 &&& ((1 : UInt32) <<< UInt32.ofNat 17) != 0)) ||
      (c.cpuid 7 1 &&& ((1 : UInt32) <<< UInt32.ofNat 16) != 0)) else false) = true ↔ _
  rw [h31, h30, h28, h17, h16]
  simp only [Avx512F, Avx512DQ, Avx512CD, Avx512BW, Avx512VL, Feature]
  cases c.arm
  · by_cases h : Simd.asInt (c.cpuid 0 0) ≥ 7
    · simp only [h, hl.1 h, Bool.or_eq_true, true_and, ↓reduceIte, Bool.false_eq_true]
      constructor
      · rintro ((((h | h) | h) | h) | h) <;> simp [h]
      · rintro (h | h | h | h | h) <;> simp [h]
    · have h' : ¬ 7 ≤ (c.cpuid 0 0).toNat := fun h2 => h (hl.2 h2)
      simp [h, h']
  · simp

/-- C147 for ordinary computers: the program uses the best kind of vector instructions it may use. Missing for the full claim: computers which are not
    ordinary, where it is false (`C147_avx512_wrong`, `C147_os_wrong`, `C147_ssse3_wrong`). -/
theorem C147_kind_partial (s : Setup) (m : Machine) (hm : s.cpu = m.cpu) (ho : Ordinary s.build m) :
    MayUse s m s.kind ∧ ∀ k, MayUse s m k → strength k ≤ strength s.kind := by
  obtain ⟨b, c, calls⟩ := s
  obtain rfl : c = m.cpu := hm
  have e512 : Simd.isAvx512Supported m.cpu = true ↔ CanRun b m .avx512 := by
    rw [avx512_supported ho.leaves]
    exact ⟨ho.five, fun h => Or.inl h.1⟩
  have eavx : Simd.isAvxSupported m.cpu = true ↔ CanRun b m .avx := by
    rw [avx_supported ho.leaves]
    exact ⟨fun h => ⟨h, ho.ymm h⟩, fun h => h.1⟩
  have esse : Simd.isSseSupported m.cpu = true ↔ CanRun b m .sse := by
    rw [sse_supported ho.leaves]
    exact ⟨fun h => ⟨h, fun hb => ho.ssse3 hb h⟩, fun h => h.1⟩
  have eneon : Simd.isNeonSupported m.cpu = true ↔ CanRun b m .neon := Iff.rfl
  have w512 := switched_on .avx512 (by decide) calls
  have wavx := switched_on .avx (by decide) calls
  have wsse := switched_on .sse (by decide) calls
  have wneon := switched_on .neon (by decide) calls
  simp only [switchOf] at w512 wavx wsse wneon
  have u512 : (b.avx512 && Simd.isAvx512Supported m.cpu && (Simd.switched calls).avx512) = true ↔ MayUse ⟨b, m.cpu, calls⟩ m .avx512 := by
    simp only [Bool.and_eq_true, e512, w512, MayUse, Build.has, reduceCtorEq, false_or]
    exact ⟨fun h => ⟨h.1.1, h.2, h.1.2⟩, fun h => ⟨⟨h.1, h.2.2⟩, h.2.1⟩⟩
  have uavx : (b.avx && Simd.isAvxSupported m.cpu && (Simd.switched calls).avx) = true ↔ MayUse ⟨b, m.cpu, calls⟩ m .avx := by
    simp only [Bool.and_eq_true, eavx, wavx, MayUse, Build.has, reduceCtorEq, false_or]
    exact ⟨fun h => ⟨h.1.1, h.2, h.1.2⟩, fun h => ⟨⟨h.1, h.2.2⟩, h.2.1⟩⟩
  have usse : (b.sse && Simd.isSseSupported m.cpu && (Simd.switched calls).sse) = true ↔ MayUse ⟨b, m.cpu, calls⟩ m .sse := by
    simp only [Bool.and_eq_true, esse, wsse, MayUse, Build.has, reduceCtorEq, false_or]
    exact ⟨fun h => ⟨h.1.1, h.2, h.1.2⟩, fun h => ⟨⟨h.1, h.2.2⟩, h.2.1⟩⟩
  have uneon : (b.neon && Simd.isNeonSupported m.cpu && (Simd.switched calls).neon) = true ↔ MayUse ⟨b, m.cpu, calls⟩ m .neon := by
    simp only [Bool.and_eq_true, eneon, wneon, MayUse, Build.has, reduceCtorEq, false_or]
    exact ⟨fun h => ⟨h.1.1, h.2, h.1.2⟩, fun h => ⟨⟨h.1, h.2.2⟩, h.2.1⟩⟩
  simp only [Setup.kind, Simd.actualSimdType]
  by_cases h1 : MayUse ⟨b, m.cpu, calls⟩ m .avx512
  · rw [if_pos (u512.2 h1)]
    exact ⟨h1, fun k _ => by cases k <;> decide⟩
  rw [if_neg fun h => h1 (u512.1 h)]
  by_cases h2 : MayUse ⟨b, m.cpu, calls⟩ m .avx
  · rw [if_pos (uavx.2 h2)]
    exact ⟨h2, fun k hk => by cases k <;> first | decide | exact absurd hk h1⟩
  rw [if_neg fun h => h2 (uavx.1 h)]
  by_cases h3 : MayUse ⟨b, m.cpu, calls⟩ m .sse
  · rw [if_pos (usse.2 h3)]
    exact ⟨h3, fun k hk => by cases k <;> first | decide | exact absurd hk h1 | exact absurd hk h2⟩
  rw [if_neg fun h => h3 (usse.1 h)]
  by_cases h4 : MayUse ⟨b, m.cpu, calls⟩ m .neon
  · rw [if_pos (uneon.2 h4)]
    exact ⟨h4, fun k hk => by cases k <;> first | decide | exact absurd hk h1 | exact absurd hk h2 | exact absurd hk h3⟩
  rw [if_neg fun h => h4 (uneon.1 h)]
  exact ⟨Or.inl rfl, fun k hk => by
    cases k <;> first | decide | exact absurd hk h1 | exact absurd hk h2 | exact absurd hk h3 | exact absurd hk h4⟩

/-- On every computer: what is used is compiled in and switched on. -/
theorem C147_kind_enabled (s : Setup) (h : s.kind ≠ .cpu) : s.build.has s.kind = true ∧ SwitchedOn s.kind s.calls := by
  rw [← switched_on s.kind h]
  obtain ⟨b, c, calls⟩ := s
  simp only [Setup.kind, Simd.actualSimdType] at h ⊢
  split
  · simp_all [Build.has, switchOf]
  · split
    · simp_all [Build.has, switchOf]
    · split
      · simp_all [Build.has, switchOf]
      · split <;> simp_all [Build.has, switchOf]

/-- After `EnableSimd( false )` no vector instructions are used until something is switched on. -/
theorem C147_off (s : Setup) (before after : List Enable) (hs : s.calls = before ++ .simd false :: after)
    (hoff : ∀ e ∈ after, e ≠ .simd true ∧ e ≠ .avx512 true ∧ e ≠ .avx true ∧ e ≠ .sse true ∧ e ≠ .neon true) : s.kind = .cpu := by
  have hsw : Simd.switched s.calls = ⟨false, false, false, false⟩ := by
    rw [hs, Simd.switched, List.foldl_append, List.foldl_cons]
    show after.foldl Simd.Switches.set ⟨false, false, false, false⟩ = _
    clear hs
    induction after with
    | nil => rfl
    | cons e l ih =>
      rw [List.foldl_cons]
      have h1 := hoff e (List.mem_cons_self ..)
      have : Simd.Switches.set ⟨false, false, false, false⟩ e = ⟨false, false, false, false⟩ := by
        cases e <;> rename_i on <;> cases on <;> simp_all [Simd.Switches.set]
      rw [this]
      exact ih fun e' he' => hoff e' (List.mem_cons_of_mem _ he')
  rw [Setup.kind, Simd.actualSimdType, hsw]
  simp

/-- Every build has at most one family of instruction sets, and the smaller sets of the family. -/
theorem C147_builds (p : Platform) {b : Build} (h : buildOf p = some b) :
    b.valid = true ∧ (b.avx512 = true → b.avx = true) ∧ (b.avx = true → b.sse = true) ∧ (b.ssse3 = true → b.sse = true) ∧
      ¬ (b.neon = true ∧ (b.sse = true ∨ b.avx = true ∨ b.avx512 = true ∨ b.ssse3 = true)) := by
  have hv : b.valid = true := (Option.filter_eq_some_iff.1 h).2
  refine ⟨hv, ?_⟩
  obtain ⟨b1, b2, b3, b4, b5⟩ := b
  revert hv
  cases b1 <;> cases b2 <;> cases b3 <;> cases b4 <;> cases b5 <;> simp [Build.valid]

/-- The program is made for ARM processors. -/
def ForArm (p : Platform) : Prop := if p.msvc ≠ 0 then p.msArm = true else p.arm = true

instance (p : Platform) : Decidable (ForArm p) := by unfold ForArm; infer_instance

/-- The platforms which cannot be compiled for: unknown ones, and gcc with AVX-512 but without AVX2. -/
theorem C147_platforms_none (p : Platform) : buildOf p = none ↔
    p.msvc = 0 ∧ (p.unix = false ∨ (p.arm = false ∧ p.sse2 = true ∧ p.avx512 = true ∧ p.avx2 = false)) := by
  obtain ⟨m, b1, b2, b3, b4, b5, b6, b7⟩ := p
  by_cases hm : m = 0
  · subst hm
    revert b1 b2 b3 b4 b5 b6 b7
    decide
  · have h : (1911 ≤ m → 1700 ≤ m) := by omega
    simp only [buildOf, Simd.symbols, ne_eq, hm, not_false_eq_true, ↓reduceIte, false_and, iff_false]
    cases b1
    · by_cases h1 : 1911 ≤ m
      · simp [Build.valid, Option.filter, h1, h h1]
      · simp [Build.valid, Option.filter, h1]
    · simp [Build.valid, Option.filter]

/-- On all other platforms: NEON exactly for ARM processors; for others SSE2 and SSSE3 always with Visual Studio, AVX2 from 2012 and
    AVX-512 from 2017 (15.3) on, and with other compilers what their options ask for. -/
theorem C147_platforms (p : Platform) {b : Build} (h : buildOf p = some b) :
    (b.neon = true ↔ ForArm p) ∧
      (b.sse = true ↔ ¬ ForArm p ∧ (p.msvc ≠ 0 ∨ p.sse2 = true)) ∧
      (b.ssse3 = true ↔ ¬ ForArm p ∧ (p.msvc ≠ 0 ∨ (p.sse2 = true ∧ p.ssse3 = true))) ∧
      (b.avx = true ↔ ¬ ForArm p ∧ (1700 ≤ p.msvc ∨ (p.msvc = 0 ∧ p.sse2 = true ∧ p.avx2 = true))) ∧
      (b.avx512 = true ↔ ¬ ForArm p ∧ (1911 ≤ p.msvc ∨ (p.msvc = 0 ∧ p.sse2 = true ∧ p.avx512 = true))) := by
  have hs : Simd.symbols p = some b := (Option.filter_eq_some_iff.1 h).1
  clear h
  obtain ⟨m, b1, b2, b3, b4, b5, b6, b7⟩ := p
  by_cases hm : m = 0
  · subst hm
    cases b2
    · simp [Simd.symbols] at hs
    · cases b3
      · cases b4 <;> simp only [Simd.symbols, ne_eq, not_true_eq_false, ↓reduceIte, Bool.false_eq_true, Option.some.injEq] at hs <;>
          subst hs <;> simp [ForArm]
      · simp only [Simd.symbols, ne_eq, not_true_eq_false, ↓reduceIte, Option.some.injEq] at hs
        subst hs
        simp [ForArm]
  · cases b1 <;> simp only [Simd.symbols, ne_eq, hm, not_false_eq_true, ↓reduceIte, Bool.false_eq_true, Option.some.injEq] at hs <;>
      subst hs <;> simp [ForArm, hm]

/-- Visual Studio 2017 for x64 -/
def msvc2017 : Platform := ⟨1911, false, false, false, false, false, false, false⟩
/-- gcc on Linux for x86-64 without options -/
def gccPlain : Platform := ⟨0, false, true, false, true, false, false, false⟩
/-- gcc on Linux for an ARM processor -/
def gccArm : Platform := ⟨0, false, true, true, false, false, false, false⟩

example : buildOf msvc2017 = some ⟨false, true, true, true, true⟩ := by decide
example : buildOf gccPlain = some ⟨false, true, false, false, false⟩ := by decide
example : buildOf gccArm = some ⟨true, false, false, false, false⟩ := by decide
/-- `-mavx512...` without `-mavx2` cannot be compiled. -/
example : buildOf ⟨0, false, true, false, true, true, false, true⟩ = none := by decide

/-- A processor by its highest leaf, EDX and ECX of leaf 1 and EBX of leaf 7 -/
def processor (leaf edx1 ecx1 ebx7 : UInt32) : Cpu where
  cpuid l r := if l = 0 ∧ r = 0 then leaf else if l = 1 ∧ r = 3 then edx1 else if l = 1 ∧ r = 2 then ecx1
    else if l = 7 ∧ r = 1 then ebx7 else 0
  arm := false

/-- Haswell -/
def haswell : Machine := ⟨processor 13 0xBFEBFBFF 0x7FFAFBFF 0x27AB, true, false⟩
/-- Knights Landing has the parts F and CD of AVX-512 but not BW, DQ and VL. -/
def knl : Machine := ⟨processor 13 0xBFEBFBFF 0x7FF8F3BF 0x1C0D23AB, true, true⟩

instance (c : Cpu) (leaf reg i : Nat) : Decidable (Feature c leaf reg i) := inferInstanceAs (Decidable (_ ∧ _ ∧ _))

theorem ordinary_haswell : Ordinary ⟨false, true, true, true, true⟩ haswell :=
  ⟨by decide, by simp only [Avx512F, Avx512DQ, Avx512CD, Avx512BW, Avx512VL]; decide, fun _ => rfl,
    by simp only [Sse2, Ssse3]; decide⟩

example : Setup.kind ⟨⟨false, true, true, true, true⟩, haswell.cpu, []⟩ = .avx := by decide
example : Setup.kind ⟨⟨false, true, true, true, true⟩, haswell.cpu, [.avx false]⟩ = .sse := by decide
example : Setup.kind ⟨⟨false, true, true, true, true⟩, haswell.cpu, [.simd false, .neon true, .avx true]⟩ = .avx := by decide
example : SwitchedOn .avx [.avx false, .sse false, .simd true, .sse false] := (switched_on .avx (by decide) _).1 rfl

/-- C147 is false for AVX-512: on Knights Landing a program built with Visual Studio 2017 uses AVX-512 instructions although the part
    BW is missing, which the byte operations need. -/
theorem C147_avx512_wrong :
    buildOf msvc2017 = some ⟨false, true, true, true, true⟩ ∧ ¬ Avx512BW knl.cpu ∧ knl.ymm = true ∧ knl.zmm = true ∧
      Setup.kind ⟨⟨false, true, true, true, true⟩, knl.cpu, []⟩ = .avx512 ∧
      ¬ MayUse ⟨⟨false, true, true, true, true⟩, knl.cpu, []⟩ knl .avx512 ∧
      MayUse ⟨⟨false, true, true, true, true⟩, knl.cpu, []⟩ knl .avx := by
  have h1 : ¬ Avx512BW knl.cpu := by
    rw [Avx512BW]
    decide
  have h2 : Avx2 knl.cpu := by
    rw [Avx2]
    decide
  refine ⟨by decide, h1, rfl, rfl, by decide, ?_, Or.inr ⟨rfl, (switched_on .avx (by decide) _).1 rfl, h2, rfl⟩⟩
  rintro (h | ⟨_, _, h⟩)
  · cases h
  · exact h1 h.2.2.2.1

/-- C147 is false if the operating system does not save the registers of AVX: the code does not ask. -/
theorem C147_os_wrong :
    Setup.kind ⟨⟨false, true, true, true, true⟩, haswell.cpu, []⟩ = .avx ∧
      ¬ MayUse ⟨⟨false, true, true, true, true⟩, haswell.cpu, []⟩ ⟨haswell.cpu, false, false⟩ .avx := by
  refine ⟨by decide, ?_⟩
  rintro (h | ⟨_, _, h⟩)
  · cases h
  · exact Bool.false_ne_true h.2

/-- C147 is false for processors with SSE2 but without SSSE3, if the build uses SSSE3. -/
theorem C147_ssse3_wrong :
    Setup.kind ⟨⟨false, true, true, true, true⟩, processor 1 0x078BFBFF 0x2001 0, []⟩ = .sse ∧
      ¬ MayUse ⟨⟨false, true, true, true, true⟩, processor 1 0x078BFBFF 0x2001 0, []⟩ ⟨processor 1 0x078BFBFF 0x2001 0, false, false⟩ .sse := by
  refine ⟨by decide, ?_⟩
  rintro (h | ⟨_, _, h⟩)
  · cases h
  · have h2 := h.2 rfl
    simp only [Ssse3] at h2
    revert h2
    decide

/-! ### C148 : the functions in every build -/

theorem covers {p : Platform} {s : Setup} (hp : buildOf p = some s.build) : s.build.Covers s.kind := Simd.covers s (C147_builds p hp).1

theorem C148_absoluteDifference {p : Platform} {s : Setup} (hp : buildOf p = some s.build) {m : BMem} {in1 in2 out : View} {w h : Nat}
    (r : Ready2 m in1 in2 out w h) :
    ∃ m', Simd.Api.AbsoluteDifference s in1 in2 out w h m = .ok () m' ∧ AbsoluteDifference in1 in2 out w h m = .ok () m' ∧
      WritesRoi m m' out w h fun x y c => specAbsDiff (in1.get m x y c) (in2.get m x y c) := by
  rw [Simd.Api.AbsoluteDifference, Simd.binaryOf_eq (covers hp)]
  exact C51_absoluteDifference s.kind r

theorem C148_bitwiseAnd {p : Platform} {s : Setup} (hp : buildOf p = some s.build) {m : BMem} {in1 in2 out : View} {w h : Nat}
    (r : Ready2 m in1 in2 out w h) :
    ∃ m' F, Simd.Api.BitwiseAnd s in1 in2 out w h m = .ok () m' ∧ BitwiseAnd in1 in2 out w h m = .ok () m' ∧ WritesRoi m m' out w h F ∧
      ∀ x y c i, bit (F x y c) i = (bit (in1.get m x y c) i && bit (in2.get m x y c) i) := by
  rw [Simd.Api.BitwiseAnd, Simd.binaryOf_eq (covers hp)]
  exact C51_bitwiseAnd s.kind r

theorem C148_bitwiseOr {p : Platform} {s : Setup} (hp : buildOf p = some s.build) {m : BMem} {in1 in2 out : View} {w h : Nat}
    (r : Ready2 m in1 in2 out w h) :
    ∃ m' F, Simd.Api.BitwiseOr s in1 in2 out w h m = .ok () m' ∧ BitwiseOr in1 in2 out w h m = .ok () m' ∧ WritesRoi m m' out w h F ∧
      ∀ x y c i, bit (F x y c) i = (bit (in1.get m x y c) i || bit (in2.get m x y c) i) := by
  rw [Simd.Api.BitwiseOr, Simd.binaryOf_eq (covers hp)]
  exact C51_bitwiseOr s.kind r

theorem C148_bitwiseXor {p : Platform} {s : Setup} (hp : buildOf p = some s.build) {m : BMem} {in1 in2 out : View} {w h : Nat}
    (r : Ready2 m in1 in2 out w h) :
    ∃ m' F, Simd.Api.BitwiseXor s in1 in2 out w h m = .ok () m' ∧ BitwiseXor in1 in2 out w h m = .ok () m' ∧ WritesRoi m m' out w h F ∧
      ∀ x y c i, bit (F x y c) i = (bit (in1.get m x y c) i != bit (in2.get m x y c) i) := by
  rw [Simd.Api.BitwiseXor, Simd.binaryOf_eq (covers hp)]
  exact C51_bitwiseXor s.kind r

theorem C148_maximum {p : Platform} {s : Setup} (hp : buildOf p = some s.build) {m : BMem} {in1 in2 out : View} {w h : Nat}
    (r : Ready2 m in1 in2 out w h) :
    ∃ m', Simd.Api.Maximum s in1 in2 out w h m = .ok () m' ∧ Maximum in1 in2 out w h m = .ok () m' ∧
      WritesRoi m m' out w h fun x y c => specMax (in1.get m x y c) (in2.get m x y c) := by
  rw [Simd.Api.Maximum, Simd.binaryOf_eq (covers hp)]
  exact C51_maximum s.kind r

theorem C148_minimum {p : Platform} {s : Setup} (hp : buildOf p = some s.build) {m : BMem} {in1 in2 out : View} {w h : Nat}
    (r : Ready2 m in1 in2 out w h) :
    ∃ m', Simd.Api.Minimum s in1 in2 out w h m = .ok () m' ∧ Minimum in1 in2 out w h m = .ok () m' ∧
      WritesRoi m m' out w h fun x y c => specMin (in1.get m x y c) (in2.get m x y c) := by
  rw [Simd.Api.Minimum, Simd.binaryOf_eq (covers hp)]
  exact C51_minimum s.kind r

/-- As in C12 and C51: without the guard the scalar function is wrong. -/
theorem C148_subtract_partial {p : Platform} {s : Setup} (hp : buildOf p = some s.build) {m : BMem} {in1 in2 out : View} {w h : Nat}
    (r : Ready2 m in1 in2 out w h) (hg : SubtractGuard in1 in2 out w h) :
    ∃ m', Simd.Api.Subtract s in1 in2 out w h m = .ok () m' ∧ Subtract in1 in2 out w h m = .ok () m' ∧
      WritesRoi m m' out w h fun x y c => specSub (in1.get m x y c) (in2.get m x y c) := by
  rw [Simd.Api.Subtract, Simd.binaryOf_eq (covers hp)]
  exact C51_subtract_partial s.kind r hg

theorem C148_binary_rejects {p : Platform} {s : Setup} (hp : buildOf p = some s.build) {m : BMem} {in1 in2 out : View} {w h : Nat}
    (hb : Bad [in1, in2, out] w h (SameColors2 in1 in2 out)) :
    Simd.Api.AbsoluteDifference s in1 in2 out w h m = .throw m ∧ Simd.Api.BitwiseAnd s in1 in2 out w h m = .throw m ∧
    Simd.Api.BitwiseOr s in1 in2 out w h m = .throw m ∧ Simd.Api.BitwiseXor s in1 in2 out w h m = .throw m ∧
    Simd.Api.Maximum s in1 in2 out w h m = .throw m ∧ Simd.Api.Minimum s in1 in2 out w h m = .throw m ∧
    Simd.Api.Subtract s in1 in2 out w h m = .throw m := by
  rw [Simd.Api.AbsoluteDifference, Simd.Api.BitwiseAnd, Simd.Api.BitwiseOr, Simd.Api.BitwiseXor, Simd.Api.Maximum, Simd.Api.Minimum,
    Simd.Api.Subtract, Simd.binaryOf_eq (covers hp), Simd.binaryOf_eq (covers hp), Simd.binaryOf_eq (covers hp), Simd.binaryOf_eq (covers hp),
    Simd.binaryOf_eq (covers hp), Simd.binaryOf_eq (covers hp), Simd.binaryOf_eq (covers hp)]
  exact C51_binary_rejects s.kind hb

theorem C148_invert {p : Platform} {s : Setup} (hp : buildOf p = some s.build) {m : BMem} {inp out : View} {w h : Nat}
    (r : Ready1 m inp out w h) :
    ∃ m', Simd.Api.Invert s inp out w h m = .ok () m' ∧ Invert inp out w h m = .ok () m' ∧
      WritesRoi m m' out w h fun x y c => UInt8.ofNat (255 - (inp.get m x y c).toNat) := by
  rw [Simd.Api.Invert, Simd.invertOf_eq (covers hp)]
  exact C51_invert s.kind r

theorem C148_invert_rejects {p : Platform} {s : Setup} (hp : buildOf p = some s.build) {m : BMem} {inp out : View} {w h : Nat}
    (hb : Bad [inp, out] w h (out.img.cc = inp.img.cc)) : Simd.Api.Invert s inp out w h m = .throw m := by
  rw [Simd.Api.Invert, Simd.invertOf_eq (covers hp)]
  exact C51_invert_rejects s.kind hb

theorem C148_threshold {p : Platform} {s : Setup} (hp : buildOf p = some s.build) {m : BMem} {inp out : View} {w h : Nat} (t : UInt8)
    (r : Ready1 m inp out w h) (g : inp.img.cc = 1) :
    ∃ m', Simd.Api.Threshold s inp out w h t m = .ok () m' ∧ Threshold inp out w h t m = .ok () m' ∧
      WritesRoi m m' out w h fun x y c => if t.toNat ≤ (inp.get m x y c).toNat then 255 else 0 := by
  rw [Simd.Api.Threshold, Simd.thresholdOf_eq (covers hp)]
  exact C51_threshold s.kind t r g

/-- As in C51: a lower limit above the upper one is refused only by the scalar function. -/
theorem C148_threshold2_partial {p : Platform} {s : Setup} (hp : buildOf p = some s.build) {m : BMem} {inp out : View} {w h : Nat} (lo hi : UInt8)
    (hlh : lo ≤ hi) (r : Ready1 m inp out w h) (g : inp.img.cc = 1) :
    ∃ m', Simd.Api.Threshold2 s inp out w h lo hi m = .ok () m' ∧ Threshold2 inp out w h lo hi m = .ok () m' ∧
      WritesRoi m m' out w h fun x y c =>
        if lo.toNat ≤ (inp.get m x y c).toNat ∧ (inp.get m x y c).toNat ≤ hi.toNat then 255 else 0 := by
  rw [Simd.Api.Threshold2, Simd.threshold2Of_eq (covers hp)]
  exact C51_threshold2_partial s.kind lo hi hlh r g

theorem C148_threshold_rejects {p : Platform} {s : Setup} (hp : buildOf p = some s.build) {m : BMem} {inp out : View} {w h : Nat} (t lo hi : UInt8)
    (hb : Bad [inp, out] w h (Gray1 inp out)) :
    Simd.Api.Threshold s inp out w h t m = .throw m ∧ Simd.Api.Threshold2 s inp out w h lo hi m = .throw m := by
  rw [Simd.Api.Threshold, Simd.Api.Threshold2, Simd.thresholdOf_eq (covers hp), Simd.threshold2Of_eq (covers hp)]
  exact C51_threshold_rejects s.kind t lo hi hb

theorem C148_sum {p : Platform} {s : Setup} (hp : buildOf p = some s.build) {m : BMem} {v : View} {w h : Nat} (o : One m v w h) (cc : v.img.cc = 1) :
    ∃ t, Simd.Api.Sum s v w h m = .ok t m ∧ Sum v w h m = .ok t m ∧ t.toNat = total m v w h % 2 ^ 32 := by
  rw [Simd.Api.Sum, Simd.sumOf_eq (covers hp)]
  exact C51_sum s.kind o cc

theorem C148_sum_rejects {p : Platform} {s : Setup} (hp : buildOf p = some s.build) {m : BMem} {v : View} {w h : Nat} (hb : Bad [v] w h (v.img.cc = 1)) :
    Simd.Api.Sum s v w h m = .throw m := by
  rw [Simd.Api.Sum, Simd.sumOf_eq (covers hp)]
  exact C51_sum_rejects s.kind hb

theorem C148_projection_vertical {p : Platform} {s : Setup} (hp : buildOf p = some s.build) {m : BMem} {v : View} {w h : Nat} (o : One m v w h)
    (vec : List UInt32) :
    ∃ prof, Simd.Api.ProjectionProfile s v w h false (m, vec) = .ok () (m, prof) ∧
      ProjectionProfile v w h false (m, vec) = .ok () (m, prof) ∧ prof.length = h ∧
      ∀ y, y < h → prof[y]? = some (UInt32.ofNat (rowSum m v (w * v.img.cc) y)) := by
  rw [Simd.Api.ProjectionProfile, Simd.profileOf_eq (covers hp)]
  exact C51_projection_vertical s.kind o vec

/-- As in C51: with AVX, AVX-512 and NEON the entries of a wide profile come in a wrong order. -/
theorem C148_projection_horizontal_partial {p : Platform} {s : Setup} (hp : buildOf p = some s.build) {m : BMem} {v : View} {w h : Nat} (o : One m v w h)
    (vec : List UInt32) (hk : s.kind = .sse ∨ s.kind = .cpu ∨ w * v.img.cc < Simd.size s.kind) :
    ∃ prof, Simd.Api.ProjectionProfile s v w h true (m, vec) = .ok () (m, prof) ∧
      ProjectionProfile v w h true (m, vec) = .ok () (m, prof) ∧ prof.length = w * v.img.cc ∧
      ∀ i, i < w * v.img.cc → prof[i]? = some (UInt32.ofNat (columnSum m v h i)) := by
  rw [Simd.Api.ProjectionProfile, Simd.profileOf_eq (covers hp)]
  exact C51_projection_horizontal_partial s.kind o vec hk

theorem C148_projection_rejects {p : Platform} {s : Setup} (hp : buildOf p = some s.build) {m : BMem} {v : View} {w h : Nat} (vec : List UInt32) (hor : Bool)
    (hb : Bad [v] w h True) : Simd.Api.ProjectionProfile s v w h hor (m, vec) = .throw (m, vec) := by
  rw [Simd.Api.ProjectionProfile, Simd.profileOf_eq (covers hp)]
  exact C51_projection_rejects s.kind vec hor hb

/-- As in C51: with AVX and AVX-512 the pixels are added to wrong entries. -/
theorem C148_accumulate_partial {p : Platform} {s : Setup} (hp : buildOf p = some s.build) {m : BMem} {v : View} {w h : Nat} (o : One m v w h)
    (cc : v.img.cc = 1) (vec : List UInt32) (hlen : vec.length = h * w)
    (hk : s.kind = .sse ∨ s.kind = .neon ∨ s.kind = .cpu ∨ (w < Simd.size s.kind ∧ v.img.rowSize ≠ w)) :
    ∃ res, Simd.Api.Accumulate s v w h (m, vec) = .ok () (m, res) ∧
      Accumulate v w h (m, vec) = .ok () (m, res) ∧ res.length = vec.length ∧
      ∀ y x, y < h → x < w →
        res[y * w + x]? = vec[y * w + x]?.map fun a => a + UInt32.ofNat (v.get m x y 0).toNat := by
  rw [Simd.Api.Accumulate, Simd.accumulateOf_eq (covers hp)]
  exact C51_accumulate_partial s.kind o cc vec hlen hk

theorem C148_accumulate_safe {p : Platform} {s : Setup} (hp : buildOf p = some s.build) {m : BMem} {v : View} {w h : Nat} (o : One m v w h)
    (cc : v.img.cc = 1) (vec : List UInt32) (hlen : vec.length = h * w) :
    ∃ res, Simd.Api.Accumulate s v w h (m, vec) = .ok () (m, res) ∧ res.length = vec.length := by
  rw [Simd.Api.Accumulate, Simd.accumulateOf_eq (covers hp)]
  exact C51_accumulate_safe s.kind o cc vec hlen

theorem C148_accumulate_rejects {p : Platform} {s : Setup} (hp : buildOf p = some s.build) {m : BMem} {v : View} {w h : Nat} (vec : List UInt32)
    (hwf : v.Fits w h → v.img.WF m) (cc : v.img.cc = 1) (hb : Bad [v] w h (vec.length = h * (w * v.img.cc))) :
    Simd.Api.Accumulate s v w h (m, vec) = .throw (m, vec) := by
  rw [Simd.Api.Accumulate, Simd.accumulateOf_eq (covers hp)]
  exact C51_accumulate_rejects s.kind vec hwf cc hb

/-- As in C52: on x86 a register's pixels come in a wrong order. -/
theorem C148_to16_partial {p : Platform} {s : Setup} (hp : buildOf p = some s.build) {src : BMem} {m : Mem UInt16} {inp out : View} {w h : Nat}
    (c : Cross src m inp out w h) (hk : s.kind = .neon ∨ s.kind = .cpu ∨ w < Simd.size s.kind) :
    ∃ m', Simd.Api.ConvertTo16Bit s src inp out w h m = .ok () m' ∧ ConvertTo16Bit src inp out w h m = .ok () m' ∧
      WritesRoi m m' out w h fun x y c =>
        to16 (src.byte inp.img.data ((inp.y + y) * inp.img.rowSize + (inp.x + (x * inp.img.cc + c)))) := by
  rw [Simd.Api.ConvertTo16Bit, Simd.to16Of_eq (covers hp)]
  exact C52_to16_partial s.kind c hk

/-- As in C76: with AVX and AVX-512 a register's pixels come in a wrong order. -/
theorem C148_to8_partial {p : Platform} {s : Setup} (hp : buildOf p = some s.build) {src : Mem UInt16} {m : BMem} {inp out : View} {w h : Nat}
    (c : Cross src m inp out w h) (hk : s.kind = .sse ∨ s.kind = .neon ∨ s.kind = .cpu ∨ w < Simd.size s.kind) :
    ∃ m', Simd.Api.ConvertTo8Bit s src inp out w h m = .ok () m' ∧ ConvertTo8Bit src inp out w h m = .ok () m' ∧
      WritesRoi m m' out w h fun x y c =>
        to8 (src.byte inp.img.data ((inp.y + y) * inp.img.rowSize + (inp.x + (x * inp.img.cc + c)))) := by
  rw [Simd.Api.ConvertTo8Bit, Simd.to8Of_eq (covers hp)]
  exact C76_to8_partial s.kind c hk

theorem C148_conversions_reject {p : Platform} {s : Setup} (hp : buildOf p = some s.build) {src : BMem} {m : Mem UInt16} {src' : Mem UInt16} {m' : BMem}
    {inp out : View} {w h : Nat} (hb : Bad [inp, out] w h (out.img.cc = inp.img.cc)) :
    Simd.Api.ConvertTo16Bit s src inp out w h m = .throw m ∧ Simd.Api.ConvertTo8Bit s src' inp out w h m' = .throw m' := by
  rw [Simd.Api.ConvertTo16Bit, Simd.Api.ConvertTo8Bit, Simd.to16Of_eq (covers hp), Simd.to8Of_eq (covers hp)]
  exact ⟨C52_to16_rejects s.kind hb, C76_to8_rejects s.kind hb⟩

/-- The build uses SSSE3 where it uses SSE or AVX. -/
def WithSsse3 (s : Setup) : Prop := s.kind = .sse ∨ s.kind = .avx → s.build.ssse3 = true

/-- Missing for the full claim: builds with SSE and without SSSE3, where it is false (`C148_ssse3_refused`). -/
theorem C148_convertToRgb_gray_partial {p : Platform} {s : Setup} (hp : buildOf p = some s.build) (h3 : WithSsse3 s) {m : BMem} {inp out : View}
    {w h : Nat} (c : Pair m inp w h out w h) (ci : inp.img.cc = 1) (co : out.img.cc = 3) :
    ∃ m', Simd.Api.ConvertToRgb s inp out w h m = .ok () m' ∧ ConvertToRgb inp out w h m = .ok () m' ∧
      WritesRoi m m' out w h fun x y _ => inp.get m x y 0 := by
  rw [Simd.Api.ConvertToRgb, Simd.rgbOf_eq (covers hp) h3]
  exact C77_convertToRgb_gray s.kind c ci co

/-- Missing for the full claim: as above -/
theorem C148_convertToRgb_rgb_partial {p : Platform} {s : Setup} (hp : buildOf p = some s.build) (h3 : WithSsse3 s) {m : BMem} {inp out : View}
    {w h : Nat} (c : Pair m inp w h out w h) (ci : inp.img.cc = 3) (co : out.img.cc = 3) :
    ∃ m', Simd.Api.ConvertToRgb s inp out w h m = .ok () m' ∧ ConvertToRgb inp out w h m = .ok () m' ∧
      WritesRoi m m' out w h fun x y c => inp.get m x y c := by
  rw [Simd.Api.ConvertToRgb, Simd.rgbOf_eq (covers hp) h3]
  exact C77_convertToRgb_rgb s.kind c ci co

/-- Missing for the full claim: as above -/
theorem C148_flip_partial {p : Platform} {s : Setup} (hp : buildOf p = some s.build) (h3 : WithSsse3 s) {m : BMem} {inp out : View} {w h : Nat}
    (hor ver : Bool) (c : Pair m inp w h out w h) (ci : inp.img.cc = 1) (co : out.img.cc = 1) :
    ∃ m', Simd.Api.Flip s inp out w h hor ver m = .ok () m' ∧ Flip inp out w h hor ver m = .ok () m' ∧
      WritesRoi m m' out w h fun x y c => inp.get m (mirror hor w x) (mirror ver h y) c := by
  rw [Simd.Api.Flip, Simd.flipOf_eq (covers hp) h3]
  exact C77_flip s.kind hor ver c ci co

/-- Missing for the full claim: as above, and overlapping rectangles as in C77 -/
theorem C148_rgbToBgr_partial {p : Platform} {s : Setup} (hp : buildOf p = some s.build) (h3 : WithSsse3 s) {m : BMem} {inp out : View} {w h : Nat}
    (c : Pair m inp w h out w h) (ci : inp.img.cc = 3) (co : out.img.cc = 3) :
    ∃ m', Simd.Api.RgbToBgr s inp out w h m = .ok () m' ∧ RgbToBgr inp out w h m = .ok () m' ∧
      WritesRoi m m' out w h fun x y c => inp.get m x y (2 - c) := by
  rw [Simd.Api.RgbToBgr, Simd.bgrOf_eq (covers hp) h3]
  exact C77_rgbToBgr_partial s.kind c ci co

/-- Calls which have to be refused are refused, with and without SSSE3. -/
theorem C148_moves_reject {s : Setup} {m : BMem} {inp out : View} {w h : Nat} :
    (Bad [inp, out] w h (out.img.cc = 3) → Simd.Api.ConvertToRgb s inp out w h m = .throw m) ∧
    (Bad [inp, out] w h (Gray1 inp out) → ∀ hor ver, Simd.Api.Flip s inp out w h hor ver m = .throw m) ∧
    (Bad [inp, out] w h (inp.img.cc = 3 ∧ out.img.cc = 3) → Simd.Api.RgbToBgr s inp out w h m = .throw m) := by
  have hn : ∀ (b : Build) (k : Kind) (x y : M BMem Unit), (k = .avx → x m = .throw m) → y m = .throw m →
      Simd.narrow b k x y m = .throw m := by
    intro b k x y h1 h2
    rw [Simd.narrow]
    by_cases h3 : (b.avx && decide (k = .avx)) = true
    · rw [if_pos h3]
      simp at h3
      exact h1 h3.2
    · rw [if_neg h3, h2]
  refine ⟨fun hb => ?_, fun hb hor ver => ?_, fun hb => ?_⟩
  · have step : ∀ x k, (k = .avx → x m = .throw m) → Simd.rgbStep s.build x k inp out w h m = .throw m := by
      intro x k hx
      rw [Simd.rgbStep]
      split
      · exact hn _ _ _ _ hx (C22_rejects.1 hb)
      · refine rois_bad_then hb fun hc => ?_
        rw [bind_throw (rgb_throw ⟨out.img, by simp, hc⟩)]
    exact step _ _ fun _ => step _ _ nofun
  · have step : ∀ x k, (k = .avx → x m = .throw m) → Simd.flipStep s.build x k inp out w h hor ver m = .throw m := by
      intro x k hx
      rw [Simd.flipStep]
      split
      · exact hn _ _ _ _ hx (C18_flip_rejects hor ver hb)
      · rw [grayPrologue_bad hb]
    exact step _ _ fun _ => step _ _ nofun
  · have step : ∀ x k, (k = .avx → x m = .throw m) → Simd.bgrStep s.build x k inp out w h m = .throw m := by
      intro x k hx
      rw [Simd.bgrStep]
      split
      · exact hn _ _ _ _ hx (C21_rgbToBgr_rejects hb)
      · refine rois_bad_then hb fun hc => ?_
        rw [bind_throw (rgb_throw ?_)]
        by_cases h1 : inp.img.cc = 3
        · exact ⟨out.img, by simp, fun h2 => hc ⟨h1, h2⟩⟩
        · exact ⟨inp.img, by simp, h1⟩
    exact step _ _ fun _ => step _ _ nofun

/-- What happens in builds without SSSE3 (gcc and clang for x86-64 without options): rectangles at least one register wide are refused. -/
theorem C148_ssse3_refused {s : Setup} (hk : s.kind = .sse) (h3 : s.build.ssse3 = false) {m : BMem} {inp out : View} {w h : Nat}
    (c : Pair m inp w h out w h) :
    (16 ≤ w → inp.img.cc = 1 → out.img.cc = 3 → Simd.Api.ConvertToRgb s inp out w h m = .throw m) ∧
    (16 ≤ w → inp.img.cc = 1 → out.img.cc = 1 → ∀ ver, Simd.Api.Flip s inp out w h true ver m = .throw m) ∧
    (16 ≤ w * 3 → inp.img.cc = 3 → out.img.cc = 3 → Simd.Api.RgbToBgr s inp out w h m = .throw m) := by
  have hm : s.build.hasMove .sse = false := by simp [Build.hasMove, h3]
  refine ⟨fun hw ci co => ?_, fun hw ci co ver => ?_, fun hw ci co => ?_⟩
  · rw [Simd.Api.ConvertToRgb, Simd.rgbOf, hk, Simd.rgbStep, if_neg (by simp [Simd.moveSize, Simd.size]; omega), c.validate,
      bind_ok (rgb_ok (by simp [co]))]
    simp [ci, Simd.code, hm, throwE]
  · rw [Simd.Api.Flip, Simd.flipOf, hk, Simd.flipStep, if_neg (by simp [Simd.moveSize, Simd.size]; omega), c.validate,
      bind_ok (gray_ok (by simp [ci, co]))]
    simp [Simd.code, hm, throwE]
  · obtain ⟨_, _, _, _, _, _, _, _, hwcc, _⟩ := View.facts c.wfo c.fito
    rw [co] at hwcc
    rw [Simd.Api.RgbToBgr, Simd.bgrOf, hk, Simd.bgrStep, if_neg (by rw [u32_of_lt hwcc]; simp [Simd.moveSize, Simd.size]; omega), c.validate,
      bind_ok (rgb_ok (by simp [ci, co]))]
    simp [Simd.code, hm, throwE]

/-- C148 is false for gcc without options on an ordinary processor: mirroring 17 pixels throws, the scalar function does not. -/
theorem C148_ssse3_wrong :
    buildOf gccPlain = some ⟨false, true, false, false, false⟩ ∧ Setup.kind ⟨⟨false, true, false, false, false⟩, haswell.cpu, []⟩ = .sse ∧
      Pair simdMem (wide 1) 17 2 (wide 2) 17 2 ∧
      Simd.Api.Flip ⟨⟨false, true, false, false, false⟩, haswell.cpu, []⟩ (wide 1) (wide 2) 17 2 true false simdMem = .throw simdMem ∧
      ∃ m', Flip (wide 1) (wide 2) 17 2 true false simdMem = .ok () m' := by
  obtain ⟨m', _, h2, _⟩ := C77_flip .cpu true false pair_wide rfl rfl
  exact ⟨by decide, by decide, pair_wide, (C148_ssse3_refused (s := ⟨⟨false, true, false, false, false⟩, haswell.cpu, []⟩) (by decide) rfl pair_wide).2.1 (by decide) rfl rfl false, m', h2⟩

/-- The setups of the examples -/
def onHaswell : Setup := ⟨⟨false, true, true, true, true⟩, haswell.cpu, [.avx512 false]⟩
theorem built_onHaswell : buildOf msvc2017 = some onHaswell.build := by decide

example : onHaswell.kind = .avx := by decide
example : WithSsse3 onHaswell := fun _ => rfl
example : ∃ m', Simd.Api.AbsoluteDifference onHaswell (wide 1) (wide 2) (wide 3) 17 2 simdMem = .ok () m' :=
  (C148_absoluteDifference built_onHaswell ready2_wide).imp fun _ h => h.1
example : after (Simd.Api.Flip onHaswell (wide 1) (wide 2) 17 2 true false simdMem) 2 0 = some 213 := by decide +kernel
example : ∃ m', Simd.Api.RgbToBgr onHaswell (strip3 1) (strip3 2) 19 1 simdMem = .ok () m' :=
  (C148_rgbToBgr_partial built_onHaswell (fun _ => rfl) pair_strip3 rfl rfl).imp fun _ h => h.1
example : ∃ m', Simd.Api.ConvertTo16Bit ⟨⟨true, false, false, false, false⟩, ⟨fun _ _ => 0, true⟩, []⟩ simdMem (strip 1) (strip 1) 64 1 wide16 = .ok () m' :=
  (C148_to16_partial (p := gccArm) (by decide) cross_strip16 (Or.inl rfl)).imp fun _ h => h.1

end PV.Props
