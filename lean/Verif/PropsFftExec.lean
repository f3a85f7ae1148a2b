import Verif.FftExecLemmas
/-
  C146: executors of Fourier transforms and their plans, on the host and on CUDA devices.
-/
namespace PV.Props
open PV PV.FftExec

/-- What a user knows of an executor: width, height, and whether the direct and the inverse transform can be used. -/
structure ExecView where
  width : Nat
  height : Nat
  direct : Bool
  inverse : Bool
deriving DecidableEq

/-- The executors of a program; an executor can transform if its plan exists. -/
def execView (kind : Kind) (w : World) (i : Nat) : Option ExecView :=
  (w.execs i).map fun o => ⟨o.width, o.height, o.plan false != 0, o.plan (decide (kind = .cpu)) != 0⟩

def noExecs : World := ⟨fun _ => none, fun _ => none, 1⟩

/-- Operations of correct programs: constructors where there is no executor, everything else on executors which exist; no copies. -/
def LegalE (s : Nat → Option ExecView) : FftExec.Op → Prop
  | .new i _ _ => s i = none
  | .initialise i _ _ => s i ≠ none
  | .copy _ _ => False
  | .destroy i => s i ≠ none
  | .transform i _ _ _ => s i ≠ none

def putE (s : Nat → Option ExecView) (i : Nat) (x : Option ExecView) : Nat → Option ExecView := fun k => if k = i then x else s k

/-- The plans which can be made -/
def canDirect (e : Env) : Bool := e.make false
def canInverse (kind : Kind) (e : Env) : Bool := e.make (decide (kind = .cpu))

/-- The result of an operation and the executors afterwards. `none`: it threw; `some x`: it returned, and x is what the library was told to do. -/
def AfterE (kind : Kind) (e : Env) (s s' : Nat → Option ExecView) : FftExec.Op → Option (Option (Nat × Nat × Bool)) → Prop
  | .new i a b, r =>
    if a = 0 ∨ b = 0 ∨ (kind = .cuda ∧ e.make false = false) then r = none ∧ s' = s
    else r = some none ∧ s' = putE s i (some ⟨a, b, canDirect e, canInverse kind e⟩)
  | .initialise i a b, r =>
    if a = 0 ∨ b = 0 then r = none ∧ s' = s
    else s' = putE s i (some ⟨a, b, canDirect e, canInverse kind e⟩) ∧ r = if kind = .cuda ∧ e.make false = false then none else some none
  | .copy _ _, _ => False
  | .destroy i, r => r = some none ∧ s' = putE s i none
  | .transform i inv a b, r => s' = s ∧ ∃ v, s i = some v ∧
      r = if (if inv then v.inverse else v.direct) = true ∧ a = (v.width, v.height) ∧ b = a ∧ (kind = .cuda → e.run = true)
        then some (some (v.width, v.height, inv)) else none

inductive ReachE (kind : Kind) : World → Prop where
  | start : ReachE kind noExecs
  | next {w : World} {e : Env} {op : FftExec.Op} {w' : World} : ReachE kind w → LegalE (execView kind w) op →
      ((∃ x, FftExec.step kind e op w = .ok x w') ∨ FftExec.step kind e op w = .throw w') → ReachE kind w'

theorem noExecs_inv (kind : Kind) : FftExec.Inv kind noExecs := ⟨by decide, nofun, nofun, nofun, nofun⟩

theorem execView_alive {kind : Kind} {w : World} {i : Nat} (h : execView kind w i ≠ none) : ∃ o, w.execs i = some o := by
  cases ho : w.execs i with
  | none => exact absurd (by rw [execView, ho]; rfl) h
  | some o => exact ⟨o, rfl⟩

theorem execView_put {kind : Kind} {w w' : World} {i : Nat} {x : Option FftExec.Exec} (hx : w'.execs i = x) (ho : ∀ j, j ≠ i → w'.execs j = w.execs j) :
    execView kind w' = putE (execView kind w) i (x.map fun o => ⟨o.width, o.height, o.plan false != 0, o.plan (decide (kind = .cpu)) != 0⟩) := by
  funext j
  rw [putE]
  by_cases hj : j = i
  · rw [if_pos hj, hj, execView, hx]
  · rw [if_neg hj, execView, execView, ho j hj]

theorem init_view {kind : Kind} {e : Env} {w w' : World} {i a b : Nat} {r : Bool} (h : Initialised kind e w w' i a b r) :
    execView kind w' = putE (execView kind w) i (some ⟨a, b, canDirect e, canInverse kind e⟩) := by
  obtain ⟨o, c, h1, h2, h3, h4⟩ := h.changed
  rw [execView_put c.is c.other, Option.map_some, h1, h2]
  have e1 : (o.plan false != 0) = canDirect e := by
    rw [canDirect]
    cases he : e.make false with
    | true => simpa using h3.mpr he
    | false =>
      have : o.plan false = 0 := Decidable.byContradiction fun hc => by rw [h3.mp hc] at he; cases he
      simpa using this
  have e2 : (o.plan (decide (kind = .cpu)) != 0) = canInverse kind e := by
    cases kind with
    | cuda => exact e1
    | cpu =>
      show (o.plan true != 0) = e.make true
      cases he : e.make true with
      | true => simpa using (h4 rfl).mpr he
      | false =>
        have : o.plan true = 0 := Decidable.byContradiction fun hc => by rw [(h4 rfl).mp hc] at he; cases he
        simpa using this
  rw [e1, e2]

/-- How an operation ends -/
def endOf {β : Type} : Res World β → Option (Option β × World)
  | .ok x w => some (some x, w)
  | .throw w => some (none, w)
  | .ub => none

theorem exec_step {kind : Kind} {w : World} (hi : FftExec.Inv kind w) (e : Env) (op : FftExec.Op) (hl : LegalE (execView kind w) op) :
    ∃ r w', endOf (FftExec.step kind e op w) = some (r, w') ∧ FftExec.Inv kind w' ∧ AfterE kind e (execView kind w) (execView kind w') op r := by
  cases op with
  | new i a b =>
    have hn : w.execs i = none := by
      cases ho : w.execs i with
      | none => rfl
      | some o =>
        have : execView kind w i = none := hl
        rw [execView, ho] at this
        cases this
    have hadd := hi.add hn
    obtain ⟨w0, hw0⟩ : ∃ w0 : World, w0 = { w with execs := upd w.execs i (some ⟨fun _ => 0, 0, 0⟩) } := ⟨_, rfl⟩
    rw [← hw0] at hadd
    have h0 : w0.execs i = some ⟨fun _ => 0, 0, 0⟩ := by rw [hw0]; exact upd_same _ _ _
    have ho0 : ∀ j, j ≠ i → w0.execs j = w.execs j := fun j hj => by rw [hw0]; exact upd_other _ _ hj
    have hback : ∀ w' : World, (∀ j, j ≠ i → w'.execs j = w0.execs j) → execView kind { w' with execs := upd w'.execs i none } = execView kind w := by
      intro w' ho
      funext j
      rw [execView, execView]
      by_cases hj : j = i
      · rw [hj, hn]
        show Option.map _ (upd _ _ _ _) = _
        rw [upd_same]
      · show Option.map _ (upd _ _ _ _) = _
        rw [upd_other _ _ hj, ho j hj, ho0 j hj]
    by_cases hz : a = 0 ∨ b = 0
    · refine ⟨none, { w0 with execs := upd w0.execs i none }, ?_, hadd.drop fun o ho => ?_, ?_⟩
      · have ht : (a == 0 || b == 0) = true := by simpa using hz
        have : initialise kind e i a b w0 = .throw w0 := by
          rw [initialise, ht]
          rfl
        have hc : construct kind e i a b w = .throw { w0 with execs := upd w0.execs i none } := by
          rw [construct, hn]
          dsimp only
          rw [← hw0, this]
        show endOf ((construct kind e i a b >>= fun _ => pure none) w) = _
        rw [bind_throw hc]
        rfl
      · rw [h0] at ho
        cases ho
        exact fun _ => rfl
      · rw [hback w0 fun _ _ => rfl]
        show if _ then _ else _
        rw [if_pos (by rcases hz with h | h <;> simp [h])]
        exact ⟨rfl, rfl⟩
    · obtain ⟨hza, hzb⟩ := not_or.mp hz
      obtain ⟨r, w', h⟩ := initialise_ok hadd e h0 hza hzb
      obtain ⟨o, c, -⟩ := h.changed
      cases r with
      | true =>
        refine ⟨some none, w', ?_, c.inv, ?_⟩
        · have hc : construct kind e i a b w = .ok () w' := by
            rw [construct, hn]
            dsimp only
            rw [← hw0, h.ends]
            rfl
          show endOf ((construct kind e i a b >>= fun _ => pure none) w) = _
          rw [bind_ok hc]
          rfl
        · show if _ then _ else _
          rw [if_neg (by
            rintro (h1 | h1 | ⟨h1, h2⟩)
            · exact hza h1
            · exact hzb h1
            · rw [h.returned rfl h1] at h2
              cases h2)]
          refine ⟨rfl, ?_⟩
          rw [init_view h]
          funext j
          rw [putE, putE]
          by_cases hj : j = i
          · rw [if_pos hj, if_pos hj]
          · rw [if_neg hj, if_neg hj, execView, execView, ho0 j hj]
      | false =>
        obtain ⟨h1, h2⟩ := h.thrown rfl
        refine ⟨none, { w' with execs := upd w'.execs i none }, ?_, c.inv.drop ?_, ?_⟩
        · have hc : construct kind e i a b w = .throw { w' with execs := upd w'.execs i none } := by
            rw [construct, hn]
            dsimp only
            rw [← hw0, h.ends]
            rfl
          show endOf ((construct kind e i a b >>= fun _ => pure none) w) = _
          rw [bind_throw hc]
          rfl
        · intro o' ho' k
          obtain ⟨o2, c2, -, -, h5, -⟩ := h.changed
          rw [c2.is] at ho'
          obtain rfl := Option.some.inj ho'
          cases k with
          | false => exact Decidable.byContradiction fun hc => by rw [h5.mp hc] at h2; cases h2
          | true => exact c2.inv.one h1 i o2 c2.is
        · rw [hback w' c.other]
          show if _ then _ else _
          rw [if_pos (.inr (.inr ⟨h1, h2⟩))]
          exact ⟨rfl, rfl⟩
  | initialise i a b =>
    obtain ⟨o, ho⟩ := execView_alive (kind := kind) hl
    by_cases hz : a = 0 ∨ b = 0
    · refine ⟨none, w, ?_, hi, ?_⟩
      · have ht : (a == 0 || b == 0) = true := by simpa using hz
        have : FftExec.initialise kind e i a b w = .throw w := by
          rw [FftExec.initialise, ht]
          rfl
        show endOf ((FftExec.initialise kind e i a b >>= fun _ => pure none) w) = _
        rw [bind_throw this]
        rfl
      · show if _ then _ else _
        rw [if_pos hz]
        exact ⟨rfl, rfl⟩
    · obtain ⟨hza, hzb⟩ := not_or.mp hz
      obtain ⟨r, w', h⟩ := initialise_ok hi e ho hza hzb
      obtain ⟨o2, c, -⟩ := h.changed
      refine ⟨if r then some none else none, w', ?_, c.inv, ?_⟩
      · show endOf ((FftExec.initialise kind e i a b >>= fun _ => pure none) w) = _
        cases r with
        | true => rw [bind_ok h.ends]; rfl
        | false => rw [bind_throw h.ends]; rfl
      · show if _ then _ else _
        rw [if_neg hz]
        refine ⟨init_view h, ?_⟩
        cases r with
        | true =>
          rw [if_neg (fun hc : kind = .cuda ∧ e.make false = false => by
            rw [h.returned rfl hc.1] at hc
            exact absurd hc.2 (by simp))]
          rfl
        | false => rw [if_pos (h.thrown rfl)]; rfl
  | copy i j => exact hl.elim
  | destroy i =>
    obtain ⟨o, ho⟩ := execView_alive (kind := kind) hl
    obtain ⟨w', h, c⟩ := clean_ok hi ho
    refine ⟨some none, { w' with execs := upd w'.execs i none }, ?_, c.inv.drop fun o' ho' => ?_, rfl, ?_⟩
    · have : FftExec.destroy i w = .ok () { w' with execs := upd w'.execs i none } := by
        exact (bind_ok h).trans rfl
      show endOf ((FftExec.destroy i >>= fun _ => pure none) w) = _
      rw [bind_ok this]
      rfl
    · rw [c.is] at ho'
      cases ho'
      exact fun _ => rfl
    · exact execView_put (x := none) (upd_same _ _ _) fun j hj => by show upd _ _ _ _ = _; rw [upd_other _ _ hj, c.other j hj]
  | transform i inv a b =>
    obtain ⟨o, ho⟩ := execView_alive (kind := kind) hl
    have hv : execView kind w i = some ⟨o.width, o.height, o.plan false != 0, o.plan (decide (kind = .cpu)) != 0⟩ := by
      rw [execView, ho]
      rfl
    obtain ⟨k, hk⟩ : ∃ k, k = (inv && decide (kind = .cpu)) := ⟨_, rfl⟩
    have hsel : (if inv then o.plan (decide (kind = .cpu)) != 0 else o.plan false != 0) = (o.plan k != 0) := by
      rw [hk]
      cases inv <;> rfl
    have run : FftExec.step kind e (.transform i inv a b) w =
        if o.plan k ≠ 0 ∧ a = (o.width, o.height) ∧ b = a ∧ (kind = .cuda → e.run = true) then .ok (some (o.width, o.height, inv)) w else .throw w := by
      show (FftExec.transform kind e i inv a b >>= fun r => pure (some r)) w = _
      have hT : FftExec.transform kind e i inv a b w =
          if o.plan k ≠ 0 ∧ a = (o.width, o.height) ∧ b = a ∧ (kind = .cuda → e.run = true) then .ok (o.width, o.height, inv) w else .throw w := by
        rw [FftExec.transform, bind_ok (exec_ok ho), ← hk]
        obtain ⟨a1, a2⟩ := a
        obtain ⟨b1, b2⟩ := b
        by_cases h1 : o.plan k ≠ 0 ∧ (a1, a2) = (o.width, o.height) ∧ (b1, b2) = (a1, a2)
        · obtain ⟨h2, h3, h4⟩ := h1
          cases h3
          cases h4
          have hc : (o.plan k == 0 || !(o.width == o.width && o.height == o.height) || !(o.width == o.width && o.height == o.height)) = false := by
            simpa using h2
          rw [hc, throwIf_false, pure_bind']
          have hp : planOf (o.plan k) w = .ok (expect kind o k) w := by
            rw [planOf, hi.live i o k ho h2]
          refine (bind_ok hp).trans ?_
          by_cases hr : kind = .cuda → e.run = true
          · rw [if_pos ⟨h2, rfl, rfl, hr⟩]
            have : (decide (kind = .cuda) && !e.run) = false := by
              cases kind with
              | cpu => rfl
              | cuda => rw [hr rfl]; rfl
            rw [this, throwIf_false, pure_bind', expect]
            cases kind with
            | cuda => rfl
            | cpu =>
              have : k = inv := by rw [hk]; simp
              rw [this]
              rfl
          · rw [if_neg fun h => hr h.2.2.2]
            have : (decide (kind = .cuda) && !e.run) = true := by
              cases kind with
              | cpu => exact absurd nofun hr
              | cuda =>
                cases he : e.run with
                | true => exact absurd (fun _ => he) hr
                | false => rfl
            rw [this]
            rfl
        · rw [if_neg fun h => h1 ⟨h.1, h.2.1, h.2.2.1⟩]
          have hc : (o.plan k == 0 || !(o.width == a1 && o.height == a2) || !(a1 == b1 && a2 == b2)) = true := by
            cases hh : (o.plan k == 0 || !(o.width == a1 && o.height == a2) || !(a1 == b1 && a2 == b2)) with
            | true => rfl
            | false =>
              simp at hh
              exact absurd ⟨hh.1.1, by rw [hh.1.2.1, hh.1.2.2], by rw [hh.2.1, hh.2.2]⟩ h1
          rw [hc]
          rfl
      by_cases hc : o.plan k ≠ 0 ∧ a = (o.width, o.height) ∧ b = a ∧ (kind = .cuda → e.run = true)
      · rw [if_pos hc] at hT ⊢
        rw [bind_ok hT]
        rfl
      · rw [if_neg hc] at hT ⊢
        rw [bind_throw hT]
    refine ⟨if o.plan k ≠ 0 ∧ a = (o.width, o.height) ∧ b = a ∧ (kind = .cuda → e.run = true) then some (some (o.width, o.height, inv)) else none, w, ?_, hi, rfl, _, hv, ?_⟩
    · rw [run]
      by_cases hc : o.plan k ≠ 0 ∧ a = (o.width, o.height) ∧ b = a ∧ (kind = .cuda → e.run = true)
      · rw [if_pos hc, if_pos hc]
        rfl
      · rw [if_neg hc, if_neg hc]
        rfl
    · dsimp only
      rw [hsel]
      by_cases hp : o.plan k = 0
      · rw [if_neg (fun h => h.1 hp), if_neg (fun h => by rw [hp] at h; exact absurd h.1 (by decide))]
      · have : (o.plan k != 0) = true := by simpa using hp
        by_cases hc : a = (o.width, o.height) ∧ b = a ∧ (kind = .cuda → e.run = true)
        · rw [if_pos ⟨hp, hc⟩, if_pos ⟨this, hc⟩]
        · rw [if_neg fun h => hc h.2, if_neg fun h => hc h.2]

theorem ReachE.inv {kind : Kind} {w : World} (h : ReachE kind w) : FftExec.Inv kind w := by
  induction h with
  | start => exact noExecs_inv kind
  | next hr hl hs ih =>
    rename_i w e op w'
    obtain ⟨r, w2, h1, h2, _⟩ := exec_step ih e op hl
    rcases hs with ⟨x, hs⟩ | hs
    · rw [hs] at h1
      cases h1
      exact h2
    · rw [hs] at h1
      cases h1
      exact h2

/-- **C146** (partial) Executors of Fourier transforms, on the host and on CUDA devices: whatever was done before and whatever plans could not be
made, an operation returns or throws, and all executors are afterwards as `AfterE` says; in particular a transform tells the library the size of
the executor, the data and the direction asked for, or throws if the data have another size or there is no plan.
Missing: copies of executors; false, see `C146_copy_wrong`. -/
theorem C146_executors_partial {kind : Kind} {w : World} (h : ReachE kind w) (e : Env) (op : FftExec.Op) (hl : LegalE (execView kind w) op) :
    ∃ r w', endOf (FftExec.step kind e op w) = some (r, w') ∧ ReachE kind w' ∧ AfterE kind e (execView kind w) (execView kind w') op r := by
  obtain ⟨r, w', h1, _, h3⟩ := exec_step h.inv e op hl
  refine ⟨r, w', h1, h.next (e := e) (op := op) hl ?_, h3⟩
  cases hs : FftExec.step kind e op w with
  | ok x w2 => rw [hs] at h1; cases h1; exact .inl ⟨x, rfl⟩
  | throw w2 => rw [hs] at h1; cases h1; exact .inr rfl
  | ub => rw [hs] at h1; cases h1

/-- All plans are released with the last executor. -/
theorem C146_no_leak {kind : Kind} {w : World} (h : ReachE kind w) (hn : ∀ i, execView kind w i = none) : ∀ p, w.plans p = none := by
  intro p
  cases hp : w.plans p with
  | none => rfl
  | some q =>
    obtain ⟨_, _, i, o, k, ho, _⟩ := h.inv.owned p q hp
    have := hn i
    rw [execView, ho] at this
    cases this

/-- A copy is an executor of the same size with the same abilities, and all others stay. (It may be used, but see `C146_copy_wrong` for its end.) -/
theorem C146_copy {kind : Kind} {w : World} {i j : Nat} (e : Env) (hi : execView kind w i = none) (hj : execView kind w j ≠ none) :
    ∃ w', FftExec.step kind e (.copy i j) w = .ok none w' ∧ execView kind w' = putE (execView kind w) i (execView kind w j) := by
  obtain ⟨o, ho⟩ := execView_alive hj
  have hn : w.execs i = none := by
    cases h : w.execs i with
    | none => rfl
    | some o => rw [execView, h] at hi; cases hi
  refine ⟨{ w with execs := upd w.execs i (some o) }, ?_, ?_⟩
  · refine (bind_ok (show copyExec i j w = .ok () _ from ?_)).trans rfl
    rw [copyExec, hn, ho]
  · funext k
    by_cases h : k = i
    · subst h
      simp [execView, putE, upd, ho]
    · simp [execView, putE, upd, h]

/-- A program; exceptions are caught. What each operation gave and what there is afterwards; `none` is undefined behaviour. -/
def runE (kind : Kind) : List (Env × FftExec.Op) → World → Option (List (Option (Option (Nat × Nat × Bool))) × World)
  | [], w => some ([], w)
  | (e, op) :: l, w =>
    match endOf (FftExec.step kind e op w) with
    | some (r, w') => (runE kind l w').map fun q => (r :: q.1, q.2)
    | none => none

def goodE : Env := ⟨fun _ => true, true⟩
def noPlanE : Env := ⟨fun _ => false, true⟩

example : (runE .cpu [(goodE, .new 0 4 2), (goodE, .transform 0 true (4, 2) (4, 2)), (goodE, .transform 0 false (2, 4) (2, 4)),
    (goodE, .initialise 0 3 3), (goodE, .transform 0 false (3, 3) (3, 3)), (goodE, .destroy 0)] noExecs).map (fun r => r.1)
    = some [some none, some (some (4, 2, true)), none, some none, some (some (3, 3, false)), some none] := rfl

example : LegalE (execView .cuda noExecs) (.new 3 4 2) := rfl

/-- **C146 is wrong for copies of executors**, on the host and on the device: both destructors release the same plans. -/
theorem C146_copy_wrong : runE .cpu [(goodE, .new 0 4 2), (goodE, .copy 1 0), (goodE, .destroy 1), (goodE, .destroy 0)] noExecs = none
    ∧ runE .cuda [(goodE, .new 0 4 2), (goodE, .copy 1 0), (goodE, .destroy 1), (goodE, .destroy 0)] noExecs = none
    ∧ runE .cuda [(goodE, .new 0 4 2), (goodE, .copy 1 0), (goodE, .destroy 1), (goodE, .transform 0 false (4, 2) (4, 2))] noExecs = none := ⟨rfl, rfl, rfl⟩

/-- The copy of an executor transforms as the executor does. -/
example : (runE .cpu [(goodE, .new 0 4 2), (goodE, .copy 1 0), (goodE, .transform 1 true (4, 2) (4, 2))] noExecs).map (fun r => r.1)
    = some [some none, some none, some (some (4, 2, true))] := rfl

/-- **The size of an executor does not tell what it can do**: if plans cannot be made it has the new size and all transforms throw, although
the constructor of the host returned. -/
theorem C146_size_wrong : (runE .cpu [(noPlanE, .new 0 4 2), (goodE, .transform 0 false (4, 2) (4, 2))] noExecs).map (fun r => (r.1, execView .cpu r.2 0))
      = some ([some none, none], some ⟨4, 2, false, false⟩)
    ∧ (runE .cuda [(goodE, .new 0 4 2), (noPlanE, .initialise 0 8 8), (goodE, .transform 0 false (8, 8) (8, 8)), (goodE, .transform 0 false (4, 2) (4, 2))] noExecs).map
        (fun r => (r.1, execView .cuda r.2 0)) = some ([some none, none, none, none], some ⟨8, 8, false, false⟩) := ⟨rfl, rfl⟩

end PV.Props
