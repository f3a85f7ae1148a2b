import Verif.ClDeviceLemmas
/-
  Properties of OpenCL devices and their manager: C137, C138, C139, C140, C142.
-/
namespace PV.Props
open PV PV.ClDevice

/-- The devices c of `sup` are supported and none is open; device 0 is the default of every thread. -/
def noCl (sup : List Nat) : Mgr := ⟨sup, [], fun _ => 0, 0, fun _ => none, fun _ => none⟩

/-- What programs with any number of threads can reach with calls allowed by P: exceptions are caught, calls of the OpenCL library may fail. -/
inductive ReachCl (P : Env → Op → Prop) (sup : List Nat) : Mgr → Prop
  | start : ReachCl P sup (noCl sup)
  | ok {s s' : Mgr} {e : Env} {t : Nat} {op : Op} : ReachCl P sup s → P e op → Legal s t op → step e t op s = .ok () s' → ReachCl P sup s'
  | raised {s s' : Mgr} {e : Env} {t : Nat} {op : Op} : ReachCl P sup s → P e op → Legal s t op → step e t op s = .throw s' → ReachCl P sup s'

/-- What `device( id )` shows. -/
def seenCl (s : Mgr) (id : Nat) : Option Dev :=
  match device id s with
  | .ok d _ => some d
  | _ => none

/-- Which devices are open after a call: `good` is whether it returned. -/
def openedCl (op : Op) (good : Bool) (o : Nat → Prop) (k : Nat) : Prop :=
  match op with
  | .init id => if good then k = id ∨ o k else o k
  | .close id => if good then k ≠ id ∧ o k else o k
  | .closeAll => False
  | _ => o k

/-- The calls which may change an open device. -/
def mayChangeCl (op : Op) (k : Nat) : Prop :=
  match op with
  | .close id => k = id
  | .closeAll => True
  | .setCurrent id _ => k = id
  | .setQueues id _ => k = id
  | _ => False

/-- The result of a call: whether it returned, and the state. -/
def YieldsCl (r : Res Mgr Unit) (b : Bool) (s' : Mgr) : Prop := r = if b = true then .ok () s' else .throw s'

theorem yieldsCl_inj {r : Res Mgr Unit} {b b' : Bool} {s s' : Mgr} (h : YieldsCl r b s) (h' : YieldsCl r b' s') : b = b' ∧ s = s' := by
  unfold YieldsCl at h h'
  rw [h] at h'
  cases b <;> cases b' <;> cases h' <;> exact ⟨rfl, rfl⟩

theorem seenCl_eq (s : Mgr) (id : Nat) : seenCl s id = devAt s id := by
  unfold seenCl
  by_cases hl : id < s.supported.length
  · rw [device_at hl]
    cases devAt s id <;> rfl
  · have h1 : s.supported[id]? = none := List.getElem?_eq_none (by omega)
    have h2 : devAt s id = none := by
      unfold devAt
      rw [h1]
      rfl
    rw [h2]
    unfold device
    rw [h1]
    by_cases hd : s.devs = []
    · rw [if_pos hd]
    · rw [if_neg hd]

theorem reachCl_induct {P : Env → Op → Prop} {sup : List Nat} (hs : sup.Nodup) (Q : Mgr → Prop) (h0 : Q (noCl sup))
    (hQ : ∀ s s' e t op b, ClDevice.Inv s → Q s → P e op → Legal s t op → Change s t op b s' → YieldsCl (step e t op s) b s' → Q s') {s : Mgr} (h : ReachCl P sup s) :
    ClDevice.Inv s ∧ Q s := by
  induction h with
  | start => exact ⟨⟨hs, List.nodup_nil, by simp [noCl], by simp [noCl], by simp [noCl], by simp [noCl], fun _ => .inr rfl⟩, h0⟩
  | ok hr hp hc hs ih =>
    obtain ⟨b, s2, h1, h2⟩ := step_change ih.1 _ _ _ hc
    obtain ⟨rfl, rfl⟩ := yieldsCl_inj (b := true) hs h1
    exact ⟨h2.inv ih.1, hQ _ _ _ _ _ _ ih.1 ih.2 hp hc h2 h1⟩
  | raised hr hp hc hs ih =>
    obtain ⟨b, s2, h1, h2⟩ := step_change ih.1 _ _ _ hc
    obtain ⟨rfl, rfl⟩ := yieldsCl_inj (b := false) hs h1
    exact ⟨h2.inv ih.1, hQ _ _ _ _ _ _ ih.1 ih.2 hp hc h2 h1⟩

theorem _root_.PV.ClDevice.Change.supported {s s' : Mgr} {t : Nat} {op : Op} {b : Bool} (c : Change s t op b s') : s'.supported = s.supported := by
  cases c <;> rfl

theorem reachCl_inv {P : Env → Op → Prop} {sup : List Nat} (hs : sup.Nodup) {s : Mgr} (h : ReachCl P sup s) : ClDevice.Inv s ∧ s.supported = sup :=
  reachCl_induct hs (fun s => s.supported = sup) rfl (fun _ _ _ _ _ _ _ hq _ _ c _ => c.supported.trans hq) h

/-- Different indices are different devices. -/
theorem index_inj {l : List Nat} (h : l.Nodup) {i j c : Nat} (hi : l[i]? = some c) (hj : l[j]? = some c) : i = j := by
  exact (List.getElem?_inj (List.getElem?_eq_some_iff.mp hi).1 h).mp (hi.trans hj.symm)

theorem devAt_changed {s : Mgr} (c : Nat) {f : Dev → Dev} (hf : ∀ d, (f d).cl = d.cl) (k : Nat) :
    devAt (changed s c f) k = (devAt s k).map fun d => if d.cl = c then f d else d := by
  unfold devAt
  show s.supported[k]? >>= find (s.devs.map fun d => if d.cl = c then f d else d) = _
  cases hs : s.supported[k]? with
  | none => rfl
  | some x =>
    show find (s.devs.map fun d => if d.cl = c then f d else d) x = (find s.devs x).map _
    rw [find_map hf]
    cases hfd : find s.devs x with
    | none => split <;> rfl
    | some d =>
      have hd := (find_some hfd).2
      show _ = some (if d.cl = c then f d else d)
      rw [hd]
      split <;> rfl

theorem devAt_eq {s : Mgr} {k c : Nat} (h : s.supported[k]? = some c) : devAt s k = find s.devs c := by
  unfold devAt
  rw [h]
  rfl

/-- Which devices are open, and the other devices -/
theorem _root_.PV.ClDevice.Change.open_iff {s s' : Mgr} {t : Nat} {op : Op} {b : Bool} (c : Change s t op b s') (h : ClDevice.Inv s) (k : Nat) :
    ((∃ d, devAt s' k = some d) ↔ openedCl op b (fun j => ∃ d, devAt s j = some d) k)
    ∧ (¬ mayChangeCl op k → ∀ d, devAt s k = some d → devAt s' k = some d) := by
  have chg : ∀ {id : Nat} {d0 : Dev} {f : Dev → Dev}, (∀ d, (f d).cl = d.cl) → devAt s id = some d0 →
      ((∃ d, devAt (changed s d0.cl f) k = some d) ↔ ∃ d, devAt s k = some d) ∧ (k ≠ id → ∀ d, devAt s k = some d → devAt (changed s d0.cl f) k = some d) := by
    intro id d0 f hf h0
    rw [devAt_changed _ hf]
    refine ⟨by cases devAt s k <;> simp, fun hk d hd => ?_⟩
    rw [hd]
    show some (if d.cl = d0.cl then f d else d) = _
    rw [if_neg]
    intro hc
    exact hk (index_inj h.sup (devAt_mem hd).2.1 (hc ▸ (devAt_mem h0).2.1))
  cases c with
  | same h1 h2 h3 h4 =>
    refine ⟨?_, fun _ _ hd => hd⟩
    cases op with
    | init id =>
      cases b with
      | false => exact Iff.rfl
      | true =>
        show _ ↔ (k = id ∨ _)
        constructor
        · exact .inr
        · rintro (rfl | hd)
          · exact Option.ne_none_iff_exists'.mp (h2 k rfl rfl)
          · exact hd
    | close id =>
      rw [h1 id rfl]
      exact Iff.rfl
    | closeAll => exact absurd rfl h3
    | _ => exact Iff.rfl
  | ctx => exact ⟨Iff.rfl, fun _ _ hd => hd⟩
  | init h1 h2 =>
    rename_i id c
    have key : devAt { s with next := s.next + 1, devs := s.devs ++ [⟨c, s.next, 0, 1⟩] } k = if k = id then some ⟨c, s.next, 0, 1⟩ else devAt s k := by
      by_cases hk : k = id
      · rw [if_pos hk, hk, devAt_eq (s := { s with next := s.next + 1, devs := s.devs ++ [⟨c, s.next, 0, 1⟩] }) h1]
        show find (s.devs ++ [_]) c = _
        rw [find_append, h2]
        simp
      · rw [if_neg hk]
        unfold devAt
        show s.supported[k]? >>= find (s.devs ++ [_]) = _
        cases hs : s.supported[k]? with
        | none => rfl
        | some x =>
          show find (s.devs ++ [_]) x = find s.devs x
          rw [find_append, if_neg (fun hc => hk (index_inj h.sup hs (by rw [h1]; exact congrArg some hc)))]
          cases find s.devs x <;> rfl
    constructor
    · show (∃ d, devAt _ k = some d) ↔ (k = id ∨ _)
      rw [key]
      by_cases hk : k = id
      · simp [hk]
      · simp [hk]
    · intro _ d hd
      rw [key, if_neg, hd]
      rintro rfl
      rw [devAt_eq h1, h2] at hd
      cases hd
  | close h1 =>
    rename_i id c
    have key : devAt { s with devs := s.devs.eraseP fun d => d.cl == c } k = if k = id then none else devAt s k := by
      unfold devAt
      show s.supported[k]? >>= find (s.devs.eraseP fun d => d.cl == c) = _
      cases hs : s.supported[k]? with
      | none =>
        split <;> rfl
      | some x =>
        show find (s.devs.eraseP fun d => d.cl == c) x = if k = id then none else find s.devs x
        rw [find_erase _ h.nodup]
        by_cases hk : k = id
        · rw [hk, h1] at hs
          rw [if_pos hk, if_pos (Option.some.inj hs).symm]
        · rw [if_neg hk, if_neg (fun hc => hk (index_inj h.sup hs (by rw [h1, hc])))]
    constructor
    · show (∃ d, devAt _ k = some d) ↔ (k ≠ id ∧ _)
      rw [key]
      by_cases hk : k = id
      · simp [hk]
      · simp [hk]
    · intro hm d hd
      rw [key, if_neg (show ¬ k = id from hm), hd]
  | closeAll =>
    refine ⟨?_, fun hm => absurd trivial hm⟩
    show (∃ d, devAt { s with devs := [] } k = some d) ↔ False
    unfold devAt
    show (∃ d, s.supported[k]? >>= find [] = some d) ↔ False
    cases s.supported[k]? with
    | none => simp
    | some x =>
      show (∃ d, find [] x = some d) ↔ False
      simp [find]
  | active _ => exact ⟨Iff.rfl, fun _ _ hd => hd⟩
  | current h1 _ => exact ⟨(chg (by intro d; rfl) h1).1, fun hm => (chg (by intro d; rfl) h1).2 hm⟩
  | more h1 _ => exact ⟨(chg (by intro d; rfl) h1).1, fun hm => (chg (by intro d; rfl) h1).2 hm⟩
  | less h1 _ => exact ⟨(chg (by intro d; rfl) h1).1, fun hm => (chg (by intro d; rfl) h1).2 hm⟩
  | prog _ _ _ => exact ⟨Iff.rfl, fun _ _ hd => hd⟩
  | memset _ _ => exact ⟨Iff.rfl, fun _ _ hd => hd⟩

/-- The state after a call -/
def stCl {β : Type} : Res Mgr β → Option Mgr
  | .ok _ s => some s
  | .throw s => some s
  | .ub => none

def isUbCl {β : Type} : Res Mgr β → Bool
  | .ub => true
  | _ => false

/-! ## C137 -/

/-- **C137** (partial: legal calls) Whatever threads did before, a call on OpenCL devices and their manager returns or throws; afterwards
exactly the devices are open which were initialised and not closed, and devices not named by the call are as before.
Missing: IDs which are not those of supported devices, work without queues; false, see `C137_out_of_range` and `C137_no_queue_wrong`. -/
theorem C137_device_history_partial {sup : List Nat} (hs : sup.Nodup) {s : Mgr} (h : ReachCl (fun _ _ => True) sup s) (e : Env) (t : Nat) (op : Op) (hc : Legal s t op) :
    ∃ b s', YieldsCl (step e t op s) b s' ∧ ReachCl (fun _ _ => True) sup s'
      ∧ (∀ k, (∃ d, seenCl s' k = some d) ↔ openedCl op b (fun j => ∃ d, seenCl s j = some d) k)
      ∧ (∀ k d, ¬ mayChangeCl op k → seenCl s k = some d → seenCl s' k = some d) := by
  obtain ⟨b, s', h1, h2⟩ := step_change (reachCl_inv hs h).1 e t op hc
  refine ⟨b, s', h1, ?_, fun k => ?_, fun k d hm hd => ?_⟩
  · cases b with
    | true => exact .ok h trivial hc h1
    | false => exact .raised h trivial hc h1
  · simp only [seenCl_eq]
    exact (h2.open_iff (reachCl_inv hs h).1 k).1
  · rw [seenCl_eq] at hd ⊢
    exact (h2.open_iff (reachCl_inv hs h).1 k).2 hm d hd

/-- In every reachable state: `device( id )` gives the device number id, open devices have different contexts or are the same, and the
current queue is one of at most 255 queues. -/
theorem C137_device_state {sup : List Nat} (hs : sup.Nodup) {s : Mgr} (h : ReachCl (fun _ _ => True) sup s) {id : Nat} {d : Dev} (hd : seenCl s id = some d) :
    sup[id]? = some d.cl ∧ (d.cur < d.queues ∨ (d.cur = 0 ∧ d.queues = 0)) ∧ d.queues ≤ 255 ∧ ∀ id' d', seenCl s id' = some d' → d'.cl = d.cl → id' = id ∧ d' = d := by
  obtain ⟨hi, rfl⟩ := reachCl_inv hs h
  rw [seenCl_eq] at hd
  obtain ⟨h1, h2, h3⟩ := devAt_mem hd
  refine ⟨h2, hi.cur d h1, hi.limit d h1, fun id' d' hd' hcl => ?_⟩
  rw [seenCl_eq] at hd'
  obtain ⟨k1, k2, k3⟩ := devAt_mem hd'
  exact ⟨index_inj hi.sup k2 (hcl ▸ h2), nodup_inj hi.nodup k1 h1 hcl⟩

/-- An ID which is not that of a supported device, exactly: an exception while no device is open, undefined otherwise. -/
theorem C137_out_of_range {s : Mgr} {id : Nat} (hid : s.supported.length ≤ id) : device id s = if s.devs = [] then .throw s else .ub := by
  unfold device
  rw [List.getElem?_eq_none hid]

/-- Initialising a supported device succeeds unless a call of the OpenCL library fails; other IDs are refused. -/
theorem C137_initialise {sup : List Nat} (hs : sup.Nodup) {s : Mgr} (h : ReachCl (fun _ _ => True) sup s) (e : Env) (id : Nat) :
    (id < sup.length → e.ctx = true → e.mem = true → e.queue 0 = true → ∃ s' d, initializeDevice e id s = .ok () s' ∧ seenCl s' id = some d
      ∧ (seenCl s id = none → d.cur = 0 ∧ d.queues = 1 ∧ d.ctx = s.next))
    ∧ (sup.length ≤ id → initializeDevice e id s = .throw s) := by
  obtain ⟨hi, rfl⟩ := reachCl_inv hs h
  constructor
  · intro h1 h2 h3 h4
    have hs' : s.supported[id]? = some s.supported[id] := List.getElem?_eq_getElem h1
    rw [initializeDevice, hs']
    dsimp only
    cases hf : find s.devs s.supported[id] with
    | some d => exact ⟨s, d, rfl, by rw [seenCl_eq, devAt_eq hs', hf], by rw [seenCl_eq, devAt_eq hs', hf]; simp⟩
    | none =>
      have : newDev e s.supported[id] s = .ok ⟨s.supported[id], s.next, 0, 1⟩ { s with next := s.next + 1 } := by
        rw [newDev, if_pos h2, if_pos ⟨h3, h4⟩]
      refine ⟨_, ⟨s.supported[id], s.next, 0, 1⟩, bind_ok this, ?_, fun _ => ⟨rfl, rfl, rfl⟩⟩
      rw [seenCl_eq]
      refine (devAt_eq (s := { s with next := s.next + 1, devs := s.devs ++ [⟨s.supported[id], s.next, 0, 1⟩] }) hs').trans ?_
      show find (s.devs ++ [_]) _ = _
      rw [find_append, hf]
      simp
  · intro h1
    rw [initializeDevice, List.getElem?_eq_none h1]

theorem initFrom_opensCl {sup : List Nat} (hs : sup.Nodup) {e : Nat → Env} (he : ∀ k, (e k).ctx = true ∧ (e k).mem = true ∧ (e k).queue 0 = true) : ∀ (m id : Nat) (s : Mgr),
    ReachCl (fun _ _ => True) sup s → id + m ≤ sup.length → (∀ k, k < id → ∃ d, seenCl s k = some d) →
    ∃ s', initFrom e m id s = .ok () s' ∧ ReachCl (fun _ _ => True) sup s' ∧ (∀ k d, seenCl s k = some d → seenCl s' k = some d)
      ∧ ∀ k, k < id + m → ∃ d, seenCl s' k = some d
  | 0, id, s, h, _, hk => ⟨s, rfl, h, fun _ _ h => h, by simpa using hk⟩
  | m + 1, id, s, h, hm, hk => by
    obtain ⟨s1, d1, h1, h2, _⟩ := (C137_initialise hs h (e id) id).1 (by omega) (he id).1 (he id).2.1 (he id).2.2
    obtain ⟨b, s1', k1, k2, k3, k4⟩ := C137_device_history_partial hs h (e id) 0 (.init id) ⟨by simp, by simp, by simp⟩
    obtain ⟨rfl, rfl⟩ : b = true ∧ s1' = s1 := yieldsCl_inj k1 (show YieldsCl (initializeDevice (e id) id s) true s1 from h1)
    obtain ⟨s', l1, l2, l3, l4⟩ := initFrom_opensCl hs he m (id + 1) s1' k2 (by omega) (fun k hk1 => by
      by_cases hki : k = id
      · exact ⟨d1, hki ▸ h2⟩
      · obtain ⟨d, hd⟩ := hk k (by omega)
        exact ⟨d, k4 k d (fun hc => hc) hd⟩)
    refine ⟨s', ?_, l2, fun k d hd => l3 k d (k4 k d (fun hc => hc) hd), fun k h1 => l4 k (by omega)⟩
    rw [initFrom]
    exact (bind_ok h1).trans l1

/-- `initializeDevices` opens all supported devices when nothing fails; devices which were open are as before. -/
theorem C137_initialise_all {sup : List Nat} (hs : sup.Nodup) {s : Mgr} (h : ReachCl (fun _ _ => True) sup s) {e : Nat → Env}
    (he : ∀ k, (e k).ctx = true ∧ (e k).mem = true ∧ (e k).queue 0 = true) :
    ∃ s', initializeDevices e s = .ok () s' ∧ ReachCl (fun _ _ => True) sup s' ∧ (∀ k d, seenCl s k = some d → seenCl s' k = some d)
      ∧ ∀ k, k < sup.length → ∃ d, seenCl s' k = some d := by
  obtain ⟨s', h1, h2, h3, h4⟩ := initFrom_opensCl hs he sup.length 0 s h (by omega) (fun k hk => by omega)
  refine ⟨s', ?_, h2, h3, fun k hk => h4 k (by omega)⟩
  rw [initializeDevices, (reachCl_inv hs h).2]
  exact h1

/-- `setQueueCount` exactly, if queues can be made: the number requested, at most 255; the current queue is kept if it still exists. -/
theorem C137_set_queues {sup : List Nat} (hs : sup.Nodup) {s : Mgr} (h : ReachCl (fun _ _ => True) sup s) {id : Nat} {d : Dev} (hd : seenCl s id = some d) {e : Env}
    (he : ∀ j, e.queue j = true) (n : Nat) :
    ∃ s', setQueueCount e id n s = .ok () s' ∧ seenCl s' id = some { d with cur := if d.cur < min n 255 then d.cur else 0, queues := min n 255 } := by
  obtain ⟨hi, _⟩ := reachCl_inv hs h
  rw [seenCl_eq] at hd
  have hm := devAt_mem hd
  have hcur := hi.cur d hm.1
  unfold setQueueCount
  rw [bind_ok (device_ok hd), show (if n > 255 then 255 else n) = min n 255 by split <;> omega]
  generalize min n 255 = m
  unfold setQueues
  by_cases h1 : m > d.queues
  · rw [if_pos h1]
    obtain ⟨k, hk, h2, h3⟩ := pushQueues_eq e d.cl (m - d.queues) s
    have hk' := h3 he
    subst hk'
    rw [h2, if_pos rfl]
    refine ⟨_, rfl, ?_⟩
    rw [seenCl_eq]
    refine (devAt_changed (s := s) d.cl (f := more (m - d.queues)) (fun _ => rfl) id).trans ?_
    rw [hd]
    show some (if d.cl = d.cl then more (m - d.queues) d else d) = _
    rw [if_pos rfl, if_pos (by omega)]
    unfold more
    rw [show d.queues + (m - d.queues) = m by omega]
  rw [if_neg h1]
  by_cases h2 : m < d.queues
  · rw [if_pos h2]
    refine ⟨_, rfl, ?_⟩
    rw [seenCl_eq]
    refine (devAt_changed (s := s) d.cl (f := fewer m) (fun _ => rfl) id).trans ?_
    rw [hd]
    show some (if d.cl = d.cl then fewer m d else d) = _
    rw [if_pos rfl]
    unfold fewer
    have : (if d.cur ≥ m then 0 else d.cur) = if d.cur < m then d.cur else 0 := by
      by_cases hc : d.cur < m
      · rw [if_neg (by omega), if_pos hc]
      · rw [if_pos (by omega), if_neg hc]
    rw [this]
  · rw [if_neg h2]
    refine ⟨s, rfl, ?_⟩
    rw [seenCl_eq, hd]
    have e1 : m = d.queues := by omega
    have : (if d.cur < m then d.cur else 0) = d.cur := by
      split
      · rfl
      · omega
    rw [this, e1]

/-- A system in which nothing fails -/
def goodCl : Env := ⟨true, true, fun _ => true, true, true, false⟩

/-- A program of several threads, exceptions caught -/
def runCl (e : Env) : List (Nat × Op) → Mgr → Option (Mgr × List Bool)
  | [], s => some (s, [])
  | (t, op) :: l, s =>
    match step e t op s with
    | .ok _ s' => (runCl e l s').map fun r => (r.1, true :: r.2)
    | .throw s' => (runCl e l s').map fun r => (r.1, false :: r.2)
    | .ub => none

/-- Two threads use two devices. -/
example : (runCl goodCl [(0, .init 0), (0, .init 1), (1, .setActive 1), (1, .setQueues 1 300), (1, .setCurrent 1 200), (1, .setQueues 1 201), (0, .init 7), (0, .fill), (1, .program), (1, .program)] (noCl [50, 60])).map
    (fun r => (r.2, seenCl r.1 0, seenCl r.1 1)) = some ([true, true, true, true, true, true, false, true, true, true], some ⟨50, 0, 0, 1⟩, some ⟨60, 1, 200, 201⟩) := by decide +kernel

/-- An unknown ID is refused as long as no device is open, and reads outside of a vector later. -/
theorem C137_wrong :
    ((runCl goodCl [(0, .setActive 5)] (noCl [50, 60])).map Prod.snd, (runCl goodCl [(0, .init 0), (0, .setActive 5)] (noCl [50, 60])).map Prod.snd) = (some [false], none) := by decide

/-- All queues can be removed; then the device cannot be used. -/
theorem C137_no_queue_wrong : (runCl goodCl [(0, .init 0), (0, .setQueues 0 0), (0, .fill)] (noCl [50])).map Prod.snd = none := by decide

/-! ## C138 -/

/-- The default device of the thread which makes a call, after the call -/
def activeAfterCl (op : Op) (good : Bool) (a : Nat) : Nat :=
  match op with
  | .setActive id => if good then id else a
  | _ => a

/-- **C138** The default device of a thread is the one it last set: other threads and other calls (also closing devices) do not change it. -/
theorem C138_active_device {sup : List Nat} (hs : sup.Nodup) {s s' : Mgr} (h : ReachCl (fun _ _ => True) sup s) {e : Env} {t : Nat} {op : Op} {b : Bool} (hc : Legal s t op)
    (hy : YieldsCl (step e t op s) b s') : s'.active t = activeAfterCl op b (s.active t) ∧ ∀ t', t' ≠ t → s'.active t' = s.active t' := by
  obtain ⟨b', s2, h1, h2⟩ := step_change (reachCl_inv hs h).1 e t op hc
  obtain ⟨rfl, rfl⟩ := yieldsCl_inj h1 hy
  cases h2 with
  | same k1 k2 k3 k4 =>
    refine ⟨?_, fun _ _ => rfl⟩
    cases op with
    | setActive id =>
      rw [k4 id rfl]
      rfl
    | _ => rfl
  | active _ => exact ⟨upd_same _ _ _, fun t' ht => upd_other _ _ ht⟩
  | _ => exact ⟨rfl, fun _ _ => rfl⟩

/-- `device()` is the default device of the thread if it is open; otherwise it throws. -/
theorem C138_device {sup : List Nat} (hs : sup.Nodup) {s : Mgr} (h : ReachCl (fun _ _ => True) sup s) (t : Nat) :
    deviceOf t s = match seenCl s (s.active t) with | some d => .ok d s | none => .throw s := by
  rw [seenCl_eq]
  exact deviceOf_legal (reachCl_inv hs h).1 t

/-- In contrast to CUDA (`C135_close_wrong`) device 0 stays the default. -/
example : (runCl goodCl [(0, .init 0), (0, .init 1), (0, .setActive 0), (0, .close 1), (0, .fill), (1, .setActive 0), (1, .close 0), (0, .fill), (0, .init 0)] (noCl [50, 60])).map (fun r => (r.2, r.1.active 0))
    = some ([true, true, true, true, true, true, true, false, true], 0) := by decide

/-! ## C139 -/

/-- The devices of a platform before the first which cannot be used -/
def keptOf (usable : Nat → Bool) (p : Platform) : List Nat :=
  match p.devices with
  | some l => if p.second then l.takeWhile usable else []
  | none => []

/-- What is left in the list behind the devices counted: the rest of the last platform which answered -/
def restOf (usable : Nat → Bool) : List Platform → List Nat → List Nat
  | [], r => r
  | p :: l, r =>
    restOf usable l (match p.devices with
      | some d => if p.second then d.dropWhile usable else []
      | none => r)

/-- A device counts as usable until the first which is not: the loop which tries the same device again. -/
theorem checkLoop_down (usable : Nat → Bool) (sup : List Nat) (base id : Nat) (hu : ∀ d, sup[base + id]? = some d → usable d = false) : ∀ (fuel count : Nat),
    id ≤ count → count - id < fuel → base + count ≤ sup.length → checkLoop usable sup base fuel id count = some id
  | 0, _, _, h, _ => by omega
  | fuel + 1, count, h1, h2, h3 => by
    rw [checkLoop]
    by_cases hc : id < count
    · rw [if_pos hc]
      have hs : sup[base + id]? = some sup[base + id] := List.getElem?_eq_getElem (by omega)
      rw [hs]
      dsimp only
      rw [hu _ hs]
      exact checkLoop_down usable sup base id hu fuel (count - 1) (by omega) (by omega) (by omega)
    · rw [if_neg hc, show count = id by omega]

theorem checkLoop_eq (usable : Nat → Bool) (pre : List Nat) : ∀ (l done : List Nat) (fuel : Nat), 2 * l.length < fuel →
    checkLoop usable (pre ++ done ++ l) pre.length fuel done.length (done.length + l.length) = some (done.length + (l.takeWhile usable).length)
  | [], done, fuel, h => by
    cases fuel with
    | zero => omega
    | succ fuel =>
      rw [checkLoop, if_neg (by simp)]
      rfl
  | d :: l, done, fuel, h => by
    have hg : (pre ++ done ++ d :: l)[pre.length + done.length]? = some d := by
      rw [List.append_assoc, List.getElem?_append_right (by omega), List.getElem?_append_right (by omega)]
      simp
    by_cases hu : usable d = true
    · cases fuel with
      | zero => omega
      | succ fuel =>
        rw [checkLoop, if_pos (by rw [List.length_cons]; omega), hg]
        dsimp only
        rw [if_pos hu, List.takeWhile_cons, if_pos hu]
        have := checkLoop_eq usable pre l (done ++ [d]) fuel (by rw [List.length_cons] at h; omega)
        rw [List.length_append, List.length_singleton] at this
        rw [show pre ++ done ++ d :: l = pre ++ (done ++ [d]) ++ l by simp, List.length_cons, List.length_cons,
          show done.length + (l.length + 1) = done.length + 1 + l.length by omega, this]
        congr 1
        omega
    · rw [checkLoop_down usable _ _ _ (fun x hx => by rw [hg] at hx; cases hx; simpa using hu) fuel _ (by omega) (by rw [List.length_cons] at h ⊢; omega) (by simp)]
      rw [List.takeWhile_cons, if_neg hu]
      rfl

theorem scanPlatforms_eq (usable : Nat → Bool) : ∀ (ps : List Platform) (done rest : List Nat),
    scanPlatforms usable ps (done ++ rest, done.length) = some (done ++ ps.flatMap (keptOf usable) ++ restOf usable ps rest, done.length + (ps.flatMap (keptOf usable)).length)
  | [], done, rest => by
    rw [scanPlatforms]
    simp [restOf]
  | p :: ps, done, rest => by
    rw [scanPlatforms, scanPlatform, List.flatMap_cons, restOf]
    cases hd : p.devices with
    | none =>
      have hk : keptOf usable p = [] := by rw [keptOf, hd]
      dsimp only
      rw [hk, List.nil_append]
      exact scanPlatforms_eq usable ps done rest
    | some l =>
      dsimp only
      by_cases hp : p.second = true
      · have hk : keptOf usable p = l.takeWhile usable := by
          rw [keptOf, hd]
          exact if_pos hp
        have := checkLoop_eq usable done l [] (2 * l.length + 1) (by omega)
        rw [List.append_nil, List.length_nil, Nat.zero_add, Nat.zero_add] at this
        rw [if_pos hp, if_pos hp, List.take_left', this, hk]
        · dsimp only
          have h2 := scanPlatforms_eq usable ps (done ++ l.takeWhile usable) (l.dropWhile usable)
          rw [List.append_assoc, List.takeWhile_append_dropWhile, List.length_append] at h2
          rw [h2, List.length_append]
          simp [List.append_assoc, Nat.add_assoc]
        · rfl
      · have hk : keptOf usable p = [] := by
          rw [keptOf, hd]
          exact if_neg hp
        rw [if_neg hp, if_neg hp, List.take_left', hk, List.nil_append]
        · have h2 := scanPlatforms_eq usable ps done []
          rw [List.append_nil] at h2
          exact h2
        · rfl

/-- The list of supported devices exactly: of every platform the devices before the first which cannot be used, then what was behind them
in the last platform which answered. All devices are closed. -/
theorem C139_supported_exact (usable : Nat → Bool) (ps : List Platform) (s : Mgr) :
    resetSupportedDevice usable (some ps) s = .ok () { s with devs := [], supported := ps.flatMap (keptOf usable) ++ restOf usable ps [] } := by
  rw [resetSupportedDevice]
  have := scanPlatforms_eq usable ps [] []
  rw [List.nil_append, List.nil_append, List.length_nil] at this
  show (match scanPlatforms usable ps ([], 0) with | some r => _ | none => _) = _
  rw [this]

/-- No list of platforms, no devices. -/
theorem C139_no_platforms (usable : Nat → Bool) (s : Mgr) : resetSupportedDevice usable none s = .ok () { s with devs := [], supported := [] } := rfl

/-- What the list should be: all devices which can be used, in order. -/
def usableOf (usable : Nat → Bool) (ps : List Platform) : List Nat := ps.flatMap fun p => if p.second then (p.devices.getD []).filter usable else []

/-- **C139** (partial: all devices of platforms which answer can be used) After `resetSupportedDevice` the supported devices are exactly the
devices which can be used, platform by platform, and no device is open.
Missing: platforms with a device which cannot be used; false, see `C139_wrong`. -/
theorem C139_supported_partial {usable : Nat → Bool} {ps : List Platform} (h : ∀ p ∈ ps, ∀ l, p.devices = some l → ∀ d ∈ l, usable d = true) (s : Mgr) :
    ∃ s', resetSupportedDevice usable (some ps) s = .ok () s' ∧ s'.supported = usableOf usable ps ∧ s'.devs = [] ∧ s'.active = s.active := by
  refine ⟨_, C139_supported_exact usable ps s, ?_, rfl, rfl⟩
  show ps.flatMap (keptOf usable) ++ restOf usable ps [] = usableOf usable ps
  have hk : ∀ p ∈ ps, keptOf usable p = if p.second then (p.devices.getD []).filter usable else [] := by
    intro p hp
    unfold keptOf
    cases hd : p.devices with
    | none =>
      show [] = if p.second then ([] : List Nat).filter usable else []
      split <;> rfl
    | some l =>
      dsimp only
      split
      · show _ = l.filter usable
        rw [List.filter_eq_self.mpr (h p hp l hd)]
        have : ∀ l : List Nat, (∀ d ∈ l, usable d = true) → l.takeWhile usable = l := by
          intro l
          induction l with
          | nil => intro _; rfl
          | cons x l ih =>
            intro hl
            rw [List.takeWhile_cons, if_pos (hl x List.mem_cons_self), ih (fun d hd => hl d (List.mem_cons_of_mem _ hd))]
        exact this l (h p hp l hd)
      · rfl
  have hr : ∀ (qs : List Platform), (∀ p ∈ qs, ∀ l, p.devices = some l → ∀ d ∈ l, usable d = true) → restOf usable qs [] = [] := by
    intro qs
    induction qs with
    | nil => intro _; rfl
    | cons p qs ih =>
      intro hq
      rw [restOf]
      have : (match p.devices with | some d => if p.second then d.dropWhile usable else [] | none => ([] : List Nat)) = [] := by
        cases hd : p.devices with
        | none => rfl
        | some l =>
          dsimp only
          split
          · have : ∀ l : List Nat, (∀ d ∈ l, usable d = true) → l.dropWhile usable = [] := by
              intro l
              induction l with
              | nil => intro _; rfl
              | cons x l ih =>
                intro hl
                rw [List.dropWhile_cons, if_pos (hl x List.mem_cons_self), ih (fun d hd => hl d (List.mem_cons_of_mem _ hd))]
            exact this l (hq p List.mem_cons_self l hd)
          · rfl
      rw [this]
      exact ih (fun p hp => hq p (List.mem_cons_of_mem _ hp))
  rw [hr ps h, List.append_nil, usableOf, List.flatMap_def, List.flatMap_def, List.map_congr_left hk]

/-- Devices 2 and 5 cannot be used: 3 is missing in the list, 5 is listed. -/
theorem C139_wrong :
    (stCl (resetSupportedDevice (fun d => d != 2 && d != 5) (some [⟨some [1, 2, 3], true⟩, ⟨some [4, 5, 6], true⟩]) (noCl []))).map Mgr.supported = some [1, 4, 5, 6]
    ∧ usableOf (fun d => d != 2 && d != 5) [⟨some [1, 2, 3], true⟩, ⟨some [4, 5, 6], true⟩] = [1, 3, 4, 6] := by decide

example : (stCl (resetSupportedDevice (fun _ => true) (some [⟨some [1, 2], true⟩, ⟨none, true⟩, ⟨some [9], false⟩, ⟨some [4], true⟩]) (noCl []))).map Mgr.supported = some [1, 2, 4] := by decide

/-- The default devices of threads are not reset: after a change of the list `device()` reads outside of it. -/
theorem C139_reset_wrong :
    (runCl goodCl [(0, .init 0), (0, .init 1), (0, .setActive 1)] (noCl [50, 60])).bind (fun r =>
      (stCl (resetSupportedDevice (fun _ => true) (some [⟨some [50], true⟩]) r.1)).bind fun s => (runCl goodCl [(0, .init 0)] s).map fun r => isUbCl (deviceOf 0 r.1)) = some true := by decide

/-- No device is listed twice, if the platforms do not share devices: the list is a part of all devices in order. -/
theorem C139_sublist (usable : Nat → Bool) (ps : List Platform) : (ps.flatMap (keptOf usable) ++ restOf usable ps []).Sublist (ps.flatMap fun p => p.devices.getD []) := by
  have key : ∀ (qs : List Platform) (pre all rest : List Nat), (pre ++ rest).Sublist all → (pre ++ qs.flatMap (keptOf usable) ++ restOf usable qs rest).Sublist (all ++ qs.flatMap fun p => p.devices.getD []) := by
    intro qs
    induction qs with
    | nil =>
      intro pre all rest h
      simpa [restOf] using h
    | cons p qs ih =>
      intro pre all rest h
      rw [List.flatMap_cons, List.flatMap_cons, restOf]
      cases hd : p.devices with
      | none =>
        have hk : keptOf usable p = [] := by rw [keptOf, hd]
        rw [hk]
        exact ih pre all rest h
      | some l =>
        dsimp only
        by_cases hp : p.second = true
        · have hk : keptOf usable p = l.takeWhile usable := by
            rw [keptOf, hd]
            exact if_pos hp
          rw [if_pos hp, hk, ← List.append_assoc, ← List.append_assoc]
          refine ih (pre ++ l.takeWhile usable) (all ++ l) (l.dropWhile usable) ?_
          rw [List.append_assoc, List.takeWhile_append_dropWhile]
          exact ((List.sublist_append_left pre rest).trans h).append (List.Sublist.refl l)
        · have hk : keptOf usable p = [] := by
            rw [keptOf, hd]
            exact if_neg hp
          rw [if_neg hp, hk, List.nil_append, ← List.append_assoc all]
          refine ih pre (all ++ l) [] ?_
          rw [List.append_nil]
          exact ((List.sublist_append_left pre rest).trans h).trans (List.sublist_append_left all l)
  exact key ps [] [] [] (List.Sublist.refl _)

/-! ## C140 -/

/-- No device is closed, and a program which cannot be built leaves nothing. -/
def NeverCloses (e : Env) (op : Op) : Prop := (∀ id, op ≠ .close id) ∧ op ≠ .closeAll ∧ (e.build = true ∨ e.leftFirst = false)

theorem devAt_of_mem {s : Mgr} (h : ClDevice.Inv s) {d : Dev} (hd : d ∈ s.devs) : find s.devs d.cl = some d := by
  cases hf : find s.devs d.cl with
  | none => exact absurd rfl (find_none hf d hd)
  | some d' => rw [nodup_inj h.nodup (find_some hf).1 hd (find_some hf).2]

/-- The programs kept belong to the contexts of the devices which are open; there are none for other devices. -/
def Fresh (s : Mgr) : Prop :=
  ∀ c, (s.prog c = none ∨ ∃ d, find s.devs c = some d ∧ s.prog c = some (some d.ctx)) ∧ (s.memset c = none ∨ ∃ d, find s.devs c = some d ∧ s.memset c = some d.ctx)

theorem Fresh.of_find {s s' : Mgr} (h : Fresh s) (hp : s'.prog = s.prog) (hm : s'.memset = s.memset) (hf : ∀ c d, find s.devs c = some d → ∃ d', find s'.devs c = some d' ∧ d'.ctx = d.ctx) : Fresh s' := by
  intro c
  rw [hp, hm]
  refine ⟨(h c).1.imp id ?_, (h c).2.imp id ?_⟩
  · rintro ⟨d, h1, h2⟩
    obtain ⟨d', h3, h4⟩ := hf c d h1
    exact ⟨d', h3, by rw [h4]; exact h2⟩
  · rintro ⟨d, h1, h2⟩
    obtain ⟨d', h3, h4⟩ := hf c d h1
    exact ⟨d', h3, by rw [h4]; exact h2⟩

theorem Fresh.changed {s : Mgr} (h : Fresh s) (c : Nat) {f : Dev → Dev} (hf : ∀ d, (f d).cl = d.cl ∧ (f d).ctx = d.ctx) : Fresh (changed s c f) := by
  refine h.of_find rfl rfl fun x d hd => ?_
  have : find (ClDevice.changed s c f).devs x = if x = c then (find s.devs x).map f else find s.devs x := find_map (fun d => (hf d).1) _ _ _
  rw [this, hd]
  split
  · exact ⟨f d, rfl, (hf d).2⟩
  · exact ⟨d, rfl, rfl⟩

theorem programOf_null {e : Env} {t : Nat} {s s' : Mgr} (hi : ClDevice.Inv s) {d : Dev} (hd : devAt s (s.active t) = some d) (hn : s.prog d.cl = none) {b : Bool}
    (hy : YieldsCl (step e t .program s) b s') (hs : s'.prog d.cl = some none) : e.build = false ∧ e.leftFirst = true := by
  have h1 : deviceOf t s = .ok d s := device_ok hd
  by_cases hb : e.build = true
  · exfalso
    have hpo : programOf e d s = .ok d.ctx { s with prog := upd s.prog d.cl (some (some d.ctx)) } := by
      rw [programOf, hn]
      exact if_pos hb
    have hd2 : deviceOf t ({ s with prog := upd s.prog d.cl (some (some d.ctx)) } : Mgr) = .ok d { s with prog := upd s.prog d.cl (some (some d.ctx)) } :=
      device_ok (show devAt { s with prog := upd s.prog d.cl (some (some d.ctx)) } (s.active t) = some d from hd)
    have hr : step e t .program s = launch e d d.ctx { s with prog := upd s.prog d.cl (some (some d.ctx)) } := (bind_ok h1).trans ((bind_ok hpo).trans (bind_ok hd2))
    rw [hr] at hy
    have : s' = { s with prog := upd s.prog d.cl (some (some d.ctx)) } := by
      by_cases hq : d.cur < d.queues
      · rw [launch_eq hq] at hy
        by_cases hl : d.ctx = d.ctx ∧ e.run = true
        · rw [if_pos hl] at hy
          exact (yieldsCl_inj (b := true) rfl hy).2.symm
        · rw [if_neg hl] at hy
          exact (yieldsCl_inj (b := false) rfl hy).2.symm
      · have : launch e d d.ctx { s with prog := upd s.prog d.cl (some (some d.ctx)) } = .ub := by
          unfold launch queueOf
          rw [if_neg hq]
          rfl
        rw [this] at hy
        unfold YieldsCl at hy
        cases b <;> cases hy
    rw [this] at hs
    have h2 : upd s.prog d.cl (some (some d.ctx)) d.cl = some none := hs
    rw [upd_same] at h2
    cases h2
  · refine ⟨by simpa using hb, ?_⟩
    by_cases hl : e.leftFirst = true
    · exact hl
    · exfalso
      have hpo : programOf e d s = .throw s := by
        rw [programOf, hn]
        dsimp only
        rw [if_neg hb, if_neg hl]
      have hr : step e t .program s = .throw s := (bind_ok h1).trans (bind_throw hpo)
      rw [hr] at hy
      have := (yieldsCl_inj (b := false) rfl hy).2
      rw [← this, hn] at hs
      cases hs

/-- **C140** (partial: no device was closed and no program failed to build) Functions on images and `memorySet` work in every thread whose device
is open and has a queue, whatever happened before, if the OpenCL library works now.
Missing: devices opened again after they were closed, and programs which could not be built before; false, see `C140_reopen_exact` and
`C140_build_wrong`. -/
theorem C140_programs_partial {sup : List Nat} (hs : sup.Nodup) {s : Mgr} (h : ReachCl NeverCloses sup s) {e : Env} (he : e.build = true ∧ e.run = true) (t : Nat) {d : Dev}
    (hd : seenCl s (s.active t) = some d) (hq : 0 < d.queues) : (∃ s', runProgram e t s = .ok () s') ∧ ∃ s', memorySet e t s = .ok () s' := by
  obtain ⟨hi, hf⟩ := reachCl_induct hs Fresh (fun c => ⟨.inl rfl, .inl rfl⟩) (fun s s' e t op b hi hf hp hc c hy => by
    cases c with
    | same => exact hf
    | ctx => exact hf.of_find rfl rfl (fun c d hd => ⟨d, hd, rfl⟩)
    | init h1 h2 =>
      rename_i id c
      refine hf.of_find rfl rfl fun x d hd => ⟨d, ?_, rfl⟩
      show find (s.devs ++ [_]) x = some d
      rw [find_append, hd]
      rfl
    | close _ => exact absurd rfl (hp.1 _)
    | closeAll => exact absurd rfl hp.2.1
    | active _ => exact hf
    | current _ _ => exact hf.changed _ (by intro d; exact ⟨rfl, rfl⟩)
    | more _ _ => exact hf.changed _ (by intro d; exact ⟨rfl, rfl⟩)
    | less _ _ => exact hf.changed _ (by intro d; exact ⟨rfl, rfl⟩)
    | prog hd hx hn =>
      rename_i d x
      intro c
      refine ⟨?_, (hf c).2⟩
      show upd s.prog d.cl (some x) c = none ∨ ∃ d', find s.devs c = some d' ∧ upd s.prog d.cl (some x) c = some (some d'.ctx)
      by_cases hcd : c = d.cl
      · right
        refine ⟨d, hcd ▸ (devAt_mem hd).2.2, ?_⟩
        rw [hcd, upd_same]
        cases x with
        | some y => rw [hx y rfl]
        | none =>
          exfalso
          have := programOf_null hi hd hn hy (upd_same _ _ _)
          rcases hp.2.2 with hb | hb
          · rw [hb] at this
            exact absurd this.1 (by simp)
          · rw [hb] at this
            exact absurd this.2 (by simp)
      · rw [upd_other _ _ hcd]
        exact (hf c).1
    | memset hd hn =>
      rename_i d
      intro c
      refine ⟨(hf c).1, ?_⟩
      show upd s.memset d.cl (some d.ctx) c = none ∨ ∃ d', find s.devs c = some d' ∧ upd s.memset d.cl (some d.ctx) c = some d'.ctx
      by_cases hcd : c = d.cl
      · exact .inr ⟨d, hcd ▸ (devAt_mem hd).2.2, by rw [hcd, upd_same]⟩
      · rw [upd_other _ _ hcd]
        exact (hf c).2) h
  rw [seenCl_eq] at hd
  have hm := devAt_mem hd
  have hcur := hi.lt_queues hm.1 hq
  have h1 : deviceOf t s = .ok d s := device_ok hd
  obtain ⟨b1, b2⟩ := hf d.cl
  constructor
  · have : ∃ s1, programOf e d s = .ok d.ctx s1 ∧ deviceOf t s1 = .ok d s1 := by
      rcases b1 with b1 | ⟨d', k1, k2⟩
      · refine ⟨{ s with prog := upd s.prog d.cl (some (some d.ctx)) }, ?_, device_ok (show devAt { s with prog := upd s.prog d.cl (some (some d.ctx)) } (s.active t) = some d from hd)⟩
        rw [programOf, b1]
        exact if_pos he.1
      · refine ⟨s, ?_, h1⟩
        rw [hm.2.2] at k1
        cases k1
        rw [programOf, k2]
    obtain ⟨s1, k1, k2⟩ := this
    exact ⟨s1, (bind_ok h1).trans ((bind_ok k1).trans ((bind_ok k2).trans ((launch_eq hcur _ _).trans (if_pos ⟨rfl, he.2⟩))))⟩
  · have : ∃ s1, memsetOf e d s = .ok d.ctx s1 ∧ deviceOf t s1 = .ok d s1 := by
      rcases b2 with b2 | ⟨d', k1, k2⟩
      · refine ⟨{ s with memset := upd s.memset d.cl (some d.ctx) }, ?_, device_ok (show devAt { s with memset := upd s.memset d.cl (some d.ctx) } (s.active t) = some d from hd)⟩
        rw [memsetOf, b2]
        exact if_pos he.1
      · refine ⟨s, ?_, h1⟩
        rw [hm.2.2] at k1
        cases k1
        rw [memsetOf, k2]
    obtain ⟨s1, k1, k2⟩ := this
    exact ⟨s1, (bind_ok h1).trans ((bind_ok k1).trans ((bind_ok k2).trans ((launch_eq hcur _ _).trans (if_pos ⟨rfl, he.2⟩))))⟩

/-- The state after a device was closed and opened again -/
def reopened (s : Mgr) (c : Nat) : Mgr := { s with next := s.next + 1, devs := (s.devs.eraseP fun x => x.cl == c) ++ [⟨c, s.next, 0, 1⟩] }

/-- A device which was used, closed and opened again can never be used again: functions on images throw whatever the library does. -/
theorem C140_reopen_exact {sup : List Nat} (hs : sup.Nodup) {s : Mgr} (h : ReachCl (fun _ _ => True) sup s) {id : Nat} {d : Dev} (hd : seenCl s id = some d)
    (hp : s.prog d.cl = some (some d.ctx)) {e : Env} (he : e.ctx = true ∧ e.mem = true ∧ e.queue 0 = true) :
    ∃ s1 s2, closeDevice id s = .ok () s1 ∧ initializeDevice e id s1 = .ok () s2 ∧ ∀ t e', s2.active t = id → runProgram e' t s2 = .throw s2 := by
  obtain ⟨hi, _⟩ := reachCl_inv hs h
  rw [seenCl_eq] at hd
  obtain ⟨h1, h2, h3⟩ := devAt_mem hd
  have hctx := hi.ctx d h1
  have hfn : find (s.devs.eraseP fun x => x.cl == d.cl) d.cl = none := by
    rw [find_erase _ hi.nodup, if_pos rfl]
  refine ⟨{ s with devs := s.devs.eraseP fun x => x.cl == d.cl }, reopened s d.cl, ?_, ?_, ?_⟩
  · rw [closeDevice, h2]
  · rw [initializeDevice]
    show (match s.supported[id]? with | none => _ | some c => _) = _
    rw [h2]
    show (match find (s.devs.eraseP fun x => x.cl == d.cl) d.cl with | some _ => _ | none => _) = _
    rw [hfn]
    show addDev e d.cl { s with devs := s.devs.eraseP fun x => x.cl == d.cl } = _
    have : newDev e d.cl { s with devs := s.devs.eraseP fun x => x.cl == d.cl } = .ok ⟨d.cl, s.next, 0, 1⟩ { s with devs := s.devs.eraseP fun x => x.cl == d.cl, next := s.next + 1 } := by
      rw [newDev, if_pos he.1, if_pos he.2]
    exact bind_ok this
  · intro t e' ha
    have hda : devAt (reopened s d.cl) (s.active t) = some ⟨d.cl, s.next, 0, 1⟩ := by
      rw [show s.active t = id from ha]
      refine (devAt_eq (s := reopened s d.cl) h2).trans ?_
      show find ((s.devs.eraseP fun x => x.cl == d.cl) ++ [_]) d.cl = _
      rw [find_append, hfn]
      simp
    have k1 : deviceOf t (reopened s d.cl) = .ok ⟨d.cl, s.next, 0, 1⟩ (reopened s d.cl) := device_ok hda
    have k2 : programOf e' ⟨d.cl, s.next, 0, 1⟩ (reopened s d.cl) = .ok d.ctx (reopened s d.cl) := by
      rw [programOf]
      show (match s.prog d.cl with | some (some c) => _ | some none => _ | none => _) = _
      rw [hp]
    refine (bind_ok k1).trans ((bind_ok k2).trans ((bind_ok k1).trans ((launch_eq (d := ⟨d.cl, s.next, 0, 1⟩) (Nat.zero_lt_one) _ _).trans (if_neg ?_))))
    rintro ⟨hc, _⟩
    have : d.ctx = s.next := hc
    omega

/-- The same for filling memory: it works once, and not after the device was opened again. -/
theorem C140_reopen_wrong : (runCl goodCl [(0, .init 0), (0, .fill), (0, .program), (0, .close 0), (0, .init 0), (0, .fill), (0, .program)] (noCl [50])).map Prod.snd
    = some [true, true, true, true, true, false, false] := by decide

/-- A program could not be built; the next call reads a null pointer, if the entry of the map was made before the build. -/
theorem C140_build_wrong :
    (runCl { goodCl with build := false, leftFirst := true } [(0, .init 0), (0, .program)] (noCl [50])).map (fun r => (r.2, isUbCl (runProgram goodCl 0 r.1))) = some ([true, false], true) := by decide

/-! ## C142 -/

theorem cText_append (t r : List UInt8) (h : (0 : UInt8) ∉ t) : cText (t ++ 0 :: r) = some t := by
  induction t with
  | nil => simp [cText]
  | cons x t ih =>
    rw [List.cons_append, cText, if_neg (fun hc => h (by rw [hc]; exact List.mem_cons_self)), ih (fun hc => h (List.mem_cons_of_mem _ hc))]
    rfl

/-- **C142** (partial: files which end with a zero) The program compiled is the text in the file. Missing: all other files, see `C142_wrong`. -/
theorem C142_program_file_partial (t r : List UInt8) (h : (0 : UInt8) ∉ t) : programText (some (t ++ 0 :: r)) () = .ok t () ∧ programText none () = .ok [] () := by
  refine ⟨?_, rfl⟩
  show orUb (cText (t ++ 0 :: r)) () = _
  rw [cText_append t r h]
  rfl

/-- A file without zero, such as any text: the library reads past the end of the vector. -/
theorem C142_wrong (l : List UInt8) (h : (0 : UInt8) ∉ l) : programText (some l) () = .ub := by
  have : cText l = none := by
    induction l with
    | nil => rfl
    | cons x l ih =>
      rw [cText, if_neg (fun hc => h (by rw [hc]; exact List.mem_cons_self)), ih (fun hc => h (List.mem_cons_of_mem _ hc))]
      rfl
  show orUb (cText l) () = _
  rw [this]
  rfl

/-- A kernel of one character. -/
example : programText (some [107]) () = .ub := C142_wrong _ (by decide)

end PV.Props
