import Verif.CudaDevice
/-
  Lemmas about the devices of CudaDevice.lean.
-/
namespace PV.CudaDevice
open PV

theorem upd_same {β : Type} (f : Nat → β) (i : Nat) (x : β) : upd f i x i = x := if_pos rfl

theorem upd_other {β : Type} (f : Nat → β) {i j : Nat} (x : β) (h : j ≠ i) : upd f i x j = f j := if_neg h

structure Inv (s : Mgr) : Prop where
  nodup : (s.devs.map Dev.id).Nodup
  range : ∀ d ∈ s.devs, 0 ≤ d.id ∧ d.id < s.supported
  cur : ∀ d ∈ s.devs, d.cur < d.streams.length ∨ (d.cur = 0 ∧ d.streams = [])
  same : ∀ t, s.cuda t = s.active t

theorem find_some {l : List Dev} {id : Int} {d : Dev} (h : find l id = some d) : d ∈ l ∧ d.id = id :=
  ⟨List.mem_of_find?_eq_some h, by simpa using List.find?_some h⟩

theorem find_none {l : List Dev} {id : Int} (h : find l id = none) : ∀ d ∈ l, d.id ≠ id := by
  intro d hd hc
  have := List.find?_eq_none.mp h d hd
  simp [hc] at this

theorem find_append (l : List Dev) (d : Dev) (id : Int) : find (l ++ [d]) id = (find l id).or (if d.id = id then some d else none) := by
  unfold find
  rw [List.find?_append]
  congr 1
  rw [List.find?_cons]
  by_cases h : d.id = id
  · simp [h]
  · rw [show (d.id == id) = false by simpa using h, if_neg h]
    rfl

theorem find_map {f : Dev → Dev} (hf : ∀ d, (f d).id = d.id) (l : List Dev) (id k : Int) :
    find (l.map fun d => if d.id = id then f d else d) k = if k = id then (find l k).map f else find l k := by
  induction l with
  | nil => simp [find]
  | cons d l ih =>
    unfold find at ih ⊢
    rw [List.map_cons, List.find?_cons, List.find?_cons]
    by_cases hd : d.id = id
    · rw [if_pos hd, hf]
      by_cases hk : d.id = k
      · rw [show (d.id == k) = true by simpa using hk]
        simp only
        rw [if_pos (by omega)]
        rfl
      · rw [show (d.id == k) = false by simpa using hk]
        exact ih
    · rw [if_neg hd]
      by_cases hk : d.id = k
      · rw [show (d.id == k) = true by simpa using hk]
        simp only
        rw [if_neg (by omega)]
      · rw [show (d.id == k) = false by simpa using hk]
        exact ih

theorem find_erase (l : List Dev) (h : (l.map Dev.id).Nodup) (id k : Int) :
    find (l.eraseP fun d => d.id == id) k = if k = id then none else find l k := by
  induction l with
  | nil => simp [find]
  | cons d l ih =>
    rw [List.map_cons, List.nodup_cons] at h
    rw [List.eraseP_cons]
    by_cases hd : d.id = id
    · rw [show (d.id == id) = true by simpa using hd]
      simp only [cond_true]
      by_cases hk : k = id
      · rw [if_pos hk]
        refine List.find?_eq_none.mpr fun x hx => ?_
        have : x.id ≠ k := fun hc => h.1 (List.mem_map.mpr ⟨x, hx, by omega⟩)
        simpa using this
      · rw [if_neg hk]
        unfold find
        rw [List.find?_cons, show (d.id == k) = false by simp; omega]
    · rw [show (d.id == id) = false by simpa using hd]
      simp only [cond_false]
      unfold find at ih ⊢
      rw [List.find?_cons, List.find?_cons, ih h.2]
      by_cases hk : d.id = k
      · rw [show (d.id == k) = true by simpa using hk]
        simp only
        rw [if_neg (by omega)]
      · rw [show (d.id == k) = false by simpa using hk]

theorem device_eq (id : Int) (s : Mgr) : device id s = match find s.devs id with | some d => .ok d s | none => .throw s := by
  rw [device]
  by_cases h : s.devs = []
  · rw [if_pos h, h]
    rfl
  · rw [if_neg h]
    cases find s.devs id <;> rfl

theorem device_ok {id : Int} {s : Mgr} {d : Dev} (h : find s.devs id = some d) : device id s = .ok d s := by
  rw [device_eq, h]

theorem device_throw {id : Int} {s : Mgr} (h : find s.devs id = none) : device id s = .throw s := by
  rw [device_eq, h]

theorem upd_id {β : Type} (f : Nat → β) (i : Nat) (x : β) (h : f i = x) : upd f i x = f := by
  funext j
  by_cases hj : j = i
  · rw [hj, upd_same, h]
  · rw [upd_other _ _ hj]

theorem upd_upd {β : Type} (f : Nat → β) (i : Nat) (x y : β) : upd (upd f i x) i y = upd f i y := by
  funext j
  by_cases hj : j = i
  · rw [hj, upd_same, upd_same]
  · rw [upd_other _ _ hj, upd_other _ _ hj, upd_other _ _ hj]

theorem restore_id (s : Mgr) (h : ∀ t, s.cuda t = s.active t) (t : Nat) (id : Int) : restore t (s.active t) { s with cuda := upd s.cuda t id } = s := by
  unfold restore
  dsimp only
  rw [upd_upd, upd_id _ _ _ (h t), upd_id _ _ _ rfl]

/-- A new device leaves everything else; if it cannot be made nothing changes. -/
theorem newDev_eq {s : Mgr} (h : Inv s) (e : Env) (t : Nat) (id : Int) :
    newDev e t id s = if e.props = true ∧ (id = s.active t ∨ e.setOk = true) ∧ e.mem = true then .ok ⟨id, e.hw id, e.hw id, 0, []⟩ s else .throw s := by
  rw [newDev]
  by_cases h1 : e.props = true
  · rw [if_pos h1, withDevice]
    by_cases h2 : id = s.active t
    · rw [if_neg (not_not_intro h2)]
      by_cases h3 : e.mem = true
      · rw [if_pos h3, if_pos ⟨h1, .inl h2, h3⟩]
        rfl
      · rw [if_neg h3, if_neg (fun hc => h3 hc.2.2)]
        rfl
    · rw [if_pos h2, cudaSet]
      by_cases h4 : e.setOk = true
      · rw [if_pos h4]
        dsimp only
        by_cases h3 : e.mem = true
        · rw [if_pos h3, if_pos ⟨h1, .inr h4, h3⟩]
          show Res.ok _ (restore t _ _) = _
          rw [restore_id s h.same]
        · rw [if_neg h3, if_neg (fun hc => h3 hc.2.2)]
          show Res.throw (restore t _ _) = _
          rw [restore_id s h.same]
      · rw [if_neg h4]
        dsimp only
        rw [if_neg]
        rintro ⟨_, hc | hc, _⟩
        · exact h2 hc
        · exact h4 hc
  · rw [if_neg h1, if_neg (fun hc => h1 hc.1)]
    rfl

/-- The state with the device made current for a thread. -/
def focus (s : Mgr) (t : Nat) (id : Int) : Mgr := { s with cuda := upd s.cuda t id, active := upd s.active t id }

theorem setActive_eq (e : Env) (t : Nat) (id : Int) (s : Mgr) : setActive e t id s = if e.setOk = true then .ok () (focus s t id) else .throw s := by
  rw [setActive]
  by_cases h : e.setOk = true
  · rw [if_pos h]
    have : cudaSet e t id s = .ok () { s with cuda := upd s.cuda t id } := if_pos h
    rw [bind_ok this]
    rfl
  · rw [if_neg h]
    exact bind_throw (if_neg h)

theorem deleteDev_ok {e : Env} (he : e.setOk = true) (t : Nat) (id : Int) (s : Mgr) : deleteDev e t id s = .ok () (focus s t id) := by
  rw [deleteDev, setActive_eq, if_pos he]

theorem Inv.focus {s : Mgr} (h : Inv s) (t : Nat) (id : Int) : Inv (focus s t id) := by
  refine ⟨h.nodup, h.range, h.cur, fun t' => ?_⟩
  show upd s.cuda t id t' = upd s.active t id t'
  unfold upd
  split
  · rfl
  · exact h.same t'

theorem focus_focus (s : Mgr) (t : Nat) (a b : Int) : focus (focus s t a) t b = focus s t b := by
  unfold focus
  dsimp only
  rw [upd_upd, upd_upd]

/-- The device on which `closeDevices` ends. -/
def lastId : List Dev → Int → Int
  | [], id => id
  | d :: l, _ => lastId l d.id

theorem deleteAll_ok {e : Env} (he : e.setOk = true) (t : Nat) : ∀ (l : List Dev) (s : Mgr),
    deleteAll e t l s = .ok () (if l = [] then s else focus s t (lastId l 0))
  | [], _ => rfl
  | [d], s => by
    rw [deleteAll, bind_ok (deleteDev_ok he t d.id s), deleteAll, if_neg (by simp)]
    rfl
  | d :: d' :: l, s => by
    rw [deleteAll, bind_ok (deleteDev_ok he t d.id s), deleteAll_ok he t (d' :: l), if_neg (by simp), if_neg (by simp), focus_focus]
    rfl

/-- Devices changed by a function which keeps the ID and a sensible current stream. -/
theorem Inv.map {s : Mgr} (h : Inv s) {f : Dev → Dev} (hf : ∀ d, (f d).id = d.id)
    (hc : ∀ d, (d.cur < d.streams.length ∨ (d.cur = 0 ∧ d.streams = [])) → (f d).cur < (f d).streams.length ∨ ((f d).cur = 0 ∧ (f d).streams = [])) :
    Inv { s with devs := s.devs.map f } := by
  refine ⟨?_, ?_, ?_, h.same⟩
  · show ((s.devs.map f).map Dev.id).Nodup
    rw [List.map_map, show Dev.id ∘ f = Dev.id from funext hf]
    exact h.nodup
  · intro d hd
    obtain ⟨d', hd', rfl⟩ := List.mem_map.mp hd
    rw [hf]
    exact h.range d' hd'
  · intro d hd
    obtain ⟨d', hd', rfl⟩ := List.mem_map.mp hd
    exact hc d' (h.cur d' hd')

theorem map_map_if (l : List Dev) (id : Int) (f g : Dev → Dev) (hf : ∀ d, (f d).id = d.id) :
    (l.map fun d => if d.id = id then f d else d).map (fun d => if d.id = id then g d else d) = l.map fun d => if d.id = id then g (f d) else d := by
  rw [List.map_map]
  refine List.map_congr_left fun d _ => ?_
  show (if (if d.id = id then f d else d).id = id then _ else _) = _
  by_cases h : d.id = id
  · simp only [if_pos h, hf]
  · simp only [if_neg h]

/-- New streams are on the runtime's current device; the first failure ends. -/
theorem pushStreams_eq (e : Env) (t : Nat) (id : Int) : ∀ (n : Nat) (s : Mgr), ∃ k, k ≤ n ∧
    pushStreams e t id n s = (if k = n then Res.ok () else Res.throw) { s with devs := s.devs.map fun d => if d.id = id then { d with streams := d.streams ++ List.replicate k (s.cuda t) } else d }
    ∧ ((∀ j, e.stream j = true) → k = n)
  | 0, s => by
    refine ⟨0, Nat.le_refl 0, ?_, fun _ => rfl⟩
    rw [pushStreams, if_pos rfl]
    show Res.ok () s = _
    congr 1
    have : (s.devs.map fun d => if d.id = id then { d with streams := d.streams ++ List.replicate 0 (s.cuda t) } else d) = s.devs := by
      conv => rhs; rw [← List.map_id s.devs]
      refine List.map_congr_left fun d _ => ?_
      split
      · simp
      · rfl
    rw [this]
  | n + 1, s => by
    by_cases hn : e.stream n = true
    · obtain ⟨k, hk, h1, h2⟩ := pushStreams_eq e t id n { s with devs := s.devs.map fun d => if d.id = id then { d with streams := d.streams ++ [s.cuda t] } else d }
      refine ⟨k + 1, by omega, ?_, fun h => by rw [h2 h]⟩
      rw [pushStreams]
      refine (bind_ok (show pushStream (e.stream n) t id s = .ok () _ from if_pos hn)).trans ?_
      rw [h1]
      have e1 : ((if k = n then Res.ok () else Res.throw) : Mgr → Res Mgr Unit) = if k + 1 = n + 1 then Res.ok () else Res.throw := by
        by_cases hkn : k = n
        · rw [if_pos hkn, if_pos (by omega)]
        · rw [if_neg hkn, if_neg (by omega)]
      rw [e1]
      dsimp only
      rw [map_map_if _ _ (fun d => { d with streams := d.streams ++ [s.cuda t] }) _ (fun _ => rfl)]
      simp only [List.append_assoc, ← List.replicate_succ, List.singleton_append]
    · refine ⟨0, by omega, ?_, fun h => absurd (h n) hn⟩
      rw [pushStreams]
      refine (bind_throw (show pushStream (e.stream n) t id s = .throw _ from if_neg hn)).trans ?_
      rw [if_neg (by omega)]
      have : (s.devs.map fun d => if d.id = id then { d with streams := d.streams ++ List.replicate 0 (s.cuda t) } else d) = s.devs := by
        conv => rhs; rw [← List.map_id s.devs]
        refine List.map_congr_left fun d _ => ?_
        split
        · simp
        · rfl
      rw [this]

theorem nodup_inj {l : List Dev} (h : (l.map Dev.id).Nodup) {a b : Dev} (ha : a ∈ l) (hb : b ∈ l) (hi : a.id = b.id) : a = b := by
  induction l with
  | nil => simp at ha
  | cons d l ih =>
    rw [List.map_cons, List.nodup_cons] at h
    rcases List.mem_cons.mp ha with rfl | ha'
    · rcases List.mem_cons.mp hb with rfl | hb'
      · rfl
      · exact absurd (List.mem_map.mpr ⟨b, hb', hi.symm⟩) h.1
    · rcases List.mem_cons.mp hb with rfl | hb'
      · exact absurd (List.mem_map.mpr ⟨a, ha', hi⟩) h.1
      · exact ih h.2 ha' hb'

/-- What a step does, as one of a few changes of the state. -/
inductive Change (s : Mgr) (e : Env) (t : Nat) : Op → Bool → Mgr → Prop where
  | same {op : Op} {b : Bool} : (∀ id, op = .close id → b = true → find s.devs id = none) → (∀ id, op = .init id → b = true → find s.devs id ≠ none) →
      (op = .closeAll → s.devs = []) → (∀ id, op = .setActive id → b = false) → Change s e t op b s
  | init {id : Int} : 0 ≤ id → id < s.supported → find s.devs id = none → Change s e t (.init id) true { s with devs := s.devs ++ [⟨id, e.hw id, e.hw id, 0, []⟩] }
  | close {id : Int} {d : Dev} : find s.devs id = some d → Change s e t (.close id) true { focus s t id with devs := s.devs.eraseP fun d => d.id == id }
  | closeAll : s.devs ≠ [] → Change s e t .closeAll true { focus s t (lastId s.devs 0) with devs := [] }
  | active {id : Int} {d : Dev} : find s.devs id = some d → Change s e t (.setActive id) true (focus s t id)
  | threads {id : Int} {n : Nat} {d : Dev} : find s.devs id = some d → n ≠ 0 → n % 32 = 0 → toInt32 n ≤ d.maxThreads →
      Change s e t (.setThreads id n) true { s with devs := s.devs.map fun d => if d.id = id then { d with threads := toInt32 n } else d }
  | current {id : Int} {k : Nat} {d : Dev} : find s.devs id = some d → k < d.streams.length →
      Change s e t (.setCurrent id k) true { s with devs := s.devs.map fun d => if d.id = id then { d with cur := k } else d }
  | more {id : Int} {n k : Nat} {d : Dev} {b : Bool} : find s.devs id = some d → k ≤ n - d.streams.length → n > d.streams.length → (b = true ↔ k = n - d.streams.length) →
      Change s e t (.setStreams id n) b { s with devs := s.devs.map fun d => if d.id = id then { d with streams := d.streams ++ List.replicate k (s.cuda t) } else d }
  | less {id : Int} {n : Nat} {d : Dev} : find s.devs id = some d → n < d.streams.length →
      Change s e t (.setStreams id n) true { s with devs := s.devs.map fun d => if d.id = id then { d with cur := if d.cur ≥ n then 0 else d.cur, streams := d.streams.take n } else d }

/-- Closing needs a runtime which can switch to the device: otherwise a destructor throws. -/
def Closes : Op → Prop
  | .close _ => True
  | .closeAll => True
  | _ => False

theorem step_change {s : Mgr} (h : Inv s) (e : Env) (t : Nat) (op : Op) (hc : Closes op → e.setOk = true) :
    ∃ b s', step e t op s = (if b = true then .ok () s' else .throw s') ∧ Change s e t op b s' := by
  cases op with
  | init id =>
    show ∃ b s', initializeDevice e t id s = _ ∧ _
    rw [initializeDevice]
    by_cases h1 : id < 0 ∨ id ≥ s.supported
    · rw [if_pos h1]
      exact ⟨false, s, rfl, .same (by simp) (by simp) (by simp) (by simp)⟩
    rw [if_neg h1]
    cases hf : find s.devs id with
    | some d => exact ⟨true, s, rfl, .same (by simp) (by simp [hf]) (by simp) (by simp)⟩
    | none =>
      dsimp only
      rw [newDev_eq h]
      by_cases hq : e.props = true ∧ (id = s.active t ∨ e.setOk = true) ∧ e.mem = true
      · rw [if_pos hq]
        exact ⟨true, _, rfl, .init (by omega) (by omega) hf⟩
      · rw [if_neg hq]
        exact ⟨false, s, rfl, .same (by simp) (by simp) (by simp) (by simp)⟩
  | close id =>
    show ∃ b s', closeDevice e t id s = _ ∧ _
    rw [closeDevice]
    by_cases h1 : id < 0 ∨ id ≥ s.supported
    · rw [if_pos h1]
      exact ⟨false, s, rfl, .same (by simp) (by simp) (by simp) (by simp)⟩
    rw [if_neg h1]
    cases hf : find s.devs id with
    | none => exact ⟨true, s, rfl, .same (by simpa using hf) (by simp) (by simp) (by simp)⟩
    | some d =>
      dsimp only
      rw [deleteDev_ok (hc trivial)]
      exact ⟨true, _, rfl, .close hf⟩
  | closeAll =>
    show ∃ b s', closeDevices e t s = _ ∧ _
    rw [closeDevices, deleteAll_ok (hc trivial)]
    by_cases hd : s.devs = []
    · rw [if_pos hd]
      refine ⟨true, s, ?_, .same (by simp) (by simp) (fun _ => hd) (by simp)⟩
      show Res.ok () ({ s with devs := [] } : Mgr) = _
      rw [if_pos rfl]
      congr 1
      rw [← hd]
    · rw [if_neg hd]
      exact ⟨true, _, rfl, .closeAll hd⟩
  | setActive id =>
    show ∃ b s', setActiveDevice e t id s = _ ∧ _
    rw [setActiveDevice]
    cases hf : find s.devs id with
    | none => exact ⟨false, s, rfl, .same (by simp) (by simp) (by simp) (by simp)⟩
    | some d =>
      dsimp only
      rw [setActive_eq, (find_some hf).2]
      split
      · exact ⟨true, _, rfl, .active hf⟩
      · exact ⟨false, s, rfl, .same (by simp) (by simp) (by simp) (by simp)⟩
  | setThreads id n =>
    show ∃ b s', setThreadsPerBlock id n s = _ ∧ _
    rw [setThreadsPerBlock]
    cases hf : find s.devs id with
    | none =>
      rw [bind_throw (device_throw hf)]
      exact ⟨false, s, rfl, .same (by simp) (by simp) (by simp) (by simp)⟩
    | some d =>
      rw [bind_ok (device_ok hf)]
      by_cases h1 : n = 0 ∨ n % 32 ≠ 0
      · rw [if_pos h1]
        exact ⟨false, s, rfl, .same (by simp) (by simp) (by simp) (by simp)⟩
      rw [if_neg h1]
      by_cases h2 : toInt32 n ≤ d.maxThreads
      · rw [if_pos h2]
        exact ⟨true, _, rfl, .threads hf (by omega) (by omega) h2⟩
      · rw [if_neg h2]
        exact ⟨true, s, rfl, .same (by simp) (by simp) (by simp) (by simp)⟩
  | setCurrent id k =>
    show ∃ b s', setCurrentStreamId id k s = _ ∧ _
    rw [setCurrentStreamId]
    cases hf : find s.devs id with
    | none =>
      rw [bind_throw (device_throw hf)]
      exact ⟨false, s, rfl, .same (by simp) (by simp) (by simp) (by simp)⟩
    | some d =>
      rw [bind_ok (device_ok hf)]
      split
      · rename_i h1
        exact ⟨true, _, rfl, .current hf h1.2⟩
      · exact ⟨true, s, rfl, .same (by simp) (by simp) (by simp) (by simp)⟩
  | setStreams id n =>
    show ∃ b s', setStreamCount e t id n s = _ ∧ _
    rw [setStreamCount]
    cases hf : find s.devs id with
    | none =>
      rw [bind_throw (device_throw hf)]
      exact ⟨false, s, rfl, .same (by simp) (by simp) (by simp) (by simp)⟩
    | some d =>
      rw [bind_ok (device_ok hf)]
      by_cases h1 : n > d.streams.length
      · rw [if_pos h1]
        obtain ⟨k, hk, h2, _⟩ := pushStreams_eq e t id (n - d.streams.length) s
        refine ⟨decide (k = n - d.streams.length), _, ?_, .more (k := k) hf hk h1 (by simp)⟩
        rw [h2]
        by_cases hkn : k = n - d.streams.length
        · rw [if_pos hkn, if_pos (by simpa using hkn)]
        · rw [if_neg hkn, if_neg (by simpa using hkn)]
      rw [if_neg h1]
      by_cases h2 : n < d.streams.length
      · rw [if_pos h2]
        exact ⟨true, _, rfl, .less hf h2⟩
      · rw [if_neg h2]
        exact ⟨true, s, rfl, .same (by simp) (by simp) (by simp) (by simp)⟩
  | sync id =>
    show ∃ b s', (synchronize e t id >>= fun _ => pure ()) s = _ ∧ _
    have : ∃ b, (synchronize e t id >>= fun _ => pure ()) s = if b = true then .ok () s else .throw s := by
      unfold synchronize
      cases hf : find s.devs id with
      | none => exact ⟨false, bind_throw (bind_throw (device_throw hf))⟩
      | some d =>
        by_cases hs : e.sync = true
        · exact ⟨true, bind_ok ((bind_ok (device_ok hf)).trans (if_pos hs))⟩
        · exact ⟨false, bind_throw ((bind_ok (device_ok hf)).trans (if_neg hs))⟩
    obtain ⟨b, hb⟩ := this
    exact ⟨b, s, hb, .same (by simp) (by simp) (by simp) (by simp)⟩

theorem Change.inv {s s' : Mgr} {e : Env} {t : Nat} {op : Op} {b : Bool} (c : Change s e t op b s') (h : Inv s) : Inv s' := by
  cases c with
  | same => exact h
  | init h1 h2 h3 =>
    rename_i id
    refine ⟨?_, ?_, ?_, h.same⟩
    · show ((s.devs ++ [_]).map Dev.id).Nodup
      rw [List.map_append, List.nodup_append]
      refine ⟨h.nodup, by simp, fun a ha b hb => ?_⟩
      obtain ⟨d, hd, rfl⟩ := List.mem_map.mp ha
      have hb' : b = id := by simpa using hb
      rw [hb']
      exact find_none h3 d hd
    · intro d hd
      rcases List.mem_append.mp hd with hd | hd
      · exact h.range d hd
      · rw [List.mem_singleton.mp hd]
        exact ⟨h1, h2⟩
    · intro d hd
      rcases List.mem_append.mp hd with hd | hd
      · exact h.cur d hd
      · rw [List.mem_singleton.mp hd]
        exact .inr ⟨rfl, rfl⟩
  | close h1 =>
    rename_i id d
    refine ⟨?_, fun d hd => h.range d (List.mem_of_mem_eraseP hd), fun d hd => h.cur d (List.mem_of_mem_eraseP hd), (h.focus t id).same⟩
    exact h.nodup.sublist ((List.eraseP_sublist).map _)
  | closeAll _ => exact ⟨List.nodup_nil, by simp, by simp, (h.focus t _).same⟩
  | active _ => exact h.focus t _
  | threads _ _ _ _ =>
    refine h.map (f := fun d => if d.id = _ then _ else d) (fun d => ?_) (fun d hd => ?_)
    · split <;> rfl
    · split <;> exact hd
  | current h1 h2 =>
    rename_i id k d
    refine ⟨?_, ?_, ?_, h.same⟩
    · have := (h.map (f := fun d => if d.id = id then { d with cur := 0 } else d) (fun d => by split <;> rfl) (fun d hd => by
        split
        · rcases hd with hd | hd
          · exact .inl (Nat.lt_of_le_of_lt (Nat.zero_le _) hd)
          · exact .inr ⟨rfl, hd.2⟩
        · exact hd)).nodup
      have e1 : (s.devs.map fun d => if d.id = id then { d with cur := k } else d).map Dev.id = s.devs.map Dev.id := by
        rw [List.map_map]
        exact List.map_congr_left fun d _ => by show (if d.id = id then _ else _ : Dev).id = _; split <;> rfl
      show ((s.devs.map fun d => if d.id = id then { d with cur := k } else d).map Dev.id).Nodup
      rw [e1]
      exact h.nodup
    · intro x hx
      obtain ⟨d', hd', rfl⟩ := List.mem_map.mp hx
      have := h.range d' hd'
      show 0 ≤ (if d'.id = id then _ else _ : Dev).id ∧ (if d'.id = id then _ else _ : Dev).id < _
      split <;> exact this
    · intro x hx
      obtain ⟨d', hd', rfl⟩ := List.mem_map.mp hx
      by_cases hid : d'.id = id
      · have hdd : d' = d := by
          have ⟨hm, hi⟩ := find_some h1
          exact nodup_inj h.nodup hd' hm (by rw [hid, hi])
        show (if d'.id = id then _ else _ : Dev).cur < (if d'.id = id then _ else _ : Dev).streams.length ∨ _
        rw [if_pos hid]
        left
        rw [hdd]
        exact h2
      · show (if d'.id = id then _ else _ : Dev).cur < (if d'.id = id then _ else _ : Dev).streams.length ∨ (if d'.id = id then _ else _ : Dev).cur = 0 ∧ (if d'.id = id then _ else _ : Dev).streams = []
        rw [if_neg hid]
        exact h.cur d' hd'
  | more h1 h2 h3 h4 =>
    refine h.map (f := fun d => if d.id = _ then _ else d) (fun d => ?_) (fun d hd => ?_)
    · split <;> rfl
    · split
      · rename_i k _ _ _
        show d.cur < (d.streams ++ List.replicate _ _).length ∨ (d.cur = 0 ∧ d.streams ++ List.replicate _ _ = [])
        rcases hd with hd | hd
        · left
          rw [List.length_append]
          omega
        · rw [hd.1, hd.2, List.nil_append]
          cases hk : List.replicate _ (s.cuda t) with
          | nil => exact .inr ⟨rfl, rfl⟩
          | cons => exact .inl (by simp)
      · exact hd
  | less h1 h2 =>
    rename_i id n d
    refine h.map (f := fun d => if d.id = _ then _ else d) (fun d => ?_) (fun d hd => ?_)
    · split <;> rfl
    · split
      · show (if d.cur ≥ n then 0 else d.cur) < (d.streams.take n).length ∨ ((if d.cur ≥ n then 0 else d.cur) = 0 ∧ d.streams.take n = [])
        rw [List.length_take]
        rcases hd with hd | hd
        · split
          · by_cases hn : n = 0
            · exact .inr ⟨rfl, by rw [hn, List.take_zero]⟩
            · exact .inl (by omega)
          · exact .inl (by omega)
        · rw [hd.1, hd.2]
          exact .inr ⟨by split <;> rfl, by simp⟩
      · exact hd

end PV.CudaDevice
