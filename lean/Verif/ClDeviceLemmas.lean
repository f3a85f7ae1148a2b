import Verif.ClDevice
/-
  Lemmas about the devices of ClDevice.lean.
-/
namespace PV.ClDevice
open PV

theorem upd_same {β : Type} (f : Nat → β) (i : Nat) (x : β) : upd f i x i = x := if_pos rfl

theorem upd_other {β : Type} (f : Nat → β) {i j : Nat} (x : β) (h : j ≠ i) : upd f i x j = f j := if_neg h

theorem find_some {l : List Dev} {c : Nat} {d : Dev} (h : find l c = some d) : d ∈ l ∧ d.cl = c :=
  ⟨List.mem_of_find?_eq_some h, by simpa using List.find?_some h⟩

theorem find_none {l : List Dev} {c : Nat} (h : find l c = none) : ∀ d ∈ l, d.cl ≠ c := by
  intro d hd hc
  have := List.find?_eq_none.mp h d hd
  simp [hc] at this

theorem find_append (l : List Dev) (d : Dev) (c : Nat) : find (l ++ [d]) c = (find l c).or (if d.cl = c then some d else none) := by
  unfold find
  rw [List.find?_append]
  congr 1
  rw [List.find?_cons]
  by_cases h : d.cl = c
  · simp [h]
  · rw [show (d.cl == c) = false by simpa using h, if_neg h]
    rfl

theorem find_map {f : Dev → Dev} (hf : ∀ d, (f d).cl = d.cl) (l : List Dev) (c k : Nat) :
    find (l.map fun d => if d.cl = c then f d else d) k = if k = c then (find l k).map f else find l k := by
  induction l with
  | nil => simp [find]
  | cons d l ih =>
    unfold find at ih ⊢
    rw [List.map_cons, List.find?_cons, List.find?_cons]
    by_cases hd : d.cl = c
    · rw [if_pos hd, hf]
      by_cases hk : d.cl = k
      · rw [show (d.cl == k) = true by simpa using hk]
        simp only
        rw [if_pos (by omega)]
        rfl
      · rw [show (d.cl == k) = false by simpa using hk]
        exact ih
    · rw [if_neg hd]
      by_cases hk : d.cl = k
      · rw [show (d.cl == k) = true by simpa using hk]
        simp only
        rw [if_neg (by omega)]
      · rw [show (d.cl == k) = false by simpa using hk]
        exact ih

theorem find_erase (l : List Dev) (h : (l.map Dev.cl).Nodup) (c k : Nat) :
    find (l.eraseP fun d => d.cl == c) k = if k = c then none else find l k := by
  induction l with
  | nil => simp [find]
  | cons d l ih =>
    rw [List.map_cons, List.nodup_cons] at h
    rw [List.eraseP_cons]
    by_cases hd : d.cl = c
    · rw [show (d.cl == c) = true by simpa using hd]
      simp only [cond_true]
      by_cases hk : k = c
      · rw [if_pos hk]
        refine List.find?_eq_none.mpr fun x hx => ?_
        have : x.cl ≠ k := fun hc => h.1 (List.mem_map.mpr ⟨x, hx, by omega⟩)
        simpa using this
      · rw [if_neg hk]
        unfold find
        rw [List.find?_cons, show (d.cl == k) = false by simp; omega]
    · rw [show (d.cl == c) = false by simpa using hd]
      simp only [cond_false]
      unfold find at ih ⊢
      rw [List.find?_cons, List.find?_cons, ih h.2]
      by_cases hk : d.cl = k
      · rw [show (d.cl == k) = true by simpa using hk]
        simp only
        rw [if_neg (by omega)]
      · rw [show (d.cl == k) = false by simpa using hk]

theorem nodup_inj {l : List Dev} (h : (l.map Dev.cl).Nodup) {a b : Dev} (ha : a ∈ l) (hb : b ∈ l) (hi : a.cl = b.cl) : a = b := by
  induction l with
  | nil => simp at ha
  | cons d l ih =>
    rw [List.map_cons, List.nodup_cons] at h
    rcases List.mem_cons.mp ha with rfl | ha'
    · rcases List.mem_cons.mp hb with rfl | hb'
      · rfl
      · exact absurd (List.mem_map.mpr ⟨b, hb', hi.symm⟩) h.1
    · rcases List.mem_cons.mp hb with rfl | hb'
      · exact absurd (List.mem_map.mpr ⟨a, ha', hi⟩) h.1
      · exact ih h.2 ha' hb'

structure Inv (s : Mgr) : Prop where
  sup : s.supported.Nodup
  nodup : (s.devs.map Dev.cl).Nodup
  range : ∀ d ∈ s.devs, d.cl ∈ s.supported
  cur : ∀ d ∈ s.devs, d.cur < d.queues ∨ (d.cur = 0 ∧ d.queues = 0)
  limit : ∀ d ∈ s.devs, d.queues ≤ 255
  ctx : ∀ d ∈ s.devs, d.ctx < s.next
  active : ∀ t, s.active t < s.supported.length ∨ s.active t = 0

/-- The device with an index in the list of supported devices -/
def devAt (s : Mgr) (id : Nat) : Option Dev := s.supported[id]? >>= find s.devs

theorem devs_ne {s : Mgr} {c : Nat} {d : Dev} (h : find s.devs c = some d) : s.devs ≠ [] := by
  intro hc
  rw [hc] at h
  cases h

theorem device_at {s : Mgr} {id : Nat} (h : id < s.supported.length) : device id s = match devAt s id with | some d => .ok d s | none => .throw s := by
  unfold device devAt
  rw [List.getElem?_eq_getElem h]
  by_cases hd : s.devs = []
  · rw [if_pos hd]
    show _ = match find s.devs _ with | some d => Res.ok d s | none => Res.throw s
    rw [hd]
    rfl
  · rw [if_neg hd]
    show (match find s.devs _ with | some d => Res.ok d s | none => Res.throw s) = _
    cases hf : find s.devs s.supported[id] <;> (show _ = match find s.devs _ with | some d => Res.ok d s | none => Res.throw s) <;> rw [hf]

theorem device_ok {s : Mgr} {id : Nat} {d : Dev} (h : devAt s id = some d) : device id s = .ok d s := by
  have hl : id < s.supported.length := by
    unfold devAt at h
    cases hs : s.supported[id]? with
    | none => rw [hs] at h; cases h
    | some c => exact (List.getElem?_eq_some_iff.mp hs).1
  rw [device_at hl, h]

theorem devAt_mem {s : Mgr} {id : Nat} {d : Dev} (h : devAt s id = some d) : d ∈ s.devs ∧ s.supported[id]? = some d.cl ∧ find s.devs d.cl = some d := by
  unfold devAt at h
  cases hs : s.supported[id]? with
  | none => rw [hs] at h; cases h
  | some c =>
    rw [hs] at h
    replace h : find s.devs c = some d := h
    obtain ⟨h1, h2⟩ := find_some h
    exact ⟨h1, by rw [h2], by rw [h2]; exact h⟩

theorem modify_eq (c : Nat) (f : Dev → Dev) (s : Mgr) : modify c f s = .ok () { s with devs := s.devs.map fun d => if d.cl = c then f d else d } := rfl

theorem map_map_if (l : List Dev) (c : Nat) (f g : Dev → Dev) (hf : ∀ d, (f d).cl = d.cl) :
    (l.map fun d => if d.cl = c then f d else d).map (fun d => if d.cl = c then g d else d) = l.map fun d => if d.cl = c then g (f d) else d := by
  rw [List.map_map]
  refine List.map_congr_left fun d _ => ?_
  show (if (if d.cl = c then f d else d).cl = c then _ else _) = _
  by_cases h : d.cl = c
  · simp only [if_pos h, hf]
  · simp only [if_neg h]

/-- n more queues -/
def more (n : Nat) (d : Dev) : Dev := { d with queues := d.queues + n }

theorem map_id_if (l : List Dev) (c : Nat) : (l.map fun d => if d.cl = c then more 0 d else d) = l := by
  conv => rhs; rw [← List.map_id l]
  refine List.map_congr_left fun d _ => ?_
  split <;> rfl

theorem pushQueues_eq (e : Env) (c : Nat) : ∀ (n : Nat) (s : Mgr), ∃ k, k ≤ n ∧
    pushQueues e c n s = (if k = n then Res.ok () else Res.throw) { s with devs := s.devs.map fun d => if d.cl = c then more k d else d }
    ∧ ((∀ j, e.queue j = true) → k = n)
  | 0, s => by
    refine ⟨0, Nat.le_refl 0, ?_, fun _ => rfl⟩
    rw [pushQueues, if_pos rfl, map_id_if]
    rfl
  | n + 1, s => by
    by_cases hn : e.queue n = true
    · obtain ⟨k, hk, h1, h2⟩ := pushQueues_eq e c n { s with devs := s.devs.map fun d => if d.cl = c then more 1 d else d }
      refine ⟨k + 1, by omega, ?_, fun h => by rw [h2 h]⟩
      rw [pushQueues]
      refine (bind_ok (show pushQueue (e.queue n) c s = .ok () { s with devs := s.devs.map fun d => if d.cl = c then more 1 d else d } from if_pos hn)).trans ?_
      rw [h1]
      have e1 : ((if k = n then Res.ok () else Res.throw) : Mgr → Res Mgr Unit) = if k + 1 = n + 1 then Res.ok () else Res.throw := by
        by_cases hkn : k = n
        · rw [if_pos hkn, if_pos (by omega)]
        · rw [if_neg hkn, if_neg (by omega)]
      rw [e1]
      dsimp only
      rw [map_map_if _ _ (more 1) _ (fun _ => rfl)]
      have : ∀ d, more k (more 1 d) = more (k + 1) d := fun d => by
        unfold more
        dsimp only
        rw [Nat.add_assoc, Nat.add_comm 1 k]
      simp only [this]
    · refine ⟨0, by omega, ?_, fun h => absurd (h n) hn⟩
      rw [pushQueues]
      refine (bind_throw (show pushQueue (e.queue n) c s = .throw s from if_neg hn)).trans ?_
      rw [if_neg (by omega), map_id_if]

/-- n queues are left. -/
def fewer (n : Nat) (d : Dev) : Dev := { d with cur := if d.cur ≥ n then 0 else d.cur, queues := n }

/-- The state with a device changed -/
def changed (s : Mgr) (c : Nat) (f : Dev → Dev) : Mgr := { s with devs := s.devs.map fun d => if d.cl = c then f d else d }

/-- What a step does, as one of a few changes of the state. -/
inductive Change (s : Mgr) (t : Nat) : Op → Bool → Mgr → Prop where
  | same {op : Op} {b : Bool} : (∀ id, op = .close id → b = false) → (∀ id, op = .init id → b = true → devAt s id ≠ none) →
      (op ≠ .closeAll) → (∀ id, op = .setActive id → b = false) → Change s t op b s
  | ctx {id : Nat} : Change s t (.init id) false { s with next := s.next + 1 }
  | init {id c : Nat} : s.supported[id]? = some c → find s.devs c = none → Change s t (.init id) true { s with next := s.next + 1, devs := s.devs ++ [⟨c, s.next, 0, 1⟩] }
  | close {id c : Nat} : s.supported[id]? = some c → Change s t (.close id) true { s with devs := s.devs.eraseP fun d => d.cl == c }
  | closeAll : Change s t .closeAll true { s with devs := [] }
  | active {id : Nat} {d : Dev} : devAt s id = some d → Change s t (.setActive id) true { s with active := upd s.active t id }
  | current {id k : Nat} {d : Dev} : devAt s id = some d → k < d.queues → Change s t (.setCurrent id k) true (changed s d.cl fun d => { d with cur := k })
  | more {id n k : Nat} {d : Dev} {b : Bool} : devAt s id = some d → d.queues + k ≤ 255 → Change s t (.setQueues id n) b (changed s d.cl (more k))
  | less {id n m : Nat} {d : Dev} : devAt s id = some d → m < d.queues → Change s t (.setQueues id n) true (changed s d.cl (fewer m))
  | prog {b : Bool} {d : Dev} {x : Option Nat} : devAt s (s.active t) = some d → (∀ c, x = some c → c = d.ctx) → s.prog d.cl = none → Change s t .program b { s with prog := upd s.prog d.cl (some x) }
  | memset {b : Bool} {d : Dev} : devAt s (s.active t) = some d → s.memset d.cl = none → Change s t .fill b { s with memset := upd s.memset d.cl (some d.ctx) }

/-- What the library does not check -/
structure Legal (s : Mgr) (t : Nat) (op : Op) : Prop where
  /-- IDs are those of supported devices (initialising and closing check this) -/
  id : ∀ id, (op = .setActive id ∨ (∃ k, op = .setCurrent id k) ∨ ∃ n, op = .setQueues id n) → id < s.supported.length
  /-- work needs a queue and no program whose build failed -/
  queue : op = .program ∨ op = .fill → ∀ d, devAt s (s.active t) = some d → 0 < d.queues
  build : op = .program → ∀ d, devAt s (s.active t) = some d → s.prog d.cl ≠ some none

theorem deviceOf_legal {s : Mgr} (h : Inv s) (t : Nat) : deviceOf t s = match devAt s (s.active t) with | some d => .ok d s | none => .throw s := by
  unfold deviceOf
  by_cases hl : s.active t < s.supported.length
  · exact device_at hl
  · have hz : s.active t = 0 := (h.active t).resolve_left hl
    have he : s.supported = [] := by
      rw [hz] at hl
      exact List.eq_nil_of_length_eq_zero (by omega)
    have hd : s.devs = [] := by
      cases hd : s.devs with
      | nil => rfl
      | cons d l =>
        have := h.range d (by rw [hd]; exact List.mem_cons_self)
        rw [he] at this
        cases this
    have : devAt s (s.active t) = none := by
      unfold devAt
      rw [he]
      rfl
    rw [this]
    unfold device
    rw [if_pos hd]

theorem launch_eq {e : Env} {d : Dev} (hq : d.cur < d.queues) (c : Nat) (s : Mgr) : launch e d c s = if c = d.ctx ∧ e.run = true then .ok () s else .throw s := by
  unfold launch
  have : queueOf d s = .ok d.cur s := by
    unfold queueOf
    rw [if_pos hq]
    rfl
  rw [bind_ok this]
  split <;> rfl

theorem Inv.lt_queues {s : Mgr} (h : Inv s) {d : Dev} (hd : d ∈ s.devs) (hq : 0 < d.queues) : d.cur < d.queues := by
  rcases h.cur d hd with h | h
  · exact h
  · omega

theorem throwE_eq (s : Mgr) : (throwE : M Mgr Unit) s = .throw s := rfl

theorem step_change {s : Mgr} (h : Inv s) (e : Env) (t : Nat) (op : Op) (hc : Legal s t op) :
    ∃ b s', step e t op s = (if b = true then .ok () s' else .throw s') ∧ Change s t op b s' := by
  cases op with
  | init id =>
    show ∃ b s', initializeDevice e id s = _ ∧ _
    rw [initializeDevice]
    cases hs : s.supported[id]? with
    | none => exact ⟨false, s, rfl, .same (by simp) (by simp) (by simp) (by simp)⟩
    | some c =>
      dsimp only
      cases hf : find s.devs c with
      | some d =>
        refine ⟨true, s, rfl, .same (by simp) (fun id' hid _ => ?_) (by simp) (by simp)⟩
        cases hid
        unfold devAt
        rw [hs]
        show find s.devs c ≠ none
        rw [hf]
        simp
      | none =>
        dsimp only
        unfold addDev
        by_cases h1 : e.ctx = true
        · by_cases h2 : e.mem = true ∧ e.queue 0 = true
          · have : newDev e c s = .ok ⟨c, s.next, 0, 1⟩ { s with next := s.next + 1 } := by
              rw [newDev, if_pos h1, if_pos h2]
            exact ⟨true, _, (bind_ok this), .init hs hf⟩
          · have : newDev e c s = .throw { s with next := s.next + 1 } := by
              rw [newDev, if_pos h1, if_neg h2]
            exact ⟨false, _, (bind_throw this), .ctx⟩
        · have : newDev e c s = .throw s := by
            rw [newDev, if_neg h1]
          exact ⟨false, s, (bind_throw this), .same (by simp) (by simp) (by simp) (by simp)⟩
  | close id =>
    show ∃ b s', closeDevice id s = _ ∧ _
    rw [closeDevice]
    cases hs : s.supported[id]? with
    | none => exact ⟨false, s, rfl, .same (by simp) (by simp) (by simp) (by simp)⟩
    | some c => exact ⟨true, _, rfl, .close hs⟩
  | closeAll => exact ⟨true, _, rfl, .closeAll⟩
  | setActive id =>
    show ∃ b s', setActiveDevice t id s = _ ∧ _
    unfold setActiveDevice
    have hd := device_at (hc.id id (.inl rfl))
    cases hf : devAt s id with
    | none =>
      rw [hf] at hd
      exact ⟨false, s, bind_throw hd, .same (by simp) (by simp) (by simp) (by simp)⟩
    | some d =>
      rw [hf] at hd
      exact ⟨true, _, bind_ok hd, .active hf⟩
  | setCurrent id k =>
    show ∃ b s', setCurrentQueueId id k s = _ ∧ _
    unfold setCurrentQueueId
    have hd := device_at (hc.id id (.inr (.inl ⟨k, rfl⟩)))
    cases hf : devAt s id with
    | none =>
      rw [hf] at hd
      exact ⟨false, s, bind_throw hd, .same (by simp) (by simp) (by simp) (by simp)⟩
    | some d =>
      rw [hf] at hd
      rw [bind_ok hd]
      by_cases h1 : d.cur ≠ k ∧ k < d.queues
      · rw [if_pos h1]
        exact ⟨true, _, rfl, .current hf h1.2⟩
      · rw [if_neg h1]
        exact ⟨true, s, rfl, .same (by simp) (by simp) (by simp) (by simp)⟩
  | setQueues id n =>
    show ∃ b s', setQueueCount e id n s = _ ∧ _
    unfold setQueueCount
    have hd := device_at (hc.id id (.inr (.inr ⟨n, rfl⟩)))
    cases hf : devAt s id with
    | none =>
      rw [hf] at hd
      exact ⟨false, s, bind_throw hd, .same (by simp) (by simp) (by simp) (by simp)⟩
    | some d =>
      rw [hf] at hd
      rw [bind_ok hd]
      have hm : (if n > 255 then 255 else n) ≤ 255 := by
        split <;> omega
      generalize (if n > 255 then 255 else n) = m at hm
      unfold setQueues
      by_cases h1 : m > d.queues
      · rw [if_pos h1]
        obtain ⟨k, hk, h2, _⟩ := pushQueues_eq e d.cl (m - d.queues) s
        refine ⟨decide (k = m - d.queues), _, ?_, .more (k := k) hf (by omega)⟩
        rw [h2]
        by_cases hkn : k = m - d.queues
        · rw [if_pos hkn, if_pos (by simpa using hkn)]
          rfl
        · rw [if_neg hkn, if_neg (by simpa using hkn)]
          rfl
      rw [if_neg h1]
      by_cases h2 : m < d.queues
      · rw [if_pos h2]
        exact ⟨true, _, rfl, .less hf h2⟩
      · rw [if_neg h2]
        exact ⟨true, s, rfl, .same (by simp) (by simp) (by simp) (by simp)⟩
  | program =>
    show ∃ b s', runProgram e t s = _ ∧ _
    unfold runProgram
    have hd := deviceOf_legal h t
    cases hf : devAt s (s.active t) with
    | none =>
      rw [hf] at hd
      exact ⟨false, s, bind_throw hd, .same (by simp) (by simp) (by simp) (by simp)⟩
    | some d =>
      rw [hf] at hd
      have hq := h.lt_queues (devAt_mem hf).1 (hc.queue (.inl rfl) d hf)
      rw [bind_ok hd]
      cases hp : s.prog d.cl with
      | some x =>
        cases x with
        | none => exact absurd hp (hc.build rfl d hf)
        | some c =>
          have hpo : programOf e d s = .ok c s := by rw [programOf, hp]
          rw [bind_ok hpo, bind_ok hd, launch_eq hq]
          by_cases hl : c = d.ctx ∧ e.run = true
          · rw [if_pos hl]
            exact ⟨true, s, rfl, .same (by simp) (by simp) (by simp) (by simp)⟩
          · rw [if_neg hl]
            exact ⟨false, s, rfl, .same (by simp) (by simp) (by simp) (by simp)⟩
      | none =>
        by_cases hb : e.build = true
        · have hpo : programOf e d s = .ok d.ctx { s with prog := upd s.prog d.cl (some (some d.ctx)) } := by
            rw [programOf, hp]
            exact if_pos hb
          have hd2 : deviceOf t ({ s with prog := upd s.prog d.cl (some (some d.ctx)) } : Mgr) = .ok d { s with prog := upd s.prog d.cl (some (some d.ctx)) } :=
            device_ok (show devAt { s with prog := upd s.prog d.cl (some (some d.ctx)) } (s.active t) = some d from hf)
          rw [bind_ok hpo, bind_ok hd2, launch_eq hq]
          by_cases hl : d.ctx = d.ctx ∧ e.run = true
          · rw [if_pos hl]
            exact ⟨true, _, rfl, .prog hf (fun c hx => by cases hx; rfl) hp⟩
          · rw [if_neg hl]
            exact ⟨false, _, rfl, .prog hf (fun c hx => by cases hx; rfl) hp⟩
        · by_cases hl : e.leftFirst = true
          · have hpo : programOf e d s = .throw { s with prog := upd s.prog d.cl (some none) } := by
              rw [programOf, hp]
              dsimp only
              rw [if_neg hb, if_pos hl]
            exact ⟨false, _, bind_throw hpo, .prog hf (fun c hx => by cases hx) hp⟩
          · have hpo : programOf e d s = .throw s := by
              rw [programOf, hp]
              dsimp only
              rw [if_neg hb, if_neg hl]
            exact ⟨false, s, bind_throw hpo, .same (by simp) (by simp) (by simp) (by simp)⟩
  | fill =>
    show ∃ b s', memorySet e t s = _ ∧ _
    unfold memorySet
    have hd := deviceOf_legal h t
    cases hf : devAt s (s.active t) with
    | none =>
      rw [hf] at hd
      exact ⟨false, s, bind_throw hd, .same (by simp) (by simp) (by simp) (by simp)⟩
    | some d =>
      rw [hf] at hd
      have hq := h.lt_queues (devAt_mem hf).1 (hc.queue (.inr rfl) d hf)
      rw [bind_ok hd]
      cases hp : s.memset d.cl with
      | some c =>
        have hpo : memsetOf e d s = .ok c s := by rw [memsetOf, hp]
        rw [bind_ok hpo, bind_ok hd, launch_eq hq]
        by_cases hl : c = d.ctx ∧ e.run = true
        · rw [if_pos hl]
          exact ⟨true, s, rfl, .same (by simp) (by simp) (by simp) (by simp)⟩
        · rw [if_neg hl]
          exact ⟨false, s, rfl, .same (by simp) (by simp) (by simp) (by simp)⟩
      | none =>
        by_cases hb : e.build = true
        · have hpo : memsetOf e d s = .ok d.ctx { s with memset := upd s.memset d.cl (some d.ctx) } := by
            rw [memsetOf, hp]
            exact if_pos hb
          have hd2 : deviceOf t ({ s with memset := upd s.memset d.cl (some d.ctx) } : Mgr) = .ok d { s with memset := upd s.memset d.cl (some d.ctx) } :=
            device_ok (show devAt { s with memset := upd s.memset d.cl (some d.ctx) } (s.active t) = some d from hf)
          rw [bind_ok hpo, bind_ok hd2, launch_eq hq]
          by_cases hl : d.ctx = d.ctx ∧ e.run = true
          · rw [if_pos hl]
            exact ⟨true, _, rfl, .memset hf hp⟩
          · rw [if_neg hl]
            exact ⟨false, _, rfl, .memset hf hp⟩
        · have hpo : memsetOf e d s = .throw s := by
            rw [memsetOf, hp]
            dsimp only
            rw [if_neg hb]
          exact ⟨false, s, bind_throw hpo, .same (by simp) (by simp) (by simp) (by simp)⟩

theorem Inv.changed {s : Mgr} (h : Inv s) {c : Nat} {f : Dev → Dev} (hf : ∀ d, (f d).cl = d.cl ∧ (f d).ctx = d.ctx)
    (hc : ∀ d, find s.devs c = some d → ((f d).cur < (f d).queues ∨ ((f d).cur = 0 ∧ (f d).queues = 0)) ∧ (f d).queues ≤ 255) : Inv (changed s c f) := by
  have key : ∀ x ∈ (ClDevice.changed s c f).devs, (∃ d ∈ s.devs, d.cl = c ∧ find s.devs c = some d ∧ x = f d) ∨ x ∈ s.devs := by
    intro x hx
    obtain ⟨d, hd, rfl⟩ := List.mem_map.mp hx
    by_cases hdc : d.cl = c
    · left
      refine ⟨d, hd, hdc, ?_, if_pos hdc⟩
      cases hfd : find s.devs c with
      | none => exact absurd hdc (find_none hfd d hd)
      | some d' => rw [nodup_inj h.nodup (find_some hfd).1 hd (by rw [(find_some hfd).2, hdc])]
    · right
      rw [if_neg hdc]
      exact hd
  refine ⟨h.sup, ?_, ?_, ?_, ?_, ?_, h.active⟩
  · show ((s.devs.map fun d => if d.cl = c then f d else d).map Dev.cl).Nodup
    rw [List.map_map]
    have : (Dev.cl ∘ fun d => if d.cl = c then f d else d) = Dev.cl := by
      funext d
      show (if d.cl = c then f d else d).cl = d.cl
      split
      · exact (hf d).1
      · rfl
    rw [this]
    exact h.nodup
  · intro x hx
    rcases key x hx with ⟨d, hd, _, _, rfl⟩ | hx
    · rw [(hf d).1]
      exact h.range d hd
    · exact h.range x hx
  · intro x hx
    rcases key x hx with ⟨d, hd, _, hfd, rfl⟩ | hx
    · exact (hc d hfd).1
    · exact h.cur x hx
  · intro x hx
    rcases key x hx with ⟨d, hd, _, hfd, rfl⟩ | hx
    · exact (hc d hfd).2
    · exact h.limit x hx
  · intro x hx
    rcases key x hx with ⟨d, hd, _, hfd, rfl⟩ | hx
    · rw [(hf d).2]
      exact h.ctx d hd
    · exact h.ctx x hx

theorem Change.inv {s s' : Mgr} {t : Nat} {op : Op} {b : Bool} (c : Change s t op b s') (h : Inv s) : Inv s' := by
  cases c with
  | same => exact h
  | ctx => exact ⟨h.sup, h.nodup, h.range, h.cur, h.limit, fun d hd => Nat.lt_succ_of_lt (h.ctx d hd), h.active⟩
  | init h1 h2 =>
    rename_i id c
    have mem : ∀ x ∈ s.devs ++ [(⟨c, s.next, 0, 1⟩ : Dev)], x ∈ s.devs ∨ x = ⟨c, s.next, 0, 1⟩ := by
      intro x hx
      rcases List.mem_append.mp hx with hx | hx
      · exact .inl hx
      · exact .inr (List.mem_singleton.mp hx)
    refine ⟨h.sup, ?_, ?_, ?_, ?_, ?_, h.active⟩
    · show ((s.devs ++ [_]).map Dev.cl).Nodup
      rw [List.map_append, List.nodup_append]
      refine ⟨h.nodup, by simp, fun a ha b hb => ?_⟩
      obtain ⟨d, hd, rfl⟩ := List.mem_map.mp ha
      have hb' : b = c := by simpa using hb
      rw [hb']
      exact find_none h2 d hd
    · intro x hx
      rcases mem x hx with hx | rfl
      · exact h.range x hx
      · exact List.mem_of_getElem? h1
    · intro x hx
      rcases mem x hx with hx | rfl
      · exact h.cur x hx
      · exact .inl (Nat.zero_lt_one)
    · intro x hx
      rcases mem x hx with hx | rfl
      · exact h.limit x hx
      · show 1 ≤ 255
        omega
    · intro x hx
      rcases mem x hx with hx | rfl
      · exact Nat.lt_succ_of_lt (h.ctx x hx)
      · exact Nat.lt_succ_self _
  | close _ =>
    exact ⟨h.sup, h.nodup.sublist ((List.eraseP_sublist).map _), fun d hd => h.range d (List.mem_of_mem_eraseP hd), fun d hd => h.cur d (List.mem_of_mem_eraseP hd),
      fun d hd => h.limit d (List.mem_of_mem_eraseP hd), fun d hd => h.ctx d (List.mem_of_mem_eraseP hd), h.active⟩
  | closeAll => exact ⟨h.sup, List.nodup_nil, by simp, by simp, by simp, by simp, h.active⟩
  | active hd =>
    rename_i id d
    refine ⟨h.sup, h.nodup, h.range, h.cur, h.limit, h.ctx, fun t' => ?_⟩
    show upd s.active t id t' < _ ∨ upd s.active t id t' = 0
    unfold upd
    split
    · exact .inl (List.getElem?_eq_some_iff.mp (devAt_mem hd).2.1).1
    · exact h.active t'
  | current hd hk =>
    rename_i id k d
    refine h.changed (fun _ => ⟨rfl, rfl⟩) (fun d' hd' => ?_)
    have : d' = d := Option.some.inj (hd'.symm.trans (devAt_mem hd).2.2)
    subst this
    exact ⟨.inl hk, h.limit d' (find_some hd').1⟩
  | more hd hk =>
    rename_i id n k d
    refine h.changed (fun _ => ⟨rfl, rfl⟩) (fun d' hd' => ?_)
    have : d' = d := Option.some.inj (hd'.symm.trans (devAt_mem hd).2.2)
    subst this
    refine ⟨?_, hk⟩
    show d'.cur < d'.queues + k ∨ (d'.cur = 0 ∧ d'.queues + k = 0)
    have := h.cur d' (find_some hd').1
    omega
  | less hd hk =>
    rename_i id n m d
    refine h.changed (fun _ => ⟨rfl, rfl⟩) (fun d' hd' => ?_)
    have : d' = d := Option.some.inj (hd'.symm.trans (devAt_mem hd).2.2)
    subst this
    have hl := h.limit d' (find_some hd').1
    refine ⟨?_, by show m ≤ 255; omega⟩
    show (if d'.cur ≥ m then 0 else d'.cur) < m ∨ ((if d'.cur ≥ m then 0 else d'.cur) = 0 ∧ m = 0)
    split
    · omega
    · omega
  | prog _ _ _ => exact ⟨h.sup, h.nodup, h.range, h.cur, h.limit, h.ctx, h.active⟩
  | memset _ _ => exact ⟨h.sup, h.nodup, h.range, h.cur, h.limit, h.ctx, h.active⟩

end PV.ClDevice
