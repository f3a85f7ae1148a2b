import Verif.CudaDeviceLemmas
/-
  Properties of CUDA devices and their manager: C134, C135, C136.
-/
namespace PV.Props
open PV PV.CudaDevice

/-- Nothing is initialised; device 0 is the default of every thread, for the library and for the runtime. -/
def noDevices (n : Int) : Mgr := ⟨n, [], fun _ => 0, fun _ => 0⟩

/-- What programs with any number of threads can reach with calls allowed by P: exceptions are caught, calls of the runtime may fail,
except that closing a device does not fail. -/
inductive ReachBy (P : Mgr → Env → Nat → Op → Prop) (n : Int) : Mgr → Prop
  | start : ReachBy P n (noDevices n)
  | ok {s s' : Mgr} {e : Env} {t : Nat} {op : Op} : ReachBy P n s → P s e t op → (Closes op → e.setOk = true) → step e t op s = .ok () s' → ReachBy P n s'
  | raised {s s' : Mgr} {e : Env} {t : Nat} {op : Op} : ReachBy P n s → P s e t op → (Closes op → e.setOk = true) → step e t op s = .throw s' → ReachBy P n s'

/-- Everything that programs can reach -/
def ReachDev (n : Int) (s : Mgr) : Prop := ReachBy (fun _ _ _ _ => True) n s

/-- What `device( id )` shows. -/
def seen (s : Mgr) (id : Int) : Option Dev :=
  match device id s with
  | .ok d _ => some d
  | _ => none

/-- Which devices are open after a call: `good` is whether it returned. -/
def opened (op : Op) (good : Bool) (o : Int → Prop) (k : Int) : Prop :=
  match op with
  | .init id => if good then k = id ∨ o k else o k
  | .close id => if good then k ≠ id ∧ o k else o k
  | .closeAll => False
  | _ => o k

/-- The calls which may change an open device. -/
def mayChange (op : Op) (k : Int) : Prop :=
  match op with
  | .close id => k = id
  | .closeAll => True
  | .setThreads id _ => k = id
  | .setCurrent id _ => k = id
  | .setStreams id _ => k = id
  | _ => False

theorem seen_eq (s : Mgr) (id : Int) : seen s id = find s.devs id := by
  unfold seen
  rw [device_eq]
  cases find s.devs id <;> rfl

/-- An invariant of the changes holds in every reachable state. -/
theorem reach_induct {P : Mgr → Env → Nat → Op → Prop} {n : Int} (Q : Mgr → Prop) (h0 : Q (noDevices n))
    (hQ : ∀ s s' e t op b, CudaDevice.Inv s → Q s → P s e t op → Change s e t op b s' → Q s') {s : Mgr} (h : ReachBy P n s) : CudaDevice.Inv s ∧ Q s := by
  induction h with
  | start => exact ⟨⟨List.nodup_nil, by simp [noDevices], by simp [noDevices], fun _ => rfl⟩, h0⟩
  | ok hr hp hc hs ih =>
    obtain ⟨b, s2, h1, h2⟩ := step_change ih.1 _ _ _ hc
    rw [hs] at h1
    cases b with
    | true =>
      cases h1
      exact ⟨h2.inv ih.1, hQ _ _ _ _ _ _ ih.1 ih.2 hp h2⟩
    | false => cases h1
  | raised hr hp hc hs ih =>
    obtain ⟨b, s2, h1, h2⟩ := step_change ih.1 _ _ _ hc
    rw [hs] at h1
    cases b with
    | true => cases h1
    | false =>
      cases h1
      exact ⟨h2.inv ih.1, hQ _ _ _ _ _ _ ih.1 ih.2 hp h2⟩

theorem reach_inv {P : Mgr → Env → Nat → Op → Prop} {n : Int} {s : Mgr} (h : ReachBy P n s) : CudaDevice.Inv s ∧ s.supported = n := by
  refine reach_induct (fun s => s.supported = n) rfl (fun s s' e t op b _ hq _ c => ?_) h
  rw [← hq]
  cases c <;> rfl

/-- The result of a call: whether it returned, and the state. -/
def Yields (r : Res Mgr Unit) (b : Bool) (s' : Mgr) : Prop := r = if b = true then .ok () s' else .throw s'

theorem find_map_some {f : Dev → Dev} (hf : ∀ d, (f d).id = d.id) (l : List Dev) (id k : Int) :
    (∃ d, find (l.map fun d => if d.id = id then f d else d) k = some d) ↔ ∃ d, find l k = some d := by
  rw [find_map hf]
  split
  · cases find l k <;> simp
  · exact Iff.rfl

theorem find_map_other {f : Dev → Dev} (hf : ∀ d, (f d).id = d.id) (l : List Dev) {id k : Int} (h : k ≠ id) :
    find (l.map fun d => if d.id = id then f d else d) k = find l k := by
  rw [find_map hf, if_neg h]

/-- Which devices are open, and the other devices -/
theorem _root_.PV.CudaDevice.Change.open_iff {s s' : Mgr} {e : Env} {t : Nat} {op : Op} {b : Bool} (c : Change s e t op b s') (h : CudaDevice.Inv s) (k : Int) :
    ((∃ d, find s'.devs k = some d) ↔ opened op b (fun j => ∃ d, find s.devs j = some d) k)
    ∧ (¬ mayChange op k → ∀ d, find s.devs k = some d → find s'.devs k = some d) := by
  cases c with
  | same h1 h2 h3 h4 =>
    refine ⟨?_, fun _ _ hd => hd⟩
    cases op with
    | init id =>
      cases b with
      | false => exact Iff.rfl
      | true =>
        show _ ↔ (k = id ∨ _)
        constructor
        · exact .inr
        · rintro (rfl | hd)
          · exact Option.ne_none_iff_exists'.mp (h2 k rfl rfl)
          · exact hd
    | close id =>
      cases b with
      | false => exact Iff.rfl
      | true =>
        show _ ↔ (k ≠ id ∧ _)
        constructor
        · intro hd
          refine ⟨fun hk => ?_, hd⟩
          obtain ⟨d, hd⟩ := hd
          rw [hk, h1 id rfl rfl] at hd
          cases hd
        · exact fun hd => hd.2
    | closeAll =>
      show _ ↔ False
      rw [h3 rfl]
      simp [find]
    | _ => exact Iff.rfl
  | init h1 h2 h3 =>
    rename_i id
    constructor
    · show (∃ d, find (s.devs ++ [_]) k = some d) ↔ (k = id ∨ _)
      rw [find_append]
      by_cases hk : k = id
      · subst hk
        rw [h3]
        simp
      · rw [if_neg (by simpa using fun hc => hk hc.symm)]
        simp [hk]
    · intro _ d hd
      show find (s.devs ++ [_]) k = _
      rw [find_append, hd]
      rfl
  | close h1 =>
    rename_i id d0
    constructor
    · show (∃ d, find (s.devs.eraseP fun d => d.id == id) k = some d) ↔ (k ≠ id ∧ _)
      rw [find_erase _ h.nodup]
      by_cases hk : k = id
      · rw [if_pos hk]
        simp [hk]
      · rw [if_neg hk]
        simp [hk]
    · intro hm d hd
      show find (s.devs.eraseP fun d => d.id == id) k = _
      rw [find_erase _ h.nodup, if_neg (show ¬ k = id from hm), hd]
  | closeAll _ =>
    exact ⟨by show (∃ d, find [] k = some d) ↔ False; simp [find], fun hm => absurd trivial hm⟩
  | active _ => exact ⟨Iff.rfl, fun _ _ hd => hd⟩
  | threads _ _ _ _ =>
    rename_i id n _ _ _ _ _
    exact ⟨find_map_some (f := fun d => { d with threads := toInt32 n }) (fun _ => rfl) _ _ _, fun hm d hd => (find_map_other (f := fun d => { d with threads := toInt32 n }) (fun _ => rfl) _ hm).trans hd⟩
  | current _ _ =>
    rename_i id j _ _ _
    exact ⟨find_map_some (f := fun d => { d with cur := j }) (fun _ => rfl) _ _ _, fun hm d hd => (find_map_other (f := fun d => { d with cur := j }) (fun _ => rfl) _ hm).trans hd⟩
  | more _ _ _ _ =>
    rename_i id n j _ _ _ _ _
    exact ⟨find_map_some (f := fun d => { d with streams := d.streams ++ List.replicate j (s.cuda t) }) (fun _ => rfl) _ _ _,
      fun hm d hd => (find_map_other (f := fun d => { d with streams := d.streams ++ List.replicate j (s.cuda t) }) (fun _ => rfl) _ hm).trans hd⟩
  | less _ _ =>
    rename_i id n d0 _ _
    exact ⟨find_map_some (f := fun d => { d with cur := if d.cur ≥ n then 0 else d.cur, streams := d.streams.take n }) (fun _ => rfl) _ _ _,
      fun hm d hd => (find_map_other (f := fun d => { d with cur := if d.cur ≥ n then 0 else d.cur, streams := d.streams.take n }) (fun _ => rfl) _ hm).trans hd⟩

/-- **C134** Whatever threads did before, a call on devices and their manager returns or throws; afterwards exactly the devices are open
which were initialised and not closed (a call which throws changes none of this), and devices not named by the call are as before. -/
theorem C134_device_history {n : Int} {s : Mgr} (h : ReachDev n s) (e : Env) (t : Nat) (op : Op) (hc : Closes op → e.setOk = true) :
    ∃ b s', Yields (step e t op s) b s' ∧ ReachDev n s'
      ∧ (∀ k, (∃ d, seen s' k = some d) ↔ opened op b (fun j => ∃ d, seen s j = some d) k)
      ∧ (∀ k d, ¬ mayChange op k → seen s k = some d → seen s' k = some d) := by
  obtain ⟨b, s', h1, h2⟩ := step_change (reach_inv h).1 e t op hc
  refine ⟨b, s', h1, ?_, fun k => ?_, fun k d hm hd => ?_⟩
  · cases b with
    | true => exact .ok h trivial hc h1
    | false => exact .raised h trivial hc h1
  · simp only [seen_eq]
    exact (h2.open_iff (reach_inv h).1 k).1
  · rw [seen_eq] at hd ⊢
    exact (h2.open_iff (reach_inv h).1 k).2 hm d hd

/-- In every reachable state: `device( id )` gives the device with that ID, the IDs are those of supported devices, no ID occurs twice, the
current stream is one of the streams, and the runtime of each thread uses the default device of the thread. -/
theorem C134_device_state {n : Int} {s : Mgr} (h : ReachDev n s) :
    (∀ id d, seen s id = some d → d.id = id ∧ 0 ≤ id ∧ id < n ∧ (d.cur < d.streams.length ∨ (d.cur = 0 ∧ d.streams = [])))
    ∧ (s.devs.map Dev.id).Nodup ∧ (∀ d ∈ s.devs, seen s d.id = some d) ∧ ∀ t, s.cuda t = s.active t := by
  obtain ⟨hi, hn⟩ := reach_inv h
  refine ⟨fun id d hd => ?_, hi.nodup, fun d hd => ?_, hi.same⟩
  · rw [seen_eq] at hd
    obtain ⟨hm, rfl⟩ := find_some hd
    have := hi.range d hm
    exact ⟨rfl, this.1, hn ▸ this.2, hi.cur d hm⟩
  · rw [seen_eq]
    cases hf : find s.devs d.id with
    | none => exact absurd rfl (find_none hf d hd)
    | some d' =>
      obtain ⟨hm, he⟩ := find_some hf
      rw [nodup_inj hi.nodup hm hd he]

/-- Initialising a device which exists succeeds unless a call of the runtime fails; an ID outside of the supported devices is refused. -/
theorem C134_initialise {n : Int} {s : Mgr} (h : ReachDev n s) (e : Env) (t : Nat) (id : Int) :
    (0 ≤ id → id < n → e.props = true → e.setOk = true → e.mem = true → ∃ s' d, initializeDevice e t id s = .ok () s' ∧ seen s' id = some d
      ∧ (seen s id = none → d = ⟨id, e.hw id, e.hw id, 0, []⟩))
    ∧ ((id < 0 ∨ n ≤ id) → initializeDevice e t id s = .throw s) := by
  obtain ⟨hi, hn⟩ := reach_inv h
  subst hn
  constructor
  · intro h1 h2 h3 h4 h5
    rw [initializeDevice, if_neg (by omega)]
    cases hf : find s.devs id with
    | some d => exact ⟨s, d, rfl, by rw [seen_eq, hf], by rw [seen_eq, hf]; simp⟩
    | none =>
      dsimp only
      rw [newDev_eq hi, if_pos ⟨h3, .inr h4, h5⟩]
      refine ⟨_, ⟨id, e.hw id, e.hw id, 0, []⟩, rfl, ?_, fun _ => rfl⟩
      rw [seen_eq]
      show find (s.devs ++ [_]) id = _
      rw [find_append, hf]
      simp
  · intro h1
    rw [initializeDevice, if_pos (by omega)]

/-- The stream in which kernels are started is always defined when the thread's device is open. -/
theorem C134_stream_defined {n : Int} {s : Mgr} (h : ReachDev n s) (t : Nat) :
    (∃ c, getCudaStream t s = .ok c s) ∨ (getCudaStream t s = .throw s ∧ seen s (s.active t) = none) := by
  obtain ⟨hi, _⟩ := reach_inv h
  cases hf : find s.devs (s.active t) with
  | none => exact .inr ⟨bind_throw (device_throw hf), by rw [seen_eq, hf]⟩
  | some d =>
    left
    unfold getCudaStream
    have h1 : deviceOf t s = .ok d s := device_ok hf
    by_cases hl : d.streams.length > 0
    · rcases hi.cur d (find_some hf).1 with hcur | hcur
      · refine ⟨some d.streams[d.cur], (bind_ok h1).trans ?_⟩
        rw [if_pos hl]
        refine bind_ok (show streamOf d s = .ok d.streams[d.cur] s from ?_)
        unfold streamOf
        rw [List.getElem?_eq_getElem hcur]
        rfl
      · rw [hcur.2] at hl
        exact absurd hl (by simp)
    · exact ⟨none, (bind_ok h1).trans (by rw [if_neg hl]; rfl)⟩

/-- A runtime in which nothing fails, with 1024 threads per block -/
def goodDev : Env := ⟨fun _ => 1024, true, true, true, fun _ => true, true⟩

/-- The value of a call -/
def valA' {β : Type} : Res Mgr β → Option β
  | .ok b _ => some b
  | _ => none

/-- A program of several threads, exceptions caught -/
def runDev (e : Env) : List (Nat × Op) → Mgr → Option (Mgr × List Bool)
  | [], s => some (s, [])
  | (t, op) :: l, s =>
    match step e t op s with
    | .ok _ s' => (runDev e l s').map fun r => (r.1, true :: r.2)
    | .throw s' => (runDev e l s').map fun r => (r.1, false :: r.2)
    | .ub => none

theorem runDev_reach {n : Int} {e : Env} (he : e.setOk = true) : ∀ {l : List (Nat × Op)} {s s' : Mgr} {bs : List Bool}, ReachDev n s → runDev e l s = some (s', bs) → ReachDev n s'
  | [], s, s', bs, h, hr => by
    cases hr
    exact h
  | (t, op) :: l, s, s', bs, h, hr => by
    rw [runDev] at hr
    cases hs : step e t op s with
    | ok u s1 =>
      rw [hs] at hr
      obtain ⟨⟨s2, bs2⟩, h1, h2⟩ := Option.map_eq_some_iff.mp hr
      cases h2
      exact runDev_reach he (.ok h trivial (fun _ => he) hs) h1
    | throw s1 =>
      rw [hs] at hr
      obtain ⟨⟨s2, bs2⟩, h1, h2⟩ := Option.map_eq_some_iff.mp hr
      cases h2
      exact runDev_reach he (.raised h trivial (fun _ => he) hs) h1
    | ub =>
      rw [hs] at hr
      cases hr

/-- Two threads use two devices. -/
example : (runDev goodDev [(0, .init 0), (0, .init 1), (1, .setActive 1), (1, .setStreams 1 3), (1, .setCurrent 1 2), (0, .init 7), (0, .setThreads 1 256)] (noDevices 2)).map
    (fun r => (r.2, seen r.1 1, valA' (getCudaStream 1 r.1), valA' (getCudaStream 0 r.1)))
    = some ([true, true, true, true, true, false, true], some ⟨1, 256, 1024, 2, [1, 1, 1]⟩, some (some 1), some none) := by decide

/-- The process ends when the runtime cannot switch to a device which is closed. -/
example : step { goodDev with setOk := false } 0 (.close 0) ⟨1, [⟨0, 1024, 1024, 0, []⟩], fun _ => 0, fun _ => 0⟩ = .ub := rfl

/-- `initializeDevices` opens all devices when nothing fails. -/
theorem initFrom_opens {n : Int} {e : Nat → Env} (he : ∀ k, (e k).props = true ∧ (e k).setOk = true ∧ (e k).mem = true) (t : Nat) : ∀ (m : Nat) (id : Int) (s : Mgr),
    ReachDev n s → 0 ≤ id → id + m ≤ n → (∀ k, 0 ≤ k → k < id → ∃ d, seen s k = some d) →
    ∃ s', initFrom e t m id s = .ok () s' ∧ ReachDev n s' ∧ s'.active = s.active ∧ ∀ k, 0 ≤ k → k < id + m → ∃ d, seen s' k = some d
  | 0, id, s, h, _, _, hk => ⟨s, rfl, h, rfl, by simpa using hk⟩
  | m + 1, id, s, h, h0, hm, hk => by
    obtain ⟨s1, d1, h1, h2, _⟩ := (C134_initialise h (e m) t id).1 h0 (by omega) (he m).1 (he m).2.1 (he m).2.2
    obtain ⟨b, s1', k1, k2, k3, k4⟩ := C134_device_history h (e m) t (.init id) (fun hc => absurd hc _root_.id)
    have : b = true ∧ s1' = s1 := by
      have k1' : initializeDevice (e m) t id s = _ := k1
      rw [h1] at k1'
      cases b with
      | true => cases k1'; exact ⟨rfl, rfl⟩
      | false => cases k1'
    obtain ⟨rfl, rfl⟩ := this
    have ha : s1'.active = s.active := by
      obtain ⟨b', s2, j1, j2⟩ := step_change (reach_inv h).1 (e m) t (.init id) (fun hc => absurd hc _root_.id)
      have j1' : initializeDevice (e m) t id s = _ := j1
      rw [h1] at j1'
      cases b' with
      | true => cases j1'; cases j2 <;> rfl
      | false => cases j1'
    obtain ⟨s', l1, l2, l3, l4⟩ := initFrom_opens he t m (id + 1) s1' k2 (by omega) (by omega) (fun k hk0 hk1 => by
      by_cases hki : k = id
      · exact ⟨d1, hki ▸ h2⟩
      · obtain ⟨d, hd⟩ := hk k hk0 (by omega)
        exact ⟨d, k4 k d (fun hc => hc) hd⟩)
    refine ⟨s', ?_, l2, l3.trans ha, fun k h1 h2 => l4 k h1 (by omega)⟩
    rw [initFrom]
    exact (bind_ok h1).trans l1

theorem C134_initialise_all {n : Int} (hn : 0 ≤ n) {s : Mgr} (h : ReachDev n s) {e : Nat → Env} (he : ∀ k, (e k).props = true ∧ (e k).setOk = true ∧ (e k).mem = true) (t : Nat) :
    ∃ s', initializeDevices e t s = .ok () s' ∧ ReachDev n s' ∧ s'.active = s.active ∧ ∀ k, 0 ≤ k → k < n → ∃ d, seen s' k = some d := by
  have hs := (reach_inv h).2
  obtain ⟨s', h1, h2, h3, h4⟩ := initFrom_opens he t n.toNat 0 s h (by omega) (by omega) (fun k _ _ => by omega)
  refine ⟨s', ?_, h2, h3, fun k k0 k1 => h4 k k0 (by omega)⟩
  rw [initializeDevices, hs]
  exact h1

/-! ## C135 -/

/-- The default device of the thread which makes a call, after the call -/
def activeAfter (op : Op) (good : Bool) (a : Int) : Int :=
  match op with
  | .setActive id => if good then id else a
  | _ => a

/-- **C135** (partial: the calls which do not close devices) The default device of a thread is the one it last set: calls change it only in
their own thread, and only `setActiveDevice` changes it.
Missing: closing a device; false, see `C135_close_wrong`. -/
theorem C135_active_device_partial {n : Int} {s s' : Mgr} (h : ReachDev n s) {e : Env} {t : Nat} {op : Op} {b : Bool} (hc : ¬ Closes op)
    (hs : Yields (step e t op s) b s') : s'.active t = activeAfter op b (s.active t) ∧ ∀ t', t' ≠ t → s'.active t' = s.active t' := by
  obtain ⟨b', s2, h1, h2⟩ := step_change (reach_inv h).1 e t op (fun h => absurd h hc)
  unfold Yields at hs
  rw [h1] at hs
  have : b' = b ∧ s2 = s' := by
    cases b <;> cases b' <;> cases hs <;> exact ⟨rfl, rfl⟩
  obtain ⟨rfl, rfl⟩ := this
  cases h2 with
  | same k1 k2 k3 k4 =>
    refine ⟨?_, fun _ _ => rfl⟩
    cases op with
    | setActive id =>
      rw [k4 id rfl]
      rfl
    | _ => rfl
  | close _ => exact absurd trivial hc
  | closeAll _ => exact absurd trivial hc
  | active _ => exact ⟨upd_same _ _ _, fun t' ht => upd_other _ _ ht⟩
  | _ => exact ⟨rfl, fun _ _ => rfl⟩

/-- After `setActiveDevice` the device is what `device()` gives in this thread. -/
theorem C135_set_active {n : Int} {s s' : Mgr} (h : ReachDev n s) {e : Env} {t : Nat} {id : Int} (hs : setActiveDevice e t id s = .ok () s') :
    ∃ d, seen s id = some d ∧ deviceOf t s' = .ok d s' ∧ d.id = id ∧ s'.devs = s.devs := by
  obtain ⟨b, s2, h1, h2⟩ := step_change (reach_inv h).1 e t (.setActive id) (fun h => absurd h _root_.id)
  have h1' : setActiveDevice e t id s = _ := h1
  rw [hs] at h1'
  cases b with
  | false => cases h1'
  | true =>
    cases h1'
    cases h2 with
    | same _ _ _ k => exact absurd (k id rfl) (by simp)
    | active hf =>
      rename_i d
      refine ⟨d, by rw [seen_eq, hf], ?_, (find_some hf).2, rfl⟩
      show device (upd s.active t id t) _ = _
      rw [upd_same]
      exact device_ok hf

/-- Closing a device, exactly: the closed device becomes the default of the thread, so that `device()` throws in it until another device is
set; other threads keep their default. -/
theorem C135_close_exact {n : Int} {s : Mgr} (h : ReachDev n s) {e : Env} (he : e.setOk = true) (t : Nat) {id : Int} {d : Dev} (hd : seen s id = some d) :
    ∃ s', closeDevice e t id s = .ok () s' ∧ s'.active t = id ∧ (∀ t', t' ≠ t → s'.active t' = s.active t') ∧ deviceOf t s' = .throw s' := by
  obtain ⟨hi, hn⟩ := reach_inv h
  rw [seen_eq] at hd
  have hr := hi.range d (find_some hd).1
  rw [(find_some hd).2] at hr
  refine ⟨{ focus s t id with devs := s.devs.eraseP fun d => d.id == id }, ?_, upd_same _ _ _, fun t' ht => upd_other _ _ ht, ?_⟩
  · rw [closeDevice, if_neg (by omega), hd]
    dsimp only
    rw [deleteDev_ok he]
    rfl
  · show device (upd s.active t id t) _ = _
    rw [upd_same]
    refine device_throw ?_
    show find (s.devs.eraseP _) id = none
    rw [find_erase _ hi.nodup, if_pos rfl]

/-- Device 0 is open and was the default, but after another device was closed `device()` throws. -/
theorem C135_close_wrong :
    (runDev goodDev [(0, .init 0), (0, .init 1), (0, .setActive 0), (0, .close 1)] (noDevices 2)).map (fun r => (r.2, (seen r.1 0).isSome, (valA' (deviceOf 0 r.1)).isSome))
    = some ([true, true, true, true], true, false) := by decide

/-- After all devices were closed and opened again the default device is another one. -/
theorem C135_close_all_wrong :
    (runDev goodDev [(0, .init 0), (0, .init 1), (0, .closeAll), (0, .init 0), (0, .init 1)] (noDevices 2)).map (fun r => (r.2, (valA' (deviceOf 0 r.1)).map Dev.id))
    = some ([true, true, true, true, true], some 1) := by decide

/-- The calls of another thread do not matter. -/
example : (runDev goodDev [(0, .init 0), (0, .init 1), (0, .setActive 1), (1, .setActive 0), (1, .close 0)] (noDevices 2)).map (fun r => ((valA' (deviceOf 0 r.1)).map Dev.id, r.1.active 1))
    = some (some 1, 0) := by decide

/-! ## C136 -/

/-- **C136** (partial: counts below 2^31) In every reachable state the number of threads per block of an open device is positive and not above
the maximum of the device.
Missing: counts of at least 2^31; false, see `C136_threads_wrong`. -/
theorem C136_threads_partial {n : Int} {s : Mgr}
    (h : ReachBy (fun _ e _ op => (∀ id k, op = .setThreads id k → k < 2147483648) ∧ ∀ id, 0 < e.hw id ∧ e.hw id < 2147483648) n s) {id : Int} {d : Dev} (hd : seen s id = some d) :
    ∃ k m, threadsPerBlock id s = .ok k s ∧ maximumThreadsPerBlock id s = .ok m s ∧ 0 < k ∧ k ≤ m := by
  obtain ⟨hi, hq⟩ := reach_induct (fun s => ∀ d ∈ s.devs, 0 < d.threads ∧ d.threads ≤ d.maxThreads ∧ d.maxThreads < 2147483648) (by simp [noDevices])
    (fun s s' e t op b hi hq hp c => by
      cases c with
      | same => exact hq
      | init _ _ _ =>
        intro d hd
        rcases List.mem_append.mp hd with hd | hd
        · exact hq d hd
        · rw [List.mem_singleton.mp hd]
          exact ⟨(hp.2 _).1, Int.le_refl _, (hp.2 _).2⟩
      | close _ => exact fun d hd => hq d (List.mem_of_mem_eraseP hd)
      | closeAll _ => simp
      | active _ => exact hq
      | threads hf h1 h2 h3 =>
        rename_i id k d0
        intro d hd
        obtain ⟨d', hd', rfl⟩ := List.mem_map.mp hd
        by_cases hid : d'.id = id
        · have : d' = d0 := nodup_inj hi.nodup hd' (find_some hf).1 (by rw [hid, (find_some hf).2])
          subst this
          simp only [if_pos hid]
          have hk := hp.1 id k rfl
          have : toInt32 k = (k : Int) := if_pos hk
          exact ⟨by omega, h3, (hq _ hd').2.2⟩
        · simp only [if_neg hid]
          exact hq d' hd'
      | current _ _ =>
        intro d hd
        obtain ⟨d', hd', rfl⟩ := List.mem_map.mp hd
        have := hq d' hd'
        split <;> exact this
      | more _ _ _ _ =>
        intro d hd
        obtain ⟨d', hd', rfl⟩ := List.mem_map.mp hd
        have := hq d' hd'
        split <;> exact this
      | less _ _ =>
        intro d hd
        obtain ⟨d', hd', rfl⟩ := List.mem_map.mp hd
        have := hq d' hd'
        split <;> exact this) h
  rw [seen_eq] at hd
  obtain ⟨h1, h2, h3⟩ := hq d (find_some hd).1
  refine ⟨toUInt32 d.threads, toUInt32 d.maxThreads, bind_ok (device_ok hd), bind_ok (device_ok hd), ?_, ?_⟩
  · unfold toUInt32
    omega
  · unfold toUInt32
    omega

/-- `setThreadsPerBlock` exactly, below 2^31: a multiple of 32 within the maximum is taken, a larger one is ignored, anything else is refused. -/
theorem C136_set_threads {n : Int} {s : Mgr} (h : ReachDev n s) {id : Int} {d : Dev} (hd : seen s id = some d) {k : Nat} (hk : k < 2147483648) :
    (k ≠ 0 → k % 32 = 0 → ∃ s', setThreadsPerBlock id k s = .ok () s' ∧ seen s' id = some { d with threads := if (k : Int) ≤ d.maxThreads then (k : Int) else d.threads })
    ∧ (k = 0 ∨ k % 32 ≠ 0 → setThreadsPerBlock id k s = .throw s) := by
  rw [seen_eq] at hd
  have hi : toInt32 k = (k : Int) := if_pos hk
  constructor
  · intro h1 h2
    rw [setThreadsPerBlock, bind_ok (device_ok hd), if_neg (by omega), hi]
    by_cases hm : (k : Int) ≤ d.maxThreads
    · rw [if_pos hm, if_pos hm]
      refine ⟨_, rfl, ?_⟩
      rw [seen_eq]
      refine (find_map (f := fun d => { d with threads := (k : Int) }) (fun _ => rfl) _ _ _).trans ?_
      rw [if_pos rfl, hd]
      rfl
    · rw [if_neg hm, if_neg hm]
      exact ⟨s, rfl, by rw [seen_eq, hd]⟩
  · intro h1
    rw [setThreadsPerBlock, bind_ok (device_ok hd), if_pos h1]
    rfl

/-- 2147483648 threads per block are accepted. -/
theorem C136_threads_wrong :
    (runDev goodDev [(0, .init 0), (0, .setThreads 0 2147483648)] (noDevices 1)).map (fun r => (r.2, valA' (threadsPerBlock 0 r.1), valA' (maximumThreadsPerBlock 0 r.1)))
    = some ([true, true], some 2147483648, some 1024) := by decide

/-- `setStreamCount` exactly, if streams can be made: the number is as requested, the streams there were are kept, and the current stream is
kept if it still exists; the new streams belong to the default device of the calling thread. -/
theorem C136_set_streams {n : Int} {s : Mgr} (h : ReachDev n s) {id : Int} {d : Dev} (hd : seen s id = some d) {e : Env} (he : ∀ j, e.stream j = true) (t k : Nat) :
    ∃ s', setStreamCount e t id k s = .ok () s'
      ∧ seen s' id = some { d with cur := if d.cur < k then d.cur else 0, streams := d.streams.take k ++ List.replicate (k - d.streams.length) (s.active t) } := by
  obtain ⟨hi, _⟩ := reach_inv h
  rw [seen_eq] at hd
  have hcur := hi.cur d (find_some hd).1
  rw [setStreamCount, bind_ok (device_ok hd)]
  by_cases h1 : k > d.streams.length
  · rw [if_pos h1]
    obtain ⟨j, hj, h2, h3⟩ := pushStreams_eq e t id (k - d.streams.length) s
    have hj' := h3 he
    subst hj'
    rw [h2, if_pos rfl]
    refine ⟨_, rfl, ?_⟩
    rw [seen_eq]
    refine (find_map (f := fun d' => { d' with streams := d'.streams ++ List.replicate (k - d.streams.length) (s.cuda t) }) (fun _ => rfl) _ _ _).trans ?_
    rw [if_pos rfl, hd, hi.same t]
    have hck : d.cur < k := by
      rcases hcur with hcur | hcur
      · omega
      · omega
    rw [List.take_of_length_le (by omega), if_pos hck]
    rfl
  rw [if_neg h1]
  have hz : k - d.streams.length = 0 := by omega
  by_cases h2 : k < d.streams.length
  · rw [if_pos h2]
    refine ⟨_, rfl, ?_⟩
    rw [seen_eq]
    refine (find_map (f := fun d => { d with cur := if d.cur ≥ k then 0 else d.cur, streams := d.streams.take k }) (fun _ => rfl) _ _ _).trans ?_
    rw [if_pos rfl, hd, hz, List.replicate_zero, List.append_nil]
    have : (if d.cur ≥ k then 0 else d.cur) = if d.cur < k then d.cur else 0 := by
      by_cases hc : d.cur < k
      · rw [if_neg (by omega), if_pos hc]
      · rw [if_pos (by omega), if_neg hc]
    show some ({ d with cur := if d.cur ≥ k then 0 else d.cur, streams := d.streams.take k } : Dev) = _
    rw [this]
  · rw [if_neg h2]
    refine ⟨s, rfl, ?_⟩
    rw [seen_eq, hd, hz, List.replicate_zero, List.append_nil, List.take_of_length_le (by omega)]
    have : (if d.cur < k then d.cur else 0) = d.cur := by
      by_cases hc : d.cur < k
      · rw [if_pos hc]
      · rw [if_neg hc]
        rcases hcur with hcur | hcur
        · omega
        · exact hcur.1.symm
    rw [this]

/-- `stream` exactly: the current one of the streams of the device; without streams there is an access outside of a vector. -/
theorem C136_stream {n : Int} {s : Mgr} (h : ReachDev n s) {id : Int} {d : Dev} (hd : seen s id = some d) :
    (∀ hl : 0 < d.streams.length, ∃ hk : d.cur < d.streams.length, stream id s = .ok d.streams[d.cur] s) ∧ (d.streams = [] → stream id s = .ub) := by
  obtain ⟨hi, _⟩ := reach_inv h
  rw [seen_eq] at hd
  have hcur := hi.cur d (find_some hd).1
  constructor
  · intro hl
    have hk : d.cur < d.streams.length := by omega
    refine ⟨hk, ?_⟩
    rw [stream, bind_ok (device_ok hd), streamOf, List.getElem?_eq_getElem hk]
    rfl
  · intro he
    rw [stream, bind_ok (device_ok hd), streamOf, he]
    rfl

/-- `setCurrentStreamId` exactly: a stream which does not exist is ignored. -/
theorem C136_set_current {n : Int} {s : Mgr} (_h : ReachDev n s) {id : Int} {d : Dev} (hd : seen s id = some d) (k : Nat) :
    ∃ s', setCurrentStreamId id k s = .ok () s' ∧ seen s' id = some { d with cur := if k < d.streams.length then k else d.cur } := by
  rw [seen_eq] at hd
  rw [setCurrentStreamId, bind_ok (device_ok hd)]
  by_cases h1 : d.cur ≠ k ∧ k < d.streams.length
  · rw [if_pos h1, if_pos h1.2]
    refine ⟨_, rfl, ?_⟩
    rw [seen_eq]
    refine (find_map (f := fun d => { d with cur := k }) (fun _ => rfl) _ _ _).trans ?_
    rw [if_pos rfl, hd]
    rfl
  · rw [if_neg h1]
    refine ⟨s, rfl, ?_⟩
    rw [seen_eq, hd]
    by_cases h2 : k < d.streams.length
    · rw [if_pos h2]
      have : d.cur = k := by omega
      rw [← this]
    · rw [if_neg h2]

/-- (partial: streams are made by threads whose default device it is) All streams of a device belong to it, so kernels are started in a stream
of the device on which they run.
Missing: `setStreamCount` of another device; false, see `C136_streams_wrong`. -/
theorem C136_streams_partial {n : Int} {s : Mgr} (h : ReachBy (fun s _ t op => ∀ id k, op = .setStreams id k → s.active t = id) n s) :
    (∀ id d, seen s id = some d → ∀ c ∈ d.streams, c = id) ∧ ∀ t c, getCudaStream t s = .ok (some c) s → c = s.cuda t := by
  obtain ⟨hi, hq⟩ := reach_induct (fun s => ∀ d ∈ s.devs, ∀ c ∈ d.streams, c = d.id) (by simp [noDevices])
    (fun s s' e t op b hi hq hp c => by
      cases c with
      | same => exact hq
      | init _ _ _ =>
        intro d hd
        rcases List.mem_append.mp hd with hd | hd
        · exact hq d hd
        · rw [List.mem_singleton.mp hd]
          simp
      | close _ => exact fun d hd => hq d (List.mem_of_mem_eraseP hd)
      | closeAll _ => simp
      | active _ => exact hq
      | threads _ _ _ _ =>
        intro d hd
        obtain ⟨d', hd', rfl⟩ := List.mem_map.mp hd
        have := hq d' hd'
        split <;> exact this
      | current _ _ =>
        intro d hd
        obtain ⟨d', hd', rfl⟩ := List.mem_map.mp hd
        have := hq d' hd'
        split <;> exact this
      | more hf h1 h2 h3 =>
        rename_i id k j d0
        intro d hd
        obtain ⟨d', hd', rfl⟩ := List.mem_map.mp hd
        have hq' := hq d' hd'
        by_cases hid : d'.id = id
        · simp only [if_pos hid]
          intro c hc
          rcases List.mem_append.mp hc with hc | hc
          · exact hq' c hc
          · rw [(List.mem_replicate.mp hc).2, hi.same t, hp id k rfl]
            exact hid.symm
        · simp only [if_neg hid]
          exact hq'
      | less _ _ =>
        intro d hd
        obtain ⟨d', hd', rfl⟩ := List.mem_map.mp hd
        have := hq d' hd'
        split
        · exact fun c hc => this c (List.mem_of_mem_take hc)
        · exact this) h
  refine ⟨fun id d hd c hc => ?_, fun t c hc => ?_⟩
  · rw [seen_eq] at hd
    rw [← (find_some hd).2]
    exact hq d (find_some hd).1 c hc
  · cases hf : find s.devs (s.active t) with
    | none =>
      have : getCudaStream t s = .throw s := bind_throw (device_throw hf)
      rw [this] at hc
      cases hc
    | some d =>
      have h1 : deviceOf t s = .ok d s := device_ok hf
      rw [getCudaStream, bind_ok h1] at hc
      by_cases hl : d.streams.length > 0
      · rw [if_pos hl] at hc
        rcases hi.cur d (find_some hf).1 with hcur | hcur
        · have h2 : streamOf d s = .ok d.streams[d.cur] s := by
            unfold streamOf
            rw [List.getElem?_eq_getElem hcur]
            rfl
          rw [bind_ok h2] at hc
          cases hc
          rw [hi.same t, ← (find_some hf).2]
          exact hq d (find_some hf).1 _ (List.getElem_mem hcur)
        · rw [hcur.2] at hl
          exact absurd hl (by simp)
      · rw [if_neg hl] at hc
        cases hc

/-- Streams of device 1 made while device 0 is the default belong to device 0; kernels on device 1 are then started in them. -/
theorem C136_streams_wrong :
    (runDev goodDev [(0, .init 0), (0, .init 1), (0, .setStreams 1 2), (0, .setActive 1)] (noDevices 2)).map (fun r => (r.2, (seen r.1 1).map Dev.streams, r.1.cuda 0, valA' (getCudaStream 0 r.1)))
    = some ([true, true, true, true], some [0, 0], 1, some (some 0)) := by decide

/-- `synchronize` of an open device waits for the default device of the calling thread: the right one (partial) exactly if it is this device. -/
theorem C136_synchronize_partial {n : Int} {s : Mgr} (h : ReachDev n s) {e : Env} (he : e.sync = true) (t : Nat) {id : Int} {d : Dev} (hd : seen s id = some d) :
    ∃ w, synchronize e t id s = .ok w s ∧ (w = id ↔ s.active t = id) := by
  rw [seen_eq] at hd
  refine ⟨s.cuda t, (bind_ok (device_ok hd)).trans (if_pos he), ?_⟩
  rw [(reach_inv h).1.same t]

theorem C136_synchronize_wrong :
    (runDev goodDev [(0, .init 0), (0, .init 1)] (noDevices 2)).map (fun r => valA' (synchronize goodDev 0 1 r.1)) = some (some 0) := by decide

/-- `stream` of a device with streams and of one without -/
example : (runDev goodDev [(0, .init 0), (0, .init 1), (0, .setStreams 1 2), (0, .setStreams 0 0)] (noDevices 2)).map
    (fun r => ((seen r.1 1).map Dev.streams, valA' (stream 1 r.1), valA' (stream 0 r.1))) = some (some [0, 0], some 0, none) := by decide

example : (runDev goodDev [(0, .init 0), (0, .init 1), (0, .setActive 1), (0, .setStreams 1 2), (0, .setCurrent 1 1), (0, .setStreams 1 1), (0, .setThreads 1 2048), (0, .setThreads 1 96), (0, .setThreads 1 33)]
      (noDevices 2)).map (fun r => (r.2, seen r.1 1, valA' (synchronize goodDev 0 1 r.1)))
    = some ([true, true, true, true, true, true, true, true, false], some ⟨1, 96, 1024, 0, [1]⟩, some 1) := by decide

end PV.Props
