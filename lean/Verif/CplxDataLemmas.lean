import Verif.CplxData
/-
  Lemmas about the objects of CplxData.lean.
-/
namespace PV.CplxData
open PV

variable {α : Type}

theorem upd_same {β : Type} (f : Nat → β) (i : Nat) (x : β) : upd f i x i = x := if_pos rfl

theorem upd_other {β : Type} (f : Nat → β) {i j : Nat} (x : β) (h : j ≠ i) : upd f i x j = f j := if_neg h

theorem upd_self {β : Type} (f : Nat → β) {i : Nat} {x : β} (h : f i = x) : upd f i x = f := by
  funext j
  by_cases hj : j = i
  · rw [hj, upd_same, h]
  · rw [upd_other _ _ hj]

theorem upd_upd {β : Type} (f : Nat → β) (i : Nat) (x y : β) : upd (upd f i x) i y = upd f i y := by
  funext j
  by_cases hj : j = i
  · rw [hj, upd_same, upd_same]
  · rw [upd_other _ _ hj, upd_other _ _ hj, upd_other _ _ hj]

structure Inv (w : World α) : Prop where
  own : ∀ i o, w.objs i = some o → o.data ≠ 0 → o.width ≠ 0 ∧ o.height ≠ 0 ∧ o.width * o.height < 4294967296 ∧ ∃ l, w.heap o.data = some l ∧ l.length = o.width * o.height
  zero : ∀ i o, w.objs i = some o → o.data = 0 → o = ⟨0, 0, 0⟩
  dist : ∀ i j o p, w.objs i = some o → w.objs j = some p → o.data = p.data → o.data ≠ 0 → i = j
  fresh : ∀ b, w.heap b ≠ none → 0 < b ∧ b < w.next
  next : 0 < w.next

/-- Every block belongs to an object. -/
def Tight (w : World α) : Prop := ∀ b, w.heap b ≠ none → ∃ i o, w.objs i = some o ∧ o.data = b

/-- Width, height and values -/
def view (w : World α) (i : Nat) : Option (Nat × Nat × List α) := (w.objs i).map fun o => (o.width, o.height, (w.heap o.data).getD [])

theorem obj_ok {w : World α} {i : Nat} {o : Obj} (h : w.objs i = some o) : obj i w = .ok o w := by
  rw [obj, h]

theorem block_ok {w : World α} {b : Nat} {l : List α} (h : w.heap b = some l) : block b w = .ok l w := by
  rw [block, h]

theorem Inv.null {w : World α} (h : Inv w) : w.heap 0 = none := by
  cases hb : w.heap 0 with
  | none => rfl
  | some l => exact absurd (h.fresh 0 (by rw [hb]; simp)).1 (by omega)

theorem view_of {w : World α} {i : Nat} {o : Obj} {l : List α} (ho : w.objs i = some o) (hl : w.heap o.data = some l) : view w i = some (o.width, o.height, l) := by
  rw [view, ho, Option.map_some, hl]
  rfl

theorem view_null {w : World α} (h : Inv w) {i : Nat} (ho : w.objs i = some ⟨0, 0, 0⟩) : view w i = some (0, 0, []) := by
  rw [view, ho, Option.map_some, h.null]
  rfl

theorem Inv.lt {w : World α} (h : Inv w) {i : Nat} {o : Obj} (ho : w.objs i = some o) : o.data < w.next := by
  by_cases hd : o.data = 0
  · rw [hd]; exact h.next
  · obtain ⟨_, _, _, l, hl, _⟩ := h.own i o ho hd
    exact (h.fresh o.data (by rw [hl]; simp)).2

/-- What an operation on object i keeps. -/
structure Keeps (w w' : World α) (i : Nat) : Prop where
  inv : Inv w'
  objs : ∀ j, j ≠ i → w'.objs j = w.objs j
  heap : ∀ j o, j ≠ i → w.objs j = some o → o.data ≠ 0 → w'.heap o.data = w.heap o.data
  tight : Tight w → Tight w'

theorem Keeps.refl {w : World α} (h : Inv w) (i : Nat) : Keeps w w i := ⟨h, fun _ _ => rfl, fun _ _ _ _ _ => rfl, id⟩

theorem Keeps.trans {w w' w'' : World α} {i : Nat} (h : Keeps w w' i) (h' : Keeps w' w'' i) : Keeps w w'' i :=
  ⟨h'.inv, fun j hj => (h'.objs j hj).trans (h.objs j hj), fun j o hj ho hd => (h'.heap j o hj ((h.objs j hj).trans ho) hd).trans (h.heap j o hj ho hd), h'.tight ∘ h.tight⟩

theorem Keeps.view {w w' : World α} {i : Nat} (hi : Inv w) (h : Keeps w w' i) {j : Nat} (hj : j ≠ i) : view w' j = view w j := by
  unfold CplxData.view
  rw [h.objs j hj]
  cases ho : w.objs j with
  | none => rfl
  | some o =>
    rw [Option.map_some, Option.map_some]
    by_cases hd : o.data = 0
    · rw [hd, h.inv.null, hi.null]
    · rw [h.heap j o hj ho hd]

/-! ### Release -/

def cleaned (w : World α) (i : Nat) (o : Obj) : World α := ⟨upd w.objs i (some ⟨0, 0, 0⟩), if o.data = 0 then w.heap else upd w.heap o.data none, w.next⟩

theorem clean_ok {w : World α} (h : Inv w) {i : Nat} {o : Obj} (ho : w.objs i = some o) : clean i w = .ok () (cleaned w i o) := by
  rw [clean, bind_ok (obj_ok ho)]
  by_cases hd : o.data = 0
  · rw [if_neg (not_not_intro hd), cleaned, if_pos hd]
    rfl
  · obtain ⟨_, _, _, l, hl, _⟩ := h.own i o ho hd
    have : freeBlock o.data w = .ok () { w with heap := upd w.heap o.data none } := by rw [freeBlock, hl]
    rw [if_pos hd, bind_ok this, cleaned, if_neg hd]
    rfl

theorem cleaned_sub {w : World α} {i : Nat} {o : Obj} {b : Nat} (hb : (cleaned w i o).heap b ≠ none) : w.heap b ≠ none ∧ (o.data = 0 ∨ b ≠ o.data) := by
  unfold cleaned at hb
  dsimp only at hb
  split at hb
  · rename_i h0
    exact ⟨hb, .inl h0⟩
  · by_cases hc : b = o.data
    · rw [hc, upd_same] at hb
      exact absurd rfl hb
    · rw [upd_other _ _ hc] at hb
      exact ⟨hb, .inr hc⟩

theorem cleaned_objs {w : World α} {i : Nat} {o : Obj} : (cleaned w i o).objs i = some ⟨0, 0, 0⟩ := upd_same _ _ _

theorem cleaned_other {w : World α} {i k : Nat} {o p : Obj} (h : (cleaned w i o).objs k = some p) : (k = i ∧ p = ⟨0, 0, 0⟩) ∨ (k ≠ i ∧ w.objs k = some p) := by
  by_cases hk : k = i
  · rw [hk] at h
    exact .inl ⟨hk, Option.some.inj (((upd_same _ _ _).symm.trans h).symm)⟩
  · exact .inr ⟨hk, (upd_other _ _ hk).symm.trans h⟩

theorem cleaned_heap {w : World α} (h : Inv w) {i j : Nat} {o p : Obj} (ho : w.objs i = some o) (hp : w.objs j = some p) (hij : j ≠ i) (hd : p.data ≠ 0) :
    (cleaned w i o).heap p.data = w.heap p.data := by
  unfold cleaned
  dsimp only
  split
  · rfl
  · exact upd_other _ _ fun hc => hij (h.dist j i p o hp ho hc hd)

theorem keeps_cleaned {w : World α} (h : Inv w) {i : Nat} {o : Obj} (ho : w.objs i = some o) : Keeps w (cleaned w i o) i := by
  refine ⟨⟨?_, ?_, ?_, fun b hb => h.fresh b (cleaned_sub hb).1, h.next⟩, fun j hj => upd_other _ _ hj, fun j p hj hp hd => cleaned_heap h ho hp hj hd, ?_⟩
  · intro k p hp hd
    rcases cleaned_other hp with ⟨_, rfl⟩ | ⟨hk, hp'⟩
    · exact absurd rfl hd
    · rw [cleaned_heap h ho hp' hk hd]
      exact h.own k p hp' hd
  · intro k p hp hd
    rcases cleaned_other hp with ⟨_, rfl⟩ | ⟨hk, hp'⟩
    · rfl
    · exact h.zero k p hp' hd
  · intro k l p q hp hq he hd
    rcases cleaned_other hp with ⟨_, rfl⟩ | ⟨hk, hp'⟩
    · exact absurd rfl hd
    · rcases cleaned_other hq with ⟨_, rfl⟩ | ⟨hl, hq'⟩
      · exact absurd he hd
      · exact h.dist k l p q hp' hq' he hd
  · intro t b hb
    obtain ⟨h1, h2⟩ := cleaned_sub hb
    obtain ⟨k, p, hp, hpb⟩ := t b h1
    have hk : k ≠ i := by
      rintro rfl
      rw [ho] at hp
      injection hp with hp
      subst hp
      have := (h.fresh b h1).1
      omega
    exact ⟨k, p, (upd_other _ _ hk).trans hp, hpb⟩

/-! ### Allocation -/

def allocd (e : Env α) (w : World α) (i a b : Nat) : World α :=
  ⟨upd w.objs i (some ⟨w.next, a, b⟩), upd w.heap w.next (some ((List.range (a * b)).map e.junk)), w.next + 1⟩

theorem allocate_ok {w : World α} (e : Env α) (i : Nat) {a b : Nat} (hs : a * b < 4294967296) :
    allocate e i a b w = if e.room then .ok () (allocd e w i a b) else .throw w := by
  rw [allocate, u32_of_lt hs]
  by_cases hr : e.room = true
  · rw [if_pos hr]
    have : allocBlock e (a * b) w = .ok w.next { w with heap := upd w.heap w.next (some ((List.range (a * b)).map e.junk)), next := w.next + 1 } := if_pos hr
    rw [bind_ok this]
    rfl
  · rw [if_neg hr]
    exact bind_throw (if_neg hr)

theorem allocd_other {e : Env α} {w : World α} {i k a b : Nat} {p : Obj} (h : (allocd e w i a b).objs k = some p) : (k = i ∧ p = ⟨w.next, a, b⟩) ∨ (k ≠ i ∧ w.objs k = some p) := by
  by_cases hk : k = i
  · rw [hk] at h
    exact .inl ⟨hk, Option.some.inj (((upd_same _ _ _).symm.trans h).symm)⟩
  · exact .inr ⟨hk, (upd_other _ _ hk).symm.trans h⟩

theorem allocd_heap {e : Env α} {w : World α} (h : Inv w) {i j a b : Nat} {p : Obj} (hp : w.objs j = some p) : (allocd e w i a b).heap p.data = w.heap p.data := by
  have := h.lt hp
  exact upd_other _ _ (by omega)

theorem allocd_same {e : Env α} {w : World α} {i a b : Nat} : (allocd e w i a b).heap w.next = some ((List.range (a * b)).map e.junk) := upd_same _ _ _

theorem keeps_allocd {w : World α} (h : Inv w) (e : Env α) {i : Nat} (ho : w.objs i = some ⟨0, 0, 0⟩) {a b : Nat} (ha : a ≠ 0) (hb : b ≠ 0) (hs : a * b < 4294967296) :
    Keeps w (allocd e w i a b) i := by
  refine ⟨⟨?_, ?_, ?_, ?_, Nat.succ_pos _⟩, fun j hj => upd_other _ _ hj, fun j p hj hp _ => allocd_heap h hp, ?_⟩
  · intro k p hp hd
    rcases allocd_other hp with ⟨_, rfl⟩ | ⟨hk, hp'⟩
    · exact ⟨ha, hb, hs, _, allocd_same, by simp⟩
    · rw [allocd_heap h hp']
      exact h.own k p hp' hd
  · intro k p hp hd
    rcases allocd_other hp with ⟨_, rfl⟩ | ⟨hk, hp'⟩
    · exact absurd hd (by have := h.next; dsimp only; omega)
    · exact h.zero k p hp' hd
  · intro k l p q hp hq he hd
    rcases allocd_other hp with ⟨hk, rfl⟩ | ⟨hk, hp'⟩
    · rcases allocd_other hq with ⟨hl, rfl⟩ | ⟨hl, hq'⟩
      · rw [hk, hl]
      · have := h.lt hq'
        dsimp only at he
        omega
    · rcases allocd_other hq with ⟨hl, rfl⟩ | ⟨hl, hq'⟩
      · have := h.lt hp'
        dsimp only at he
        omega
      · exact h.dist k l p q hp' hq' he hd
  · intro c hc
    show 0 < c ∧ c < w.next + 1
    have h0 := h.next
    by_cases hn : c = w.next
    · omega
    · rw [show (allocd e w i a b).heap c = _ from upd_other _ _ hn] at hc
      have := h.fresh c hc
      omega
  · intro t c hc
    by_cases hn : c = w.next
    · exact ⟨i, _, upd_same _ _ _, hn.symm⟩
    · rw [show (allocd e w i a b).heap c = _ from upd_other _ _ hn] at hc
      obtain ⟨k, p, hp, hpb⟩ := t c hc
      have hk : k ≠ i := by
        rintro rfl
        rw [ho] at hp
        injection hp with hp
        subst hp
        have := (h.fresh c hc).1
        dsimp only at hpb
        omega
      exact ⟨k, p, (upd_other _ _ hk).trans hp, hpb⟩

/-! ### New values -/

def filled (w : World α) (b : Nat) (l : List α) : World α := { w with heap := upd w.heap b (some l) }

theorem keeps_filled {w : World α} (h : Inv w) {i : Nat} {o : Obj} (ho : w.objs i = some o) (hd : o.data ≠ 0) {l : List α} (hl : l.length = o.width * o.height) :
    Keeps w (filled w o.data l) i := by
  refine ⟨⟨?_, h.zero, h.dist, ?_, h.next⟩, fun _ _ => rfl, fun j p hj hp hpd => upd_other _ _ fun hc => hj (h.dist j i p o hp ho hc hpd), ?_⟩
  · intro j p hp hpd
    obtain ⟨h1, h2, h3, k, h4, h5⟩ := h.own j p hp hpd
    refine ⟨h1, h2, h3, ?_⟩
    by_cases hj : p.data = o.data
    · have hij := h.dist j i p o hp ho hj hpd
      subst hij
      have := ho.symm.trans hp
      injection this with this
      subst this
      exact ⟨l, upd_same _ _ _, hl⟩
    · exact ⟨k, (upd_other _ _ hj).trans h4, h5⟩
  · intro b hb
    by_cases hc : b = o.data
    · obtain ⟨_, _, _, k, h2, _⟩ := h.own i o ho hd
      rw [hc]
      exact h.fresh o.data (by rw [h2]; simp)
    · rw [show (filled w o.data l).heap b = _ from upd_other _ _ hc] at hb
      exact h.fresh b hb
  · intro t b hb
    by_cases hc : b = o.data
    · exact ⟨i, o, ho, hc.symm⟩
    · rw [show (filled w o.data l).heap b = _ from upd_other _ _ hc] at hb
      exact t b hb

theorem fill_ok {w : World α} (h : Inv w) {i : Nat} {o : Obj} (ho : w.objs i = some o) (hd : o.data ≠ 0) {v : List α} (hv : v.length = o.width * o.height) {n : Nat}
    (hn : n = o.width * o.height) : fill o.data n v w = .ok () (filled w o.data v) := by
  obtain ⟨_, _, _, l, hl, hlen⟩ := h.own i o ho hd
  rw [fill, bind_ok (block_ok hl), if_pos (by omega), List.take_of_length_le (by omega), List.drop_eq_nil_of_le (by omega), List.append_nil]
  rfl

/-! ### Operations on one object

`Ends r b w'`: the operation ends in w', normally if b. -/

def Ends (r : Res (World α) Unit) (b : Bool) (w' : World α) : Prop := r = if b then .ok () w' else .throw w'

/-- Why an operation on object i fails: no room, which leaves the object empty, or an error of the device -/
def Fails (kind : Kind) (e : Env α) (w : World α) (i : Nat) : Prop := (e.room = false ∧ w.objs i = some ⟨0, 0, 0⟩) ∨ (kind = .cuda ∧ e.copies = false)

theorem onDevice_ok {kind : Kind} {e : Env α} {x : M (World α) Unit} {w w' : World α} (hx : x w = .ok () w') :
    (onDevice kind e x w = .ok () w') ∨ (onDevice kind e x w = .throw w ∧ kind = .cuda ∧ e.copies = false) := by
  unfold onDevice
  by_cases h : kind = .cuda ∧ e.copies = false
  · rw [if_pos h]
    exact .inr ⟨rfl, h⟩
  · rw [if_neg h]
    exact .inl hx

theorem resize_any {w : World α} (h : Inv w) (e : Env α) {i : Nat} {o : Obj} (ho : w.objs i = some o) {a b : Nat} (hs : a * b < 4294967296) :
    ∃ r w', Ends (resize e i a b w) r w' ∧ Keeps w w' i
      ∧ (r = false → e.room = false ∧ w'.objs i = some ⟨0, 0, 0⟩)
      ∧ (r = true → (((o.width = a ∧ o.height = b) ∨ a = 0 ∨ b = 0) ∧ w' = w) ∨ (¬ (o.width = a ∧ o.height = b) ∧ a ≠ 0 ∧ b ≠ 0 ∧ ∃ d, d ≠ 0 ∧ w'.objs i = some ⟨d, a, b⟩)) := by
  unfold resize
  rw [bind_ok (obj_ok ho)]
  by_cases hc : (o.width ≠ a ∨ o.height ≠ b) ∧ a ≠ 0 ∧ b ≠ 0
  · rw [if_pos hc, bind_ok (clean_ok h ho), allocate_ok e i hs]
    have k1 := keeps_cleaned h ho
    by_cases hr : e.room = true
    · rw [if_pos hr]
      refine ⟨true, _, rfl, k1.trans (keeps_allocd k1.inv e cleaned_objs hc.2.1 hc.2.2 hs), nofun, fun _ => .inr ⟨by omega, hc.2.1, hc.2.2, _, ?_, upd_same _ _ _⟩⟩
      have := k1.inv.next
      omega
    · rw [if_neg hr]
      exact ⟨false, _, rfl, k1, fun _ => ⟨by simpa using hr, cleaned_objs⟩, nofun⟩
  · rw [if_neg hc]
    exact ⟨true, w, rfl, .refl h i, nofun, fun _ => .inl ⟨by omega, rfl⟩⟩

theorem setImage_any {w : World α} (h : Inv w) (kind : Kind) (e : Env α) {i : Nat} {o : Obj} (ho : w.objs i = some o) {m : Img α} (hg : m.gray = true) (hw : m.width ≠ 0) (hh : m.height ≠ 0)
    (hs : m.width * m.height < 4294967296) (hp : m.px.length = m.width * m.height) :
    ∃ r w', Ends (setImage kind e i m w) r w' ∧ Keeps w w' i ∧ (∃ o', w'.objs i = some o') ∧ (r = false → Fails kind e w' i) ∧ (r = true → view w' i = some (m.width, m.height, m.px)) := by
  unfold setImage
  rw [hg, show throwIf (!true) = pure () from rfl]
  have k1 := keeps_cleaned h ho
  rw [bind_ok (show (pure () : M (World α) Unit) w = .ok () w from rfl), bind_ok (clean_ok h ho)]
  by_cases hr : e.room = true
  · have k2 := keeps_allocd k1.inv e cleaned_objs hw hh hs
    have ha : allocate e i m.width m.height (cleaned w i o) = .ok () (allocd e (cleaned w i o) i m.width m.height) := by rw [allocate_ok e i hs, if_pos hr]
    have ho2 : (allocd e (cleaned w i o) i m.width m.height).objs i = some ⟨w.next, m.width, m.height⟩ := upd_same _ _ _
    have hd : w.next ≠ 0 := by have := h.next; omega
    rw [bind_ok ha, bind_ok (obj_ok ho2)]
    have hf := fill_ok k2.inv ho2 hd (v := m.px) hp rfl
    rcases onDevice_ok (kind := kind) (e := e) hf with h1 | ⟨h1, h2⟩
    · refine ⟨true, _, h1, (k1.trans k2).trans (keeps_filled k2.inv ho2 hd hp), ⟨_, ho2⟩, nofun, fun _ => ?_⟩
      exact view_of (o := ⟨w.next, m.width, m.height⟩) ho2 (upd_same _ _ _)
    · exact ⟨false, _, h1, k1.trans k2, ⟨_, ho2⟩, fun _ => .inr h2, nofun⟩
  · refine ⟨false, _, bind_throw ?_, k1, ⟨_, cleaned_objs⟩, fun _ => .inl ⟨by simpa using hr, cleaned_objs⟩, nofun⟩
    rw [allocate_ok e i hs, if_neg hr]

theorem setVector_any {w : World α} (h : Inv w) (kind : Kind) (e : Env α) {i : Nat} {o : Obj} (ho : w.objs i = some o) (v : List α) :
    ∃ r w', Ends (setVector kind e i v w) r w' ∧ Keeps w w' i ∧ w'.objs i = some o
      ∧ (r = false → w' = w ∧ (v = [] ∨ v.length ≠ o.width * o.height ∨ (kind = .cuda ∧ e.copies = false)))
      ∧ (r = true → v ≠ [] ∧ v.length = o.width * o.height ∧ view w' i = some (o.width, o.height, v)) := by
  unfold setVector
  rw [bind_ok (obj_ok ho)]
  have hsz : o.width * o.height < 4294967296 := by
    by_cases hd : o.data = 0
    · rw [h.zero i o ho hd]
      decide
    · exact (h.own i o ho hd).2.2.1
  rw [u32_of_lt hsz]
  by_cases hc : (v.isEmpty || o.width == 0 || o.height == 0 || v.length != o.width * o.height) = true
  · rw [hc]
    refine ⟨false, w, rfl, .refl h i, ho, fun _ => ⟨rfl, ?_⟩, nofun⟩
    simp only [Bool.or_eq_true, List.isEmpty_iff, beq_iff_eq, bne_iff_ne] at hc
    rcases hc with ((hc | hc) | hc) | hc
    · exact .inl hc
    · by_cases hv : v = []
      · exact .inl hv
      · exact .inr (.inl (by rw [hc, Nat.zero_mul]; simpa using hv))
    · by_cases hv : v = []
      · exact .inl hv
      · exact .inr (.inl (by rw [hc, Nat.mul_zero]; simpa using hv))
    · exact .inr (.inl hc)
  · rw [Bool.not_eq_true] at hc
    rw [hc]
    simp only [Bool.or_eq_false_iff, List.isEmpty_eq_false_iff, beq_eq_false_iff_ne, bne_eq_false_iff_eq] at hc
    obtain ⟨⟨⟨h1, h2⟩, h3⟩, h4⟩ := hc
    have hd : o.data ≠ 0 := fun hd => h2 (by rw [h.zero i o ho hd])
    have hf := fill_ok h ho hd h4 rfl
    show ∃ r w', Ends (onDevice kind e (fill o.data (o.width * o.height) v) w) r w' ∧ _
    rcases onDevice_ok (kind := kind) (e := e) hf with k1 | ⟨k1, k2⟩
    · exact ⟨true, _, k1, keeps_filled h ho hd h4, ho, nofun, fun _ => ⟨h1, h4, view_of (w := filled w o.data v) ho (upd_same _ _ _)⟩⟩
    · exact ⟨false, _, k1, .refl h i, ho, fun _ => ⟨rfl, .inr (.inr k2)⟩, nofun⟩

theorem copyO_any {w : World α} (h : Inv w) (kind : Kind) (e : Env α) {i j : Nat} {o p : Obj} (ho : w.objs i = some o) (hp : w.objs j = some p) (hij : i ≠ j) :
    ∃ r w', Ends (copyO kind e i j w) r w' ∧ Keeps w w' i ∧ (∃ o', w'.objs i = some o') ∧ (r = false → Fails kind e w' i) ∧ (r = true → view w' i = view w j) := by
  have k1 := keeps_cleaned h ho
  have hp1 : (cleaned w i o).objs j = some p := (k1.objs j (Ne.symm hij)).trans hp
  unfold copyO
  rw [bind_ok (clean_ok h ho), bind_ok (obj_ok hp1)]
  by_cases hd : p.data = 0
  · have hz := h.zero j p hp hd
    subst hz
    have hr : resize e i 0 0 (cleaned w i o) = .ok () (cleaned w i o) := by
      rw [resize, bind_ok (obj_ok cleaned_objs), if_neg (by simp)]
      rfl
    rw [bind_ok hr, bind_ok (obj_ok cleaned_objs), bind_ok (obj_ok hp1), if_neg (by simp)]
    refine ⟨true, _, rfl, k1, ⟨_, cleaned_objs⟩, nofun, fun _ => ?_⟩
    rw [view_null k1.inv cleaned_objs, view_null h hp]
  · obtain ⟨a1, a2, a3, l, hl, hlen⟩ := h.own j p hp hd
    obtain ⟨r, w2, e2, k2, f2, g2⟩ := resize_any k1.inv e cleaned_objs (a := p.width) (b := p.height) a3
    cases r with
    | false => exact ⟨false, w2, bind_throw e2, k1.trans k2, ⟨_, (f2 rfl).2⟩, fun _ => .inl (f2 rfl), nofun⟩
    | true =>
      rcases g2 rfl with ⟨hz, _⟩ | ⟨_, _, _, d, hd2, ho2⟩
      · exact absurd hz (by dsimp only; omega)
      · have hp2 : w2.objs j = some p := (k2.objs j (Ne.symm hij)).trans hp1
        have hl2 : w2.heap p.data = some l := ((k1.trans k2).heap j p (Ne.symm hij) hp hd).trans hl
        rw [bind_ok e2, bind_ok (obj_ok ho2), bind_ok (obj_ok hp2), if_pos (show ¬ (Obj.data ⟨d, p.width, p.height⟩) = 0 from hd2)]
        have hne : d ≠ p.data := fun hc => hij (k2.inv.dist i j _ p ho2 hp2 hc hd2)
        have hcc : copyCount kind p.width p.height = p.width * p.height := by
          cases kind
          · rfl
          · exact u32_of_lt a3
        have hf : (block p.data >>= fun l => fill d (copyCount kind p.width p.height) l) w2 = .ok () (filled w2 d l) := by
          rw [bind_ok (block_ok hl2)]
          exact fill_ok k2.inv ho2 hd2 hlen hcc
        rw [copyData, if_neg hne]
        rcases onDevice_ok (kind := kind) (e := e) hf with h1 | ⟨h1, h2⟩
        · refine ⟨true, _, h1, (k1.trans k2).trans (keeps_filled k2.inv ho2 hd2 hlen), ⟨_, ho2⟩, nofun, fun _ => ?_⟩
          rw [view_of (w := filled w2 d l) ho2 (upd_same _ _ _), view_of hp hl]
        · exact ⟨false, _, h1, k1.trans k2, ⟨_, ho2⟩, fun _ => .inr h2, nofun⟩

theorem copyO_self {w : World α} (h : Inv w) (kind : Kind) (e : Env α) {i : Nat} {o : Obj} (ho : w.objs i = some o) : copyO kind e i i w = .ok () (cleaned w i o) := by
  unfold copyO
  rw [bind_ok (clean_ok h ho), bind_ok (obj_ok cleaned_objs)]
  have hr : resize e i 0 0 (cleaned w i o) = .ok () (cleaned w i o) := by
    rw [resize, bind_ok (obj_ok cleaned_objs), if_neg (by simp)]
    rfl
  rw [bind_ok hr, bind_ok (obj_ok cleaned_objs), bind_ok (obj_ok cleaned_objs), if_neg (by simp)]
  rfl

/-! ### Exchange, constructors, destructors -/

def swapIx (i j k : Nat) : Nat := if k = j then i else if k = i then j else k

theorem swapIx_swapIx (i j k : Nat) : swapIx i j (swapIx i j k) = k := by
  unfold swapIx
  split <;> split <;> (try split) <;> omega

def swapped (w : World α) (i j : Nat) (o p : Obj) : World α := { w with objs := upd (upd w.objs i (some p)) j (some o) }

theorem swapped_objs {w : World α} {i j : Nat} {o p : Obj} (ho : w.objs i = some o) (hp : w.objs j = some p) (k : Nat) : (swapped w i j o p).objs k = w.objs (swapIx i j k) := by
  unfold swapped swapIx upd
  dsimp only
  split
  · exact ho.symm
  split
  · exact hp.symm
  · rfl

theorem swapO_ok {w : World α} {i j : Nat} {o p : Obj} (ho : w.objs i = some o) (hp : w.objs j = some p) : swapO i j w = .ok () (swapped w i j o p) := by
  rw [swapO, bind_ok (obj_ok ho), bind_ok (obj_ok hp)]
  rfl

theorem Inv.swapped {w : World α} (h : Inv w) {i j : Nat} {o p : Obj} (ho : w.objs i = some o) (hp : w.objs j = some p) : Inv (swapped w i j o p) := by
  have hf := swapped_objs ho hp
  refine ⟨fun k q hq hd => h.own (swapIx i j k) q ((hf k).symm.trans hq) hd, fun k q hq hd => h.zero (swapIx i j k) q ((hf k).symm.trans hq) hd, fun k l q r hq hr he hd => ?_, h.fresh, h.next⟩
  have := h.dist (swapIx i j k) (swapIx i j l) q r ((hf k).symm.trans hq) ((hf l).symm.trans hr) he hd
  rw [← swapIx_swapIx i j k, this, swapIx_swapIx i j l]

theorem Tight.swapped {w : World α} (h : Tight w) {i j : Nat} {o p : Obj} (ho : w.objs i = some o) (hp : w.objs j = some p) : Tight (swapped w i j o p) := by
  intro b hb
  obtain ⟨k, q, hq, hd⟩ := h b hb
  exact ⟨swapIx i j k, q, by rw [swapped_objs ho hp, swapIx_swapIx, hq], hd⟩

theorem view_swapped {w : World α} {i j : Nat} {o p : Obj} (ho : w.objs i = some o) (hp : w.objs j = some p) (k : Nat) : view (swapped w i j o p) k = view w (swapIx i j k) := by
  unfold view
  rw [swapped_objs ho hp]
  rfl

def dropped (w : World α) (i : Nat) : World α := { w with objs := upd w.objs i none }

def added (w : World α) (i : Nat) : World α := { w with objs := upd w.objs i (some ⟨0, 0, 0⟩) }

theorem dropped_objs {w : World α} {i k : Nat} {o : Obj} (h : (dropped w i).objs k = some o) : k ≠ i ∧ w.objs k = some o := by
  by_cases hk : k = i
  · rw [hk] at h
    exact absurd ((upd_same _ _ _).symm.trans h) (by simp)
  · exact ⟨hk, (upd_other _ _ hk).symm.trans h⟩

theorem added_objs {w : World α} {i k : Nat} {o : Obj} (h : (added w i).objs k = some o) : (k = i ∧ o = ⟨0, 0, 0⟩) ∨ (k ≠ i ∧ w.objs k = some o) := by
  by_cases hk : k = i
  · rw [hk] at h
    exact .inl ⟨hk, Option.some.inj (((upd_same _ _ _).symm.trans h).symm)⟩
  · exact .inr ⟨hk, (upd_other _ _ hk).symm.trans h⟩

theorem added_self {w : World α} {i : Nat} : (added w i).objs i = some ⟨0, 0, 0⟩ := upd_same _ _ _

theorem Inv.dropped {w : World α} (h : Inv w) (i : Nat) : Inv (dropped w i) :=
  ⟨fun k o ho hd => h.own k o (dropped_objs ho).2 hd, fun k o ho hd => h.zero k o (dropped_objs ho).2 hd,
    fun k l o p ho hp he hd => h.dist k l o p (dropped_objs ho).2 (dropped_objs hp).2 he hd, h.fresh, h.next⟩

theorem Inv.added {w : World α} (h : Inv w) (i : Nat) : Inv (added w i) := by
  refine ⟨fun k o ho hd => ?_, fun k o ho hd => ?_, fun k l o p ho hp he hd => ?_, h.fresh, h.next⟩
  · rcases added_objs ho with ⟨_, rfl⟩ | ⟨_, h2⟩
    · exact absurd rfl hd
    · exact h.own k o h2 hd
  · rcases added_objs ho with ⟨_, rfl⟩ | ⟨_, h2⟩
    · rfl
    · exact h.zero k o h2 hd
  · rcases added_objs ho with ⟨_, rfl⟩ | ⟨_, h2⟩
    · exact absurd rfl hd
    · rcases added_objs hp with ⟨_, rfl⟩ | ⟨_, h3⟩
      · exact absurd he hd
      · exact h.dist k l o p h2 h3 he hd

theorem Tight.added {w : World α} (h : Tight w) {i : Nat} (hi : w.objs i = none) : Tight (added w i) := by
  intro b hb
  obtain ⟨k, o, ho, hd⟩ := h b hb
  refine ⟨k, o, (upd_other _ _ ?_).trans ho, hd⟩
  rintro rfl
  rw [hi] at ho
  exact absurd ho (by simp)

theorem Tight.dropped {w : World α} (hI : Inv w) (h : Tight w) {i : Nat} (hi : w.objs i = some ⟨0, 0, 0⟩) : Tight (dropped w i) := by
  intro b hb
  obtain ⟨k, p, hp, hpd⟩ := h b hb
  refine ⟨k, p, (upd_other _ _ ?_).trans hp, hpd⟩
  rintro rfl
  rw [hi] at hp
  injection hp with hp
  subst hp
  have := (hI.fresh b hb).1
  dsimp only at hpd
  omega

theorem view_dropped (w : World α) (i k : Nat) : view (dropped w i) k = if k = i then none else view w k := by
  by_cases hk : k = i
  · rw [if_pos hk, view, hk, show (dropped w i).objs i = none from upd_same _ _ _]
    rfl
  · rw [if_neg hk, view, view, show (dropped w i).objs k = _ from upd_other _ _ hk]
    rfl

theorem view_added {w : World α} (h : Inv w) (i k : Nat) : view (added w i) k = if k = i then some (0, 0, []) else view w k := by
  by_cases hk : k = i
  · rw [if_pos hk, hk]
    exact view_null (h.added i) added_self
  · rw [if_neg hk, view, view, show (added w i).objs k = _ from upd_other _ _ hk]
    rfl

theorem ctor_any {w : World α} {i : Nat} (h : w.objs i = none) {body : M (World α) Unit} {r : Bool} {w' : World α} (hb : Ends (body (added w i)) r w') :
    Ends (ctor i body w) r (if r then w' else dropped w' i) := by
  unfold Ends ctor at *
  rw [h]
  dsimp only
  rw [show body { w with objs := upd w.objs i (some ⟨0, 0, 0⟩) } = _ from hb]
  cases r <;> rfl

theorem destroy_ok {w : World α} (h : Inv w) (kind : Kind) (e : Env α) {i : Nat} {o : Obj} (ho : w.objs i = some o) : step kind e (.destroy i) w = .ok () (dropped (cleaned w i o) i) := by
  show (clean i >>= fun _ => dropObj i) w = _
  rw [bind_ok (clean_ok h ho)]
  rfl

theorem write_ok {w : World α} (h : Inv w) {i k : Nat} {o : Obj} (ho : w.objs i = some o) (hd : o.data ≠ 0) (hk : k < o.width * o.height) (x : α) :
    ∃ l, w.heap o.data = some l ∧ l.length = o.width * o.height ∧ write i k x w = .ok () (filled w o.data (l.set k x)) := by
  obtain ⟨_, _, _, l, hl, hlen⟩ := h.own i o ho hd
  refine ⟨l, hl, hlen, ?_⟩
  rw [write, bind_ok (obj_ok ho), bind_ok (block_ok hl), if_pos (by omega)]
  rfl

theorem view_len {w : World α} (h : Inv w) {i : Nat} {o : Obj} (ho : w.objs i = some o) :
    ∃ l, view w i = some (o.width, o.height, l) ∧ l.length = o.width * o.height ∧ (o.data = 0 ↔ o.width = 0) ∧ (o.data = 0 ↔ o.height = 0) := by
  by_cases hd : o.data = 0
  · have hz := h.zero i o ho hd
    subst hz
    exact ⟨[], view_null h ho, rfl, by simp, by simp⟩
  · obtain ⟨h1, h2, _, l, h3, h4⟩ := h.own i o ho hd
    exact ⟨l, view_of ho h3, h4, by simp [hd, h1], by simp [hd, h2]⟩

end PV.CplxData
