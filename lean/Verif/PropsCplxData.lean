import Verif.CplxDataLemmas
/-
  C143: complex data for Fourier transforms as objects.
-/
namespace PV.Props
open PV PV.CplxData

variable {α : Type}

/-- The value of a call, if it gives one. -/
def valC {μ β : Type} : Res μ β → Option β
  | .ok b _ => some b
  | _ => none

/-- Width, height and the values row by row -/
abbrev Content (α : Type) := Nat × Nat × List α

/-- What `width()`, `height()` and `data()` of object i show; `none` if there is no object, or if there are not as many values. -/
def shown (w : World α) (i : Nat) : Option (Content α) := do
  let a ← valC (width i w)
  let b ← valC (height i w)
  let l ← (List.range (a * b)).mapM fun k => valC (read i k w)
  pure (a, b, l)

def noCplx : World α := ⟨fun _ => none, fun _ => none, 1⟩

def putC (s : Nat → Option (Content α)) (i : Nat) (x : Option (Content α)) : Nat → Option (Content α) := fun k => if k = i then x else s k

/-- Images are as large as they say. -/
def ImgOk (m : Img α) : Prop := m.gray = true → m.width ≠ 0 ∧ m.height ≠ 0 ∧ m.width * m.height < 4294967296 ∧ m.px.length = m.width * m.height

/-- The operations of correct programs: constructors where there is no object, everything else on objects which exist, less than 2^32
    values, changes of existing values. -/
def LegalC (kind : Kind) (s : Nat → Option (Content α)) : Op α → Prop
  | .new i => s i = none
  | .newImage i m => s i = none ∧ ImgOk m
  | .newVector i _ w h => kind = .cpu ∧ s i = none ∧ w * h < 4294967296
  | .copyNew i j => s i = none ∧ s j ≠ none
  | .moveNew i j => s i = none ∧ s j ≠ none
  | .copy i j => s i ≠ none ∧ s j ≠ none
  | .move i j => s i ≠ none ∧ s j ≠ none
  | .resize i w h => s i ≠ none ∧ w * h < 4294967296
  | .setImage i m => s i ≠ none ∧ ImgOk m
  | .setVector i _ => s i ≠ none
  | .write i k _ => ∃ c, s i = some c ∧ k < c.1 * c.2.1
  | .destroy i => s i ≠ none

/-- The operations which always throw: images which are empty or coloured, vectors of another size. -/
def RefusesC (s : Nat → Option (Content α)) : Op α → Prop
  | .newImage _ m => m.gray = false
  | .setImage _ m => m.gray = false
  | .newVector _ v w h => v = [] ∨ v.length ≠ w * h
  | .setVector i v => v = [] ∨ ∃ c, s i = some c ∧ v.length ≠ c.1 * c.2.1
  | _ => False

/-- Object i keeps a consistent state: as many values as width times height. -/
def AnyC (s s' : Nat → Option (Content α)) (i : Nat) : Prop := ∃ a b l, l.length = a * b ∧ s' = putC s i (some (a, b, l))

/-- What all objects contain after an operation which returned (`true`) or threw. -/
def AfterC (s s' : Nat → Option (Content α)) : Op α → Bool → Prop
  | .new i, _ => s' = putC s i (some (0, 0, []))
  | .newImage i m, true => s' = putC s i (some (m.width, m.height, m.px))
  | .newVector i v w h, true => s' = putC s i (some (w, h, v))
  | .copyNew i j, true => s' = putC s i (s j)
  | .moveNew i j, _ => s' = putC (putC s i (s j)) j (some (0, 0, []))
  | .copy i j, true => s' = putC s i (if i = j then some (0, 0, []) else s j)
  | .copy i _, false => AnyC s s' i
  | .move i j, _ => s' = putC (putC s i (s j)) j (s i)
  | .resize i w h, true => ∃ c, s i = some c ∧ if (c.1 = w ∧ c.2.1 = h) ∨ w = 0 ∨ h = 0 then s' = s else ∃ l, l.length = w * h ∧ s' = putC s i (some (w, h, l))
  | .resize i _ _, false => s' = putC s i (some (0, 0, []))
  | .setImage i m, true => s' = putC s i (some (m.width, m.height, m.px))
  | .setImage i m, false => if m.gray then AnyC s s' i else s' = s
  | .setVector i v, true => ∃ c, s i = some c ∧ s' = putC s i (some (c.1, c.2.1, v))
  | .write i k x, _ => ∃ c, s i = some c ∧ s' = putC s i (some (c.1, c.2.1, c.2.2.set k x))
  | .destroy i, _ => s' = putC s i none
  | _, false => s' = s

/-- Nothing fails. -/
def GoodC (kind : Kind) (e : Env α) : Prop := e.room = true ∧ (kind = .cuda → e.copies = true)

/-- What programs reach with operations allowed by P; exceptions are caught. -/
inductive ReachC (P : Env α → Op α → Prop) (kind : Kind) : World α → Prop
  | start : ReachC P kind noCplx
  | next {w w' : World α} {e : Env α} {op : Op α} {r : Bool} : ReachC P kind w → P e op → LegalC kind (shown w) op →
      step kind e op w = (if r then .ok () w' else .throw w') → ReachC P kind w'

theorem noCplx_inv : CplxData.Inv (noCplx : World α) :=
  ⟨by simp [noCplx], by simp [noCplx], by simp [noCplx], by simp [noCplx], Nat.one_pos⟩

theorem mapM_get (l : List α) : ∀ n, n ≤ l.length → (List.range n).mapM (fun k => l[k]?) = some (l.take n)
  | 0, _ => by simp
  | n + 1, h => by
    rw [List.range_succ, List.mapM_append, mapM_get l n (by omega), List.take_succ_eq_append_getElem (by omega)]
    simp [List.getElem?_eq_getElem (show n < l.length by omega)]

theorem shown_eq {w : World α} (h : CplxData.Inv w) (i : Nat) : shown w i = view w i := by
  cases ho : w.objs i with
  | none =>
    have hw : width i w = .ub := bind_ub (by rw [obj, ho])
    rw [shown, hw, view, ho]
    rfl
  | some o =>
    obtain ⟨l, hv, hlen, _, _⟩ := view_len h ho
    have hw : width i w = .ok o.width w := by rw [width, bind_ok (obj_ok ho)]; rfl
    have hh : height i w = .ok o.height w := by rw [height, bind_ok (obj_ok ho)]; rfl
    rw [hv, shown, hw, hh]
    show ((List.range (o.width * o.height)).mapM fun k => valC (read i k w)) >>= (fun l => pure (o.width, o.height, l)) = _
    have hm : (List.range (o.width * o.height)).mapM (fun k => valC (read i k w)) = some l := by
      by_cases hd : o.data = 0
      · have hz := h.zero i o ho hd
        subst hz
        rw [List.length_eq_zero_iff.mp (show l.length = 0 from hlen)]
        rfl
      · obtain ⟨_, _, _, l', hl', _⟩ := h.own i o ho hd
        have : l' = l := by
          rw [view_of ho hl'] at hv
          injection hv with hv
          injection hv with _ hv
          injection hv
        subst this
        have hf : (fun k => valC (read i k w)) = fun k => l'[k]? := by
          funext k
          rw [CplxData.read, bind_ok (obj_ok ho), bind_ok (block_ok hl')]
          cases l'[k]? <;> rfl
        rw [hf, mapM_get l' _ (by omega), List.take_of_length_le (by omega)]
    rw [hm]
    rfl

theorem shown_fun {w : World α} (h : CplxData.Inv w) : shown w = view w := funext (shown_eq h)

theorem viewC_none {w : World α} {i : Nat} : view w i = none ↔ w.objs i = none := by
  rw [view, Option.map_eq_none_iff]

theorem alive_of_view {w : World α} {i : Nat} (h : view w i ≠ none) : ∃ o, w.objs i = some o := by
  cases ho : w.objs i with
  | none => exact absurd (viewC_none.mpr ho) h
  | some o => exact ⟨o, rfl⟩

theorem put_eq {w w' : World α} {i : Nat} (hi : CplxData.Inv w) (hk : Keeps w w' i) : view w' = putC (view w) i (view w' i) := by
  funext k
  unfold putC
  split
  · rename_i h
    rw [h]
  · rename_i h
    exact hk.view hi h

theorem any_of {w w' : World α} {i : Nat} (hi : CplxData.Inv w) (hk : Keeps w w' i) {o : Obj} (ho : w'.objs i = some o) : AnyC (view w) (view w') i := by
  obtain ⟨l, h1, h2, _⟩ := view_len hk.inv ho
  exact ⟨_, _, l, h2, h1 ▸ put_eq hi hk⟩

theorem Fails_bad {kind : Kind} {e : Env α} {w : World α} {i : Nat} (h : Fails kind e w i) : ¬ GoodC kind e := by
  intro hg
  rcases h with h | h
  · rw [hg.1] at h
    exact absurd h.1 (by simp)
  · have := hg.2 h.1
    rw [h.2] at this
    exact absurd this (by simp)

/-- No constructor fails after it allocated memory. -/
def NoLeak (kind : Kind) (e : Env α) : Op α → Prop
  | .newVector _ v w h => v.length = w * h
  | .newImage _ _ => kind = .cuda → e.copies = true
  | .copyNew _ _ => kind = .cuda → e.copies = true
  | _ => True

/-- The parts of the theorems about one operation -/
structure StepC (kind : Kind) (e : Env α) (op : Op α) (w w' : World α) (r : Bool) : Prop where
  run : Ends (step kind e op w) r w'
  inv : CplxData.Inv w'
  after : AfterC (view w) (view w') op r
  bad : r = false → RefusesC (view w) op ∨ ¬ GoodC kind e
  good : r = true → ¬ RefusesC (view w) op
  tight : NoLeak kind e op → Tight w → Tight w'

theorem ctor_step {w : World α} (hi : CplxData.Inv w) {kind : Kind} {e : Env α} {i : Nat} (ho : w.objs i = none) {body : M (World α) Unit} {r : Bool} {w' : World α} (hb : Ends (body (added w i)) r w')
    (hk : Keeps (added w i) w' i) : Ends (ctor i body w) r (if r then w' else dropped w' i) ∧ CplxData.Inv (if r then w' else dropped w' i)
      ∧ view (if r then w' else dropped w' i) = putC (view w) i (if r then view w' i else none)
      ∧ ((r = false → Fails kind e w' i ∧ (kind = .cuda → e.copies = true)) → Tight w → Tight (if r then w' else dropped w' i)) := by
  refine ⟨ctor_any ho hb, ?_, ?_, ?_⟩
  · cases r
    · exact hk.inv.dropped i
    · exact hk.inv
  · have : ∀ k, k ≠ i → view w' k = view w k := fun k hki => by rw [hk.view (hi.added i) hki, view_added hi, if_neg hki]
    funext k
    unfold putC
    cases r
    · show view (dropped w' i) k = _
      rw [view_dropped]
      split
      · rfl
      · rename_i h
        exact this k h
    · show view w' k = _
      split
      · rename_i h
        rw [h]
        rfl
      · rename_i h
        exact this k h
  · intro hf ht
    cases r
    · obtain ⟨h1, h2⟩ := hf rfl
      rcases h1 with h1 | h1
      · exact (hk.tight (ht.added ho)).dropped hk.inv h1.2
      · have := h2 h1.1
        rw [h1.2] at this
        exact absurd this (by simp)
    · exact hk.tight (ht.added ho)

theorem putC_none {w : World α} {i : Nat} (h : w.objs i = none) : putC (view w) i none = view w := by
  funext k
  unfold putC
  split
  · rename_i hk
    rw [hk, viewC_none.mpr h]
  · rfl

theorem step_c {w : World α} (hi : CplxData.Inv w) (kind : Kind) (e : Env α) (op : Op α) (hl : LegalC kind (view w) op) : ∃ r w', StepC kind e op w w' r := by
  cases op with
  | new i =>
    have ho := viewC_none.mp hl
    obtain ⟨h1, h2, h3, h4⟩ := ctor_step (kind := kind) (e := e) hi ho (body := pure ()) (r := true) rfl (.refl (hi.added i) i)
    refine ⟨true, _, h1, h2, ?_, nofun, fun _ h => h, fun _ => h4 nofun⟩
    rw [AfterC, h3, if_pos rfl, view_added hi, if_pos rfl]
  | newImage i m =>
    obtain ⟨ho, hm⟩ := hl
    replace ho := viewC_none.mp ho
    cases hg : m.gray with
    | false =>
      have hb : Ends (setImage kind e i m (added w i)) false (added w i) := by
        rw [Ends, setImage, hg]
        exact bind_throw rfl
      obtain ⟨h1, h2, h3, h4⟩ := ctor_step (kind := kind) (e := e) hi ho hb (.refl (hi.added i) i)
      refine ⟨false, _, h1, h2, ?_, fun _ => .inl hg, nofun, fun _ ht => (ht.added ho).dropped (hi.added i) added_self⟩
      rw [h3, if_neg (by simp), putC_none ho]
      rfl
    | true =>
      obtain ⟨a1, a2, a3, a4⟩ := hm hg
      obtain ⟨r, w', b1, b2, b3, b4, b5⟩ := setImage_any (hi.added i) kind e added_self hg a1 a2 a3 a4
      obtain ⟨h1, h2, h3, h4⟩ := ctor_step (kind := kind) (e := e) hi ho b1 b2
      refine ⟨r, _, h1, h2, ?_, fun hr => .inr (Fails_bad (b4 hr)), fun _ => by simp [RefusesC, hg], fun hn ht => h4 (fun hr => ⟨b4 hr, hn⟩) ht⟩
      rw [h3]
      cases r
      · rw [if_neg (by simp), putC_none ho]
        rfl
      · rw [if_pos rfl, b5 rfl]
        rfl
  | newVector i v a b =>
    obtain ⟨hk, ho, hs⟩ := hl
    subst hk
    replace ho := viewC_none.mp ho
    obtain ⟨r1, w1, a1, a2, a3, a4⟩ := resize_any (hi.added i) e added_self hs
    cases r1 with
    | false =>
      have hb : Ends ((resize e i a b >>= fun _ => setVector .cpu e i v) (added w i)) false w1 := bind_throw a1
      obtain ⟨h1, h2, h3, h4⟩ := ctor_step (kind := .cpu) (e := e) hi ho hb a2
      have hf : Fails .cpu e w1 i := .inl (a3 rfl)
      refine ⟨false, _, h1, h2, ?_, fun _ => .inr (Fails_bad hf), nofun, fun _ ht => h4 (fun _ => ⟨hf, nofun⟩) ht⟩
      rw [h3, if_neg (by simp), putC_none ho]
      rfl
    | true =>
      have hob : ∃ o, w1.objs i = some o ∧ o.width * o.height = a * b ∧ (a * b ≠ 0 → o.width = a ∧ o.height = b) ∧ (a * b = 0 → o = ⟨0, 0, 0⟩) := by
        rcases a4 rfl with ⟨hz, rfl⟩ | ⟨_, ha, hb, d, _, ho1⟩
        · have : a * b = 0 := by
            rcases hz with hz | hz | hz
            · rw [← show 0 = a from hz.1, Nat.zero_mul]
            · rw [hz, Nat.zero_mul]
            · rw [hz, Nat.mul_zero]
          exact ⟨_, added_self, this.symm, fun h => absurd this h, fun _ => rfl⟩
        · exact ⟨_, ho1, rfl, fun _ => ⟨rfl, rfl⟩, fun h => absurd h (Nat.mul_ne_zero ha hb)⟩
      obtain ⟨o, ho1, hab, hne, hz⟩ := hob
      obtain ⟨r, w', b1, b2, b3, b4, b5⟩ := setVector_any a2.inv .cpu e ho1 v
      have hb : Ends ((resize e i a b >>= fun _ => setVector .cpu e i v) (added w i)) r w' := by
        rw [bind_ok a1]
        exact b1
      obtain ⟨h1, h2, h3, h4⟩ := ctor_step (kind := .cpu) (e := e) hi ho hb (a2.trans b2)
      refine ⟨r, _, h1, h2, ?_, fun hr => ?_, fun hr => ?_, fun hn ht => ?_⟩
      · rw [h3]
        cases r
        · rw [if_neg (by simp), putC_none ho]
          rfl
        · obtain ⟨c1, c2, c3⟩ := b5 rfl
          have h0 : a * b ≠ 0 := fun h0 => c1 (List.length_eq_zero_iff.mp (by omega))
          rw [if_pos rfl, c3, (hne h0).1, (hne h0).2]
          rfl
      · rcases (b4 hr).2 with h | h | h
        · exact .inl (.inl h)
        · exact .inl (.inr (by omega))
        · exact absurd h.1 (by simp)
      · intro hc
        obtain ⟨c1, c2, _⟩ := b5 hr
        rcases hc with hc | hc
        · exact c1 hc
        · omega
      · cases r with
        | true => exact h4 nofun ht
        | false =>
          have hn' : v.length = a * b := hn
          have hv : v = [] := by
            rcases (b4 rfl).2 with h | h | h
            · exact h
            · omega
            · exact absurd h.1 (by simp)
          have h0 : a * b = 0 := by rw [← hn', hv]; rfl
          obtain rfl := hz h0
          exact ((a2.trans b2).tight (ht.added ho)).dropped b2.inv b3
  | copyNew i j =>
    obtain ⟨ho, hj⟩ := hl
    replace ho := viewC_none.mp ho
    obtain ⟨p, hp⟩ := alive_of_view hj
    have hij : i ≠ j := fun hc => by rw [hc, hp] at ho; exact absurd ho (by simp)
    obtain ⟨r, w', b1, b2, b3, b4, b5⟩ := copyO_any (hi.added i) kind e added_self ((upd_other _ _ (Ne.symm hij)).trans hp) hij
    obtain ⟨h1, h2, h3, h4⟩ := ctor_step (kind := kind) (e := e) hi ho b1 b2
    refine ⟨r, _, h1, h2, ?_, fun hr => .inr (Fails_bad (b4 hr)), fun _ h => h, fun hn ht => h4 (fun hr => ⟨b4 hr, hn⟩) ht⟩
    rw [h3]
    cases r
    · rw [if_neg (by simp), putC_none ho]
      rfl
    · rw [if_pos rfl, b5 rfl, view_added hi, if_neg (Ne.symm hij)]
      rfl
  | moveNew i j =>
    obtain ⟨ho, hj⟩ := hl
    replace ho := viewC_none.mp ho
    obtain ⟨p, hp⟩ := alive_of_view hj
    have hij : i ≠ j := fun hc => by rw [hc, hp] at ho; exact absurd ho (by simp)
    have hp' : (added w i).objs j = some p := (upd_other _ _ (Ne.symm hij)).trans hp
    refine ⟨true, swapped (added w i) i j ⟨0, 0, 0⟩ p, ?_, (hi.added i).swapped added_self hp', ?_, nofun, fun _ h => h, fun _ ht => (ht.added ho).swapped added_self hp'⟩
    · exact ctor_any (r := true) ho (swapO_ok added_self hp')
    · funext k
      show _ = putC (putC (view w) i (view w j)) j (some (0, 0, [])) k
      rw [view_swapped added_self hp', view_added hi]
      unfold swapIx putC
      by_cases h1 : k = j
      · simp [h1]
      · by_cases h2 : k = i
        · simp [h1, h2, hij, Ne.symm hij]
        · simp [h1, h2]
  | copy i j =>
    obtain ⟨hoi, hoj⟩ := hl
    obtain ⟨o, ho⟩ := alive_of_view hoi
    obtain ⟨p, hp⟩ := alive_of_view hoj
    by_cases hij : i = j
    · subst hij
      have hk := keeps_cleaned hi ho
      refine ⟨true, _, copyO_self hi kind e ho, hk.inv, ?_, nofun, fun _ h => h, fun _ => hk.tight⟩
      show _ = putC _ _ _
      rw [put_eq hi hk, if_pos rfl, view_null hk.inv cleaned_objs]
    · obtain ⟨r, w', b1, b2, ⟨o', b3⟩, b4, b5⟩ := copyO_any hi kind e ho hp hij
      refine ⟨r, w', b1, b2.inv, ?_, fun hr => .inr (Fails_bad (b4 hr)), fun _ h => h, fun _ => b2.tight⟩
      cases r
      · exact any_of hi b2 b3
      · show _ = putC _ _ _
        rw [put_eq hi b2, if_neg hij, b5 rfl]
  | move i j =>
    obtain ⟨hoi, hoj⟩ := hl
    obtain ⟨o, ho⟩ := alive_of_view hoi
    obtain ⟨p, hp⟩ := alive_of_view hoj
    refine ⟨true, swapped w i j o p, swapO_ok ho hp, hi.swapped ho hp, ?_, nofun, fun _ h => h, fun _ ht => ht.swapped ho hp⟩
    funext k
    show _ = putC (putC (view w) i (view w j)) j (view w i) k
    rw [view_swapped ho hp]
    unfold swapIx putC
    by_cases h1 : k = j
    · simp [h1]
    · by_cases h2 : k = i
      · subst h2
        simp [h1]
      · simp [h1, h2]
  | resize i a b =>
    obtain ⟨hoi, hs⟩ := hl
    obtain ⟨o, ho⟩ := alive_of_view hoi
    obtain ⟨l0, hv0, _⟩ := view_len hi ho
    obtain ⟨r, w', a1, a2, a3, a4⟩ := resize_any hi e ho hs
    refine ⟨r, w', a1, a2.inv, ?_, fun hr => .inr (Fails_bad (kind := kind) (.inl (a3 hr))), fun _ h => h, fun _ => a2.tight⟩
    cases r
    · show _ = putC _ _ _
      rw [put_eq hi a2, view_null a2.inv (a3 rfl).2]
    · refine ⟨_, hv0, ?_⟩
      rcases a4 rfl with ⟨h1, rfl⟩ | ⟨h1, h2, h3, d, _, h4⟩
      · rw [if_pos h1]
      · obtain ⟨l, k1, k2, _⟩ := view_len a2.inv h4
        rw [if_neg (by dsimp only; omega)]
        exact ⟨l, k2, by rw [put_eq hi a2, k1]⟩
  | setImage i m =>
    obtain ⟨hoi, hm⟩ := hl
    obtain ⟨o, ho⟩ := alive_of_view hoi
    cases hg : m.gray with
    | false =>
      refine ⟨false, w, ?_, hi, ?_, fun _ => .inl hg, nofun, fun _ h => h⟩
      · show Ends (setImage kind e i m w) false w
        rw [Ends, setImage, hg]
        exact bind_throw rfl
      · rw [AfterC, hg]
        rfl
    | true =>
      obtain ⟨a1, a2, a3, a4⟩ := hm hg
      obtain ⟨r, w', b1, b2, ⟨o', b3⟩, b4, b5⟩ := setImage_any hi kind e ho hg a1 a2 a3 a4
      refine ⟨r, w', b1, b2.inv, ?_, fun hr => .inr (Fails_bad (b4 hr)), fun _ => by simp [RefusesC, hg], fun _ => b2.tight⟩
      cases r
      · rw [AfterC, hg]
        exact any_of hi b2 b3
      · show _ = putC _ _ _
        rw [put_eq hi b2, b5 rfl]
  | setVector i v =>
    obtain ⟨o, ho⟩ := alive_of_view hl
    obtain ⟨l0, hv0, _⟩ := view_len hi ho
    obtain ⟨r, w', b1, b2, b3, b4, b5⟩ := setVector_any hi kind e ho v
    refine ⟨r, w', b1, b2.inv, ?_, fun hr => ?_, fun hr hc => ?_, fun _ => b2.tight⟩
    · cases r
      · rw [(b4 rfl).1]
        rfl
      · refine ⟨_, hv0, ?_⟩
        rw [put_eq hi b2, (b5 rfl).2.2]
    · rcases (b4 hr).2 with h | h | h
      · exact .inl (.inl h)
      · exact .inl (.inr ⟨_, hv0, h⟩)
      · exact .inr (Fails_bad (w := w) (i := i) (.inr h))
    · obtain ⟨c1, c2, _⟩ := b5 hr
      rcases hc with hc | ⟨c, hc, hc'⟩
      · exact c1 hc
      · rw [hv0] at hc
        injection hc with hc
        subst hc
        exact hc' c2
  | write i k x =>
    obtain ⟨c, hc, hk⟩ := hl
    obtain ⟨o, ho⟩ := alive_of_view (by rw [hc]; simp)
    obtain ⟨l0, hv0, _, hz, _⟩ := view_len hi ho
    rw [hv0] at hc
    injection hc with hc
    subst hc
    have hd : o.data ≠ 0 := fun h => by rw [show (o.width, o.height, l0).1 = o.width from rfl, hz.mp h, Nat.zero_mul] at hk; omega
    obtain ⟨l, h1, h2, h3⟩ := write_ok hi ho hd hk x
    have hk2 := keeps_filled hi ho hd (l := l.set k x) (by rw [List.length_set, h2])
    refine ⟨true, _, h3, hk2.inv, ⟨_, hv0, ?_⟩, nofun, fun _ h => h, fun _ => hk2.tight⟩
    have : l0 = l := by
      rw [view_of ho h1] at hv0
      injection hv0 with hv0
      injection hv0 with _ hv0
      injection hv0 with _ hv0
      exact hv0.symm
    rw [put_eq hi hk2, view_of (w := filled w o.data (l.set k x)) ho (upd_same _ _ _), this]
  | destroy i =>
    obtain ⟨o, ho⟩ := alive_of_view hl
    have hk := keeps_cleaned hi ho
    refine ⟨true, _, destroy_ok hi kind e ho, hk.inv.dropped i, ?_, nofun, fun _ h => h, fun _ ht => (hk.tight ht).dropped hk.inv cleaned_objs⟩
    funext m
    show _ = putC _ _ _ m
    rw [view_dropped]
    unfold putC
    split
    · rfl
    · rename_i hm
      exact hk.view hi hm

theorem ends_inj {r : Res (World α) Unit} {b b' : Bool} {s s' : World α} (h : Ends r b s) (h' : Ends r b' s') : b = b' ∧ s = s' := by
  unfold Ends at h h'
  rw [h] at h'
  cases b <;> cases b' <;> cases h' <;> exact ⟨rfl, rfl⟩

theorem ReachC.inv {P : Env α → Op α → Prop} {kind : Kind} {w : World α} (h : ReachC P kind w) : CplxData.Inv w := by
  induction h with
  | start => exact noCplx_inv
  | next hr hp hl hs ih =>
    rw [shown_fun ih] at hl
    obtain ⟨r, w', h1⟩ := step_c ih kind _ _ hl
    obtain ⟨_, rfl⟩ := ends_inj hs h1.run
    exact h1.inv

/-- **C143** (partial) Objects with complex data for Fourier transforms, on the host and on CUDA devices: whatever was done before and
whatever allocations and calls of the device fail, an operation returns or throws, and all objects contain afterwards what `AfterC`
says; in particular other objects are unchanged, copies are equal and independent, and an exception is thrown only if something fails or the
image or vector is not suitable.
Missing: copying an object to itself keeps it (false, `C143_self_copy_wrong`); 2^32 values and more (`C143_large_wrong`). -/
theorem C143_objects_partial {P : Env α → Op α → Prop} {kind : Kind} {w : World α} (h : ReachC P kind w) (e : Env α) (op : Op α) (hp : P e op) (hl : LegalC kind (shown w) op) :
    ∃ r w', step kind e op w = (if r then .ok () w' else .throw w') ∧ ReachC P kind w' ∧ AfterC (shown w) (shown w') op r
      ∧ (r = false → RefusesC (shown w) op ∨ ¬ GoodC kind e) ∧ (r = true → ¬ RefusesC (shown w) op) := by
  have hl' := hl
  rw [shown_fun h.inv] at hl
  obtain ⟨r, w', h1⟩ := step_c h.inv kind e op hl
  refine ⟨r, w', h1.run, h.next hp hl' h1.run, ?_⟩
  rw [shown_fun h.inv, shown_fun h1.inv]
  exact ⟨h1.after, h1.bad, h1.good⟩

/-- Every object has as many values as width times height, and it is empty exactly if width and height are 0. -/
theorem C143_contents {P : Env α → Op α → Prop} {kind : Kind} {w : World α} (h : ReachC P kind w) {i : Nat} (hi : w.objs i ≠ none) :
    ∃ a b l, shown w i = some (a, b, l) ∧ l.length = a * b ∧ ((a = 0 ∧ b = 0 ∧ valC (empty i w) = some true) ∨ (a ≠ 0 ∧ b ≠ 0 ∧ valC (empty i w) = some false)) := by
  obtain ⟨o, ho⟩ := alive_of_view (fun hc => hi (viewC_none.mp hc))
  obtain ⟨l, h1, h2, h3, h4⟩ := view_len h.inv ho
  refine ⟨_, _, l, by rw [shown_eq h.inv, h1], h2, ?_⟩
  have he : valC (empty i w) = some (o.data == 0) := by rw [empty, bind_ok (obj_ok ho)]; rfl
  rw [he]
  by_cases hd : o.data = 0
  · exact .inl ⟨h3.mp hd, h4.mp hd, by rw [hd]; rfl⟩
  · exact .inr ⟨fun h => hd (h3.mpr h), fun h => hd (h4.mpr h), by simpa using hd⟩

/-- Memory is released with the last object, if no constructor failed after it had allocated memory. Missing: those constructors; they leak
(`C143_leak_wrong`, `C143_copy_leak_wrong`). -/
theorem C143_no_leak_partial {kind : Kind} {w : World α} (h : ReachC (NoLeak kind) kind w) (hn : ∀ i, shown w i = none) : ∀ b, w.heap b = none := by
  have ht : Tight w := by
    clear hn
    induction h with
    | start => exact fun b hb => absurd rfl hb
    | next hr hp hl hs ih =>
      rw [shown_fun hr.inv] at hl
      obtain ⟨r, w', h1⟩ := step_c hr.inv kind _ _ hl
      obtain ⟨_, rfl⟩ := ends_inj hs h1.run
      exact h1.tight hp ih
  intro b
  cases hb : w.heap b with
  | none => rfl
  | some l =>
    obtain ⟨i, o, ho, _⟩ := ht b (by rw [hb]; simp)
    have := hn i
    rw [shown_eq h.inv, viewC_none, ho] at this
    exact absurd this (by simp)

/-- Copying an object to itself empties it, always. -/
theorem C143_self_copy_exact {P : Env α → Op α → Prop} {kind : Kind} {w : World α} (h : ReachC P kind w) (e : Env α) {i : Nat} (hi : w.objs i ≠ none) :
    ∃ w', step kind e (.copy i i) w = .ok () w' ∧ shown w' = putC (shown w) i (some (0, 0, [])) := by
  obtain ⟨o, ho⟩ := alive_of_view (fun hc => hi (viewC_none.mp hc))
  have hk := keeps_cleaned h.inv ho
  refine ⟨_, copyO_self h.inv kind e ho, ?_⟩
  rw [shown_fun hk.inv, shown_fun h.inv, put_eq h.inv hk, view_null hk.inv cleaned_objs]

/-! ### Examples and witnesses -/

def goodC : Env Nat := ⟨true, true, fun _ => 99⟩

/-- A program; exceptions are caught. The state and what returned. -/
def runC (kind : Kind) : List (Env Nat × Op Nat) → World Nat → Option (World Nat × List Bool)
  | [], w => some (w, [])
  | (e, op) :: l, w =>
    match step kind e op w with
    | .ok _ w' => (runC kind l w').map fun r => (r.1, true :: r.2)
    | .throw w' => (runC kind l w').map fun r => (r.1, false :: r.2)
    | .ub => none

/-- Two objects; the copy keeps its values when the first one changes; a vector of another size is refused; a copy fails for want of memory. -/
example : (runC .cpu [(goodC, .newVector 0 [1, 2] 2 1), (goodC, .copyNew 1 0), (goodC, .write 0 1 7), (goodC, .setVector 1 [5]), (goodC, .resize 0 2 1), (goodC, .new 2), (goodC, .move 2 0),
    ({ goodC with room := false }, .copy 0 1)] noCplx).map (fun r => (r.2, shown r.1 0, shown r.1 1, shown r.1 2))
    = some ([true, true, true, false, true, true, true, false], some (0, 0, []), some (2, 1, [1, 2]), some (2, 1, [1, 7])) := rfl

example : LegalC .cpu (shown (noCplx : World Nat)) (.newVector 0 [1, 2] 2 1) ∧ LegalC .cuda (shown (noCplx : World Nat)) (.newImage 3 ⟨true, 2, 1, [4, 5]⟩) :=
  ⟨⟨rfl, rfl, by decide⟩, rfl, fun _ => by decide⟩

/-- **C143 is wrong for copies of an object to itself**: the data are lost. -/
theorem C143_self_copy_wrong : (runC .cpu [(goodC, .newVector 0 [1, 2] 2 1), (goodC, .copy 0 0)] noCplx).map (fun r => (r.2, shown r.1 0)) = some ([true, true], some (0, 0, [])) := rfl

/-- **Memory leaks** if the vector given to the constructor has another size: there is no object, but one block. -/
theorem C143_leak_wrong : (runC .cpu [(goodC, .newVector 0 [1, 2, 3] 2 1)] noCplx).map (fun r => (r.2, shown r.1 0, r.1.heap 1)) = some ([false], none, some [99, 99]) := rfl

/-- The copy constructor for CUDA leaks if the copy fails. -/
theorem C143_copy_leak_wrong : (runC .cuda [(goodC, .newImage 0 ⟨true, 2, 1, [4, 5]⟩), ({ goodC with copies := false }, .copyNew 1 0), (goodC, .destroy 0)] noCplx).map
    (fun r => (r.2, shown r.1 0, shown r.1 1, r.1.heap 2)) = some ([true, false, true], none, none, some [99, 99]) := rfl

/-- **C143 is wrong for 2^32 values**: 65536 rows of 65536 values get no memory at all, the object is not empty, reading is undefined, and
copying on the host is undefined. -/
theorem C143_large_wrong : (runC .cpu [(goodC, .new 0), (goodC, .resize 0 65536 65536)] noCplx).map
    (fun r => (valC (width 0 r.1), valC (height 0 r.1), valC (empty 0 r.1), r.1.heap 1, valC (read 0 0 r.1), (runC .cpu [(goodC, .copyNew 1 0)] r.1).isNone))
    = some (some 65536, some 65536, some false, some [], none, true) := rfl

end PV.Props
