import Verif.PropsFilterLaws
import Verif.PropsNormalize
/-
  C185: Normalize called twice and together with functions which move pixels.
-/
namespace PV.NormLaws
open PV PV.Props PV.Laws PV.Steps

/-- The smallest and the largest value of a rectangle -/
structure Range (m : BMem) (v : View) (w h : Nat) (mn mx : UInt8) : Prop where
  all : ∀ p, In v w h p → mn ≤ at3 v m p ∧ at3 v m p ≤ mx
  small : ∃ p, In v w h p ∧ at3 v m p = mn
  large : ∃ p, In v w h p ∧ at3 v m p = mx

theorem Range.le {m : BMem} {v : View} {w h : Nat} {mn mx : UInt8} (r : Range m v w h mn mx) : mn ≤ mx := by
  obtain ⟨p, hp, _⟩ := r.small
  exact UInt8.le_trans (r.all p hp).1 (r.all p hp).2

/-- The same values at other places have the same range. -/
theorem Range.moved {m m' : BMem} {v v' : View} {w h w' h' : Nat} {mn mx mn' mx' : UInt8} (r : Range m v w h mn mx) (r' : Range m' v' w' h' mn' mx')
    (h1 : ∀ p, In v w h p → ∃ p', In v' w' h' p' ∧ at3 v' m' p' = at3 v m p) (h2 : ∀ p', In v' w' h' p' → ∃ p, In v w h p ∧ at3 v m p = at3 v' m' p') :
    mn' = mn ∧ mx' = mx := by
  obtain ⟨p, hp, ep⟩ := r.small
  obtain ⟨q, hq, eq⟩ := r.large
  obtain ⟨p', hp', ep'⟩ := r'.small
  obtain ⟨q', hq', eq'⟩ := r'.large
  obtain ⟨s, hs, es⟩ := h1 p hp
  obtain ⟨t, ht, et⟩ := h1 q hq
  obtain ⟨s', hs', es'⟩ := h2 p' hp'
  obtain ⟨t', ht', et'⟩ := h2 q' hq'
  have a1 := (r'.all s hs).1
  have a2 := (r'.all t ht).2
  have a3 := (r.all s' hs').1
  have a4 := (r.all t' ht').2
  rw [es, ep] at a1
  rw [et, eq] at a2
  rw [es', ep'] at a3
  rw [et', eq'] at a4
  exact ⟨UInt8.le_antisymm a1 a3, UInt8.le_antisymm a4 a2⟩

theorem mapM_more {α β : Type} {f g : α → Option β} (hfg : ∀ a b, f a = some b → g a = some b) : ∀ {L : List α} {t : List β},
    L.mapM f = some t → L.mapM g = some t
  | [], t, h => by simpa using h
  | a :: L, t, h => by
    rw [List.mapM_cons] at h ⊢
    cases ha : f a with
    | none => rw [ha] at h; exact absurd h (by simp)
    | some b =>
      rw [ha] at h
      rw [hfg a b ha]
      cases hl : L.mapM f with
      | none => rw [hl] at h; exact absurd h (by simp)
      | some s =>
        rw [hl] at h
        rw [mapM_more hfg hl]
        exact h

theorem table_more {rnd : ℚ → ℚ} {oob : ℚ → Option UInt8} {mn mx : UInt8} {t : List UInt8} (h : normalTable rnd oob mn mx = some t) :
    normalTable rnd (fun q => some ((oob q).getD 0)) mn mx = some t := by
  refine mapM_more (fun i b hb => ?_) h
  unfold castU8 at *
  split
  · rename_i hc
    rw [if_pos hc] at hb
    exact hb
  · rename_i hc
    rw [if_neg hc] at hb
    show some ((oob _).getD 0) = some b
    rw [hb]
    rfl

theorem normalize_eq {rnd : ℚ → ℚ} {oob : ℚ → Option UInt8} {m : BMem} {w h cc : Nat} {a p : View} (oa : Own m w h cc a) (op : Own m w h cc p) :
    ∃ mn mx, Range m a w h mn mx ∧ Normalize rnd oob a p w h m = normalizeWith rnd oob a p w h (mn, mx) m := by
  obtain ⟨mn, mx, e, hall, ⟨x1, y1, c1, a1, a2, a3, a4⟩, ⟨x2, y2, c2, b1, b2, b3, b4⟩⟩ := minMax_run oa.wf oa.fit
  refine ⟨mn, mx, ⟨fun p hp => hall _ _ _ hp.1 hp.2.1 hp.2.2, ⟨(x1, y1, c1), ⟨a1, a2, a3⟩, a4⟩, ⟨(x2, y2, c2), ⟨b1, b2, b3⟩, b4⟩⟩, ?_⟩
  rw [Normalize, bind_ok (validate_pre_ok (vs := [a, p]) (by simp; exact ⟨⟨oa.wf, oa.fit⟩, op.wf, op.fit⟩)),
    bind_ok (common_ok (by simp [oa.colors, op.colors])), bind_ok e]

/-- A call which is defined applies a function of the values which the range determines. -/
theorem with_ok {rnd : ℚ → ℚ} (r : Rounding rnd) {oob : ℚ → Option UInt8} {m m1 : BMem} {w h : Nat} {a p : View} {mn mx : UInt8} (hle : mn ≤ mx)
    (e : normalizeWith rnd oob a p w h (mn, mx) m = .ok () m1) :
    ∃ f, Stretches f mn mx ∧ ∀ {m : BMem} {w h cc : Nat} {a p : View}, Own m w h cc a → Own m w h cc p → a.img.data ≠ p.img.data →
      ∃ m', normalizeWith rnd oob a p w h (mn, mx) m = .ok () m' ∧ WritesRoi m m' p w h fun x y c => f (a.get m x y c) := by
  unfold normalizeWith at *
  by_cases hc : (mn = 0 ∧ mx = 255) ∨ mn = mx
  · refine ⟨id, stretches_id hc, fun {m w h cc a p} oa op ap => ?_⟩
    rw [if_pos hc]
    exact C16_copy oa.wf op.wf oa.fit op.fit (by rw [op.colors, oa.colors]) (apart_of_ne _ _ _ _ ap)
  · have hlt : mn < mx := by
      rcases Nat.lt_or_eq_of_le (UInt8.le_iff_toNat_le.mp hle) with h | h
      · exact UInt8.lt_iff_toNat_lt.mpr h
      · exact absurd (Or.inr (UInt8.toNat_inj.mp h)) hc
    rw [if_neg hc] at e
    cases ht : normalTable rnd oob mn mx with
    | none => simp only [ht] at e; exact absurd e (by simp [ubE])
    | some t =>
      obtain ⟨t', h1, h2, h3⟩ := stretches_table r (oob := fun q => some ((oob q).getD 0)) (fun _ => rfl) hlt
      obtain rfl : t = t' := Option.some.inj ((table_more ht).symm.trans h1)
      refine ⟨_, h3, fun {m w h cc a p} oa op ap => ?_⟩
      rw [if_neg hc]
      exact C15_lookupTable t h2 (oa.ready1 op ap)

end PV.NormLaws

namespace PV.Props
open PV PV.Laws PV.Steps PV.NormLaws

/-- **C185.** Normalize of the result of Normalize changes nothing: whenever the first call is defined, the
    second one is defined too, whatever the conversion of values out of range does, and gives an image
    equal to the first result. -/
theorem C185_twice {rnd : ℚ → ℚ} (r : Rounding rnd) {oob : ℚ → Option UInt8} {m m1 : BMem} {w h cc : Nat} {a p q : View} (oa : Own m w h cc a)
    (op : Own m w h cc p) (oq : Own m w h cc q) (ap : a.img.data ≠ p.img.data) (pq : p.img.data ≠ q.img.data)
    (e : Normalize rnd oob a p w h m = .ok () m1) (oob' : ℚ → Option UInt8) :
    ∃ m2, Normalize rnd oob' p q w h m1 = .ok () m2 ∧ IsEqual p q w h m2 = .ok true m2 := by
  obtain ⟨mn, mx, R, e0⟩ := normalize_eq (rnd := rnd) (oob := oob) oa op
  rw [e0] at e
  obtain ⟨f, s, run⟩ := with_ok r R.le e
  obtain ⟨m1', e1, w1⟩ := run oa op ap
  obtain rfl : m1 = m1' := by
    have := e.symm.trans e1
    simpa using this
  obtain ⟨mn', mx', R', e2⟩ := normalize_eq (rnd := rnd) (oob := oob') (op.after w1) (oq.after w1)
  have hv : ∀ t, In a w h t → at3 p m1 t = f (at3 a m t) := fun t ht =>
    w1.inside t.1 t.2.1 t.2.2 ht.1 ht.2.1 (by rw [op.colors, ← oa.colors]; exact ht.2.2)
  have hin : ∀ t, In a w h t ↔ In p w h t := fun t => by unfold In; rw [oa.colors, op.colors]
  have hc : (mn' = 0 ∧ mx' = 255) ∨ mn' = mx' := by
    obtain ⟨t1, i1, v1⟩ := R.small
    obtain ⟨t2, i2, v2⟩ := R.large
    rcases Nat.lt_or_eq_of_le (UInt8.le_iff_toNat_le.mp R.le) with hlt | heq
    · have hlt := UInt8.lt_iff_toNat_lt.mpr hlt
      left
      have a1 := (R'.all t1 ((hin _).1 i1)).1
      have a2 := (R'.all t2 ((hin _).1 i2)).2
      rw [hv t1 i1, v1, s.low hlt] at a1
      rw [hv t2 i2, v2, s.high hlt] at a2
      exact ⟨UInt8.le_antisymm a1 (UInt8.le_iff_toNat_le.mpr (Nat.zero_le _)),
        UInt8.le_antisymm (UInt8.le_iff_toNat_le.mpr (Nat.le_of_lt_succ (UInt8.toNat_lt _))) a2⟩
    · right
      have heq := UInt8.toNat_inj.mp heq
      obtain ⟨t1, i1, v1⟩ := R'.small
      obtain ⟨t2, i2, v2⟩ := R'.large
      have b1 := R.all t1 ((hin _).2 i1)
      have b2 := R.all t2 ((hin _).2 i2)
      have c1 := UInt8.le_antisymm (UInt8.le_trans b1.2 (heq ▸ UInt8.le_refl _)) b1.1
      have c2 := UInt8.le_antisymm (UInt8.le_trans b2.2 (heq ▸ UInt8.le_refl _)) b2.1
      rw [← v1, ← v2, hv t1 ((hin _).2 i1), hv t2 ((hin _).2 i2), c1, c2]
  obtain ⟨m2, e3, w3⟩ := C16_copy (op.after w1).wf (oq.after w1).wf op.fit oq.fit (by rw [oq.colors, op.colors]) (apart_of_ne _ _ _ _ pq)
  refine ⟨m2, ?_, equal_of ((op.after w1).after w3) ((oq.after w1).after w3) fun x y c hx hy hcc => ?_⟩
  · rw [e2, normalizeWith, if_pos hc]
    exact e3
  · rw [keeps w3 pq, w3.inside x y c hx hy (by rw [oq.colors]; exact hcc)]

/-- **C185.** Normalize and Flip can be exchanged: the flipped result of Normalize is the result of Normalize
    of the flipped image. -/
theorem C185_flip {rnd : ℚ → ℚ} (r : Rounding rnd) {oob : ℚ → Option UInt8} {m m1 : BMem} {w h : Nat} {a p q s t : View}
    (oa : Own m w h 1 a) (op : Own m w h 1 p) (oq : Own m w h 1 q) (os : Own m w h 1 s) (ot : Own m w h 1 t)
    (hd : [a.img.data, p.img.data, q.img.data, s.img.data, t.img.data].Nodup) (e : Normalize rnd oob a p w h m = .ok () m1) (hor ver : Bool) :
    ∃ m2 m3 m4, Flip p q w h hor ver m1 = .ok () m2 ∧ Flip a s w h hor ver m2 = .ok () m3 ∧ Normalize rnd oob s t w h m3 = .ok () m4 ∧
      IsEqual q t w h m4 = .ok true m4 := by
  simp only [List.nodup_cons, List.mem_cons, List.not_mem_nil, not_or, or_false, not_false_eq_true, List.nodup_nil, and_true] at hd
  obtain ⟨⟨ap, aq, as, at'⟩, ⟨pq, ps, pt⟩, ⟨qs, qt⟩, st⟩ := hd
  obtain ⟨mn, mx, R, e0⟩ := normalize_eq (rnd := rnd) (oob := oob) oa op
  rw [e0] at e
  obtain ⟨f, s', run⟩ := with_ok r R.le e
  obtain ⟨m1', e1, w1⟩ := run oa op ap
  obtain rfl : m1 = m1' := by
    have := e.symm.trans e1
    simpa using this
  have k1 := w1.size_eq
  obtain ⟨m2, e2, w2⟩ := C18_flip hor ver (Own.pair (Own.keep op k1) (Own.keep oq k1) pq) op.colors oq.colors
  have k2 := w2.size_eq.trans k1
  obtain ⟨m3, e3, w3⟩ := C18_flip hor ver (Own.pair (Own.keep oa k2) (Own.keep os k2) as) oa.colors os.colors
  have k3 := w3.size_eq.trans k2
  obtain ⟨mn', mx', R', e4⟩ := normalize_eq (rnd := rnd) (oob := oob) (Own.keep os k3) (Own.keep ot k3)
  have ha : ∀ x y c, a.get m2 x y c = a.get m x y c := fun x y c => by rw [keeps w2 aq, keeps w1 ap]
  have hs : ∀ x y c, x < w → y < h → c < 1 → s.get m3 x y c = a.get m (mirror hor w x) (mirror ver h y) c := fun x y c hx hy hc => by
    rw [w3.inside x y c hx hy (by rw [os.colors]; exact hc), ha]
  obtain ⟨rfl, rfl⟩ := R.moved R'
    (fun u hu => ⟨(mirror hor w u.1, mirror ver h u.2.1, u.2.2), ⟨mirror_lt hu.1, mirror_lt hu.2.1, by rw [os.colors, ← oa.colors]; exact hu.2.2⟩, by
      show s.get _ _ _ _ = _
      rw [hs _ _ _ (mirror_lt hu.1) (mirror_lt hu.2.1) (by rw [← oa.colors]; exact hu.2.2), mirror_mirror hu.1, mirror_mirror hu.2.1]⟩)
    (fun u hu => ⟨(mirror hor w u.1, mirror ver h u.2.1, u.2.2), ⟨mirror_lt hu.1, mirror_lt hu.2.1, by rw [oa.colors, ← os.colors]; exact hu.2.2⟩,
      (hs _ _ _ hu.1 hu.2.1 (by rw [← os.colors]; exact hu.2.2)).symm⟩)
  obtain ⟨m4, e5, w4⟩ := run (Own.keep os k3) (Own.keep ot k3) st
  have k4 := w4.size_eq.trans k3
  refine ⟨m2, m3, m4, e2, e3, e4.trans e5, equal_of (Own.keep oq k4) (Own.keep ot k4) fun x y c hx hy hc => ?_⟩
  rw [keeps w4 qt, keeps w3 qs, w2.inside x y c hx hy (by rw [oq.colors]; exact hc), w4.inside x y c hx hy (by rw [ot.colors]; exact hc),
    hs x y c hx hy hc, w1.inside _ _ c (mirror_lt hx) (mirror_lt hy) (by rw [op.colors]; exact hc)]

/-- **C185.** Normalize and Transpose can be exchanged. -/
theorem C185_transpose {rnd : ℚ → ℚ} (r : Rounding rnd) {oob : ℚ → Option UInt8} {m m1 : BMem} {w h : Nat} {a p q s t : View}
    (oa : Own m w h 1 a) (op : Own m w h 1 p) (oq : Own m h w 1 q) (os : Own m h w 1 s) (ot : Own m h w 1 t)
    (hd : [a.img.data, p.img.data, q.img.data, s.img.data, t.img.data].Nodup) (e : Normalize rnd oob a p w h m = .ok () m1) :
    ∃ m2 m3 m4, Transpose p q w h m1 = .ok () m2 ∧ Transpose a s w h m2 = .ok () m3 ∧ Normalize rnd oob s t h w m3 = .ok () m4 ∧
      IsEqual q t h w m4 = .ok true m4 := by
  simp only [List.nodup_cons, List.mem_cons, List.not_mem_nil, not_or, or_false, not_false_eq_true, List.nodup_nil, and_true] at hd
  obtain ⟨⟨ap, aq, as, at'⟩, ⟨pq, ps, pt⟩, ⟨qs, qt⟩, st⟩ := hd
  obtain ⟨mn, mx, R, e0⟩ := normalize_eq (rnd := rnd) (oob := oob) oa op
  rw [e0] at e
  obtain ⟨f, s', run⟩ := with_ok r R.le e
  obtain ⟨m1', e1, w1⟩ := run oa op ap
  obtain rfl : m1 = m1' := by
    have := e.symm.trans e1
    simpa using this
  have k1 := w1.size_eq
  obtain ⟨m2, e2, w2⟩ := C19_transpose (Own.pair (Own.keep op k1) (Own.keep oq k1) pq) op.colors oq.colors
  have k2 := w2.size_eq.trans k1
  obtain ⟨m3, e3, w3⟩ := C19_transpose (Own.pair (Own.keep oa k2) (Own.keep os k2) as) oa.colors os.colors
  have k3 := w3.size_eq.trans k2
  obtain ⟨mn', mx', R', e4⟩ := normalize_eq (rnd := rnd) (oob := oob) (Own.keep os k3) (Own.keep ot k3)
  have ha : ∀ x y c, a.get m2 x y c = a.get m x y c := fun x y c => by rw [keeps w2 aq, keeps w1 ap]
  have hs : ∀ x y c, x < h → y < w → c < 1 → s.get m3 x y c = a.get m y x c := fun x y c hx hy hc => by
    rw [w3.inside x y c hx hy (by rw [os.colors]; exact hc), ha]
  obtain ⟨rfl, rfl⟩ := R.moved R'
    (fun u hu => ⟨(u.2.1, u.1, u.2.2), ⟨hu.2.1, hu.1, by rw [os.colors, ← oa.colors]; exact hu.2.2⟩,
      hs _ _ _ hu.2.1 hu.1 (by rw [← oa.colors]; exact hu.2.2)⟩)
    (fun u hu => ⟨(u.2.1, u.1, u.2.2), ⟨hu.2.1, hu.1, by rw [oa.colors, ← os.colors]; exact hu.2.2⟩,
      (hs _ _ _ hu.1 hu.2.1 (by rw [← os.colors]; exact hu.2.2)).symm⟩)
  obtain ⟨m4, e5, w4⟩ := run (Own.keep os k3) (Own.keep ot k3) st
  have k4 := w4.size_eq.trans k3
  refine ⟨m2, m3, m4, e2, e3, e4.trans e5, equal_of (Own.keep oq k4) (Own.keep ot k4) fun x y c hx hy hc => ?_⟩
  rw [keeps w4 qt, keeps w3 qs, w2.inside x y c hx hy (by rw [oq.colors]; exact hc), w4.inside x y c hx hy (by rw [ot.colors]; exact hc),
    hs x y c hx hy hc, w1.inside _ _ c hy hx (by rw [op.colors]; exact hc)]

/-! ### Concrete cases -/

/-- Normalize of the first image is defined if the conversion gives 0 for values out of range. -/
theorem five_normalize : ∃ m1, Normalize double (fun _ => some 0) (fiveView 1) (fiveView 2) 5 5 fiveMem = .ok () m1 :=
  let ⟨m1, e, _⟩ := C34_normalize_partial Rounding.double (fun _ => rfl)
    ⟨(five_own 1 (by decide)).ready1 (five_own 2 (by decide)) (by decide), apart_of_ne 5 5 5 5 (by decide)⟩
  ⟨m1, e⟩

example : ∃ m1 m2, Normalize double (fun _ => some 0) (fiveView 1) (fiveView 2) 5 5 fiveMem = .ok () m1 ∧
    Normalize double (fun _ => none) (fiveView 2) (fiveView 3) 5 5 m1 = .ok () m2 ∧ IsEqual (fiveView 2) (fiveView 3) 5 5 m2 = .ok true m2 :=
  let ⟨m1, e⟩ := five_normalize
  let ⟨m2, e2, h⟩ := C185_twice Rounding.double (five_own 1 (by decide)) (five_own 2 (by decide)) (five_own 3 (by decide)) (by decide) (by decide) e
    (fun _ => none)
  ⟨m1, m2, e, e2, h⟩
example {m1 : BMem} (e : Normalize double (fun _ => some 0) (fiveView 1) (fiveView 2) 5 5 fiveMem = .ok () m1) :=
  C185_flip Rounding.double (five_own 1 (by decide)) (five_own 2 (by decide)) (five_own 3 (by decide)) (five_own 4 (by decide))
    (five_own 5 (by decide)) (by decide) e true false
example {m1 : BMem} (e : Normalize double (fun _ => some 0) (fiveView 1) (fiveView 2) 5 5 fiveMem = .ok () m1) :=
  C185_transpose Rounding.double (five_own 1 (by decide)) (five_own 2 (by decide)) (five_own 3 (by decide)) (five_own 4 (by decide))
    (five_own 5 (by decide)) (by decide) e

end PV.Props
