import Mathlib.Data.List.Induction
import Mathlib.Data.List.Perm.Subperm
import Verif.BlobParams
import Verif.GridRim
import Verif.PropsBlobFilter
/-
  C165: limits that are set and reset.  C166: solid blobs.
-/
namespace PV.Props

open PV PV.Blob

/-! ### C165 -/

/-- The minimum that a call gives. -/
def Change.lower {D : Type} : Change D → Option D
  | .set min _ => some min
  | .setMinimum min => some min
  | _ => none

/-- The maximum that a call gives. -/
def Change.upper {D : Type} : Change D → Option D
  | .set _ max => some max
  | .setMaximum max => some max
  | _ => none

/-- The value in force after calls: that of the last call which gives one, unless there was a reset later. -/
def InForce {D : Type} (value : Change D → Option D) (calls : List (Change D)) (a : D) : Prop :=
  ∃ before c after, calls = before ++ c :: after ∧ value c = some a ∧ ∀ e ∈ after, value e = none ∧ e ≠ .reset

theorem inForce_snoc {D : Type} {value : Change D → Option D} (hr : value .reset = none) (calls : List (Change D)) (c : Change D) (a : D) :
    InForce value (calls ++ [c]) a ↔ value c = some a ∨ (value c = none ∧ c ≠ .reset ∧ InForce value calls a) := by
  constructor
  · rintro ⟨before, d, after, e, h1, h2⟩
    rcases List.eq_nil_or_concat after with rfl | ⟨l, x, rfl⟩
    · rw [List.append_inj_right' e rfl |> List.cons.inj |>.1] at *
      exact Or.inl h1
    · rw [List.concat_eq_append, ← List.cons_append, ← List.append_assoc] at e
      obtain ⟨e1, e2⟩ := List.append_inj' e rfl
      obtain rfl := (List.cons.inj e2).1
      rw [List.concat_eq_append] at h2
      have hx := h2 c (by simp)
      exact Or.inr ⟨hx.1, hx.2, before, d, l, e1, h1, fun e he => h2 e (by simp [he])⟩
  · rintro (h | ⟨h1, h2, before, d, after, e, h3, h4⟩)
    · exact ⟨calls, c, [], rfl, h, by simp⟩
    · refine ⟨before, d, after ++ [c], by rw [e]; simp, h3, fun e he => ?_⟩
      rcases List.mem_append.mp he with h | h
      · exact h4 e h
      · obtain rfl := List.mem_singleton.mp h
        exact ⟨h1, h2⟩

theorem inForce_nil {D : Type} {value : Change D → Option D} (a : D) : ¬ InForce value [] a := by
  rintro ⟨b, c, l, e, -⟩
  have := congrArg List.length e
  simp at this

/-- **C165**: after any history of calls a limit is checked exactly when the last call that concerns it gave one, and it is that one. -/
theorem C165_limits {D : Type} (zero : D) (calls : List (Change D)) (a : D) :
    ((changed zero calls).checkMinimum = true ∧ (changed zero calls).minimum = a ↔ InForce Change.lower calls a) ∧
      ((changed zero calls).checkMaximum = true ∧ (changed zero calls).maximum = a ↔ InForce Change.upper calls a) := by
  induction calls using List.reverseRecOn with
  | nil => exact ⟨by simp [changed, Setting.initial, inForce_nil], by simp [changed, Setting.initial, inForce_nil]⟩
  | append_singleton l c ih =>
    rw [inForce_snoc rfl, inForce_snoc rfl, ← ih.1, ← ih.2]
    have e : changed zero (l ++ [c]) = c.exec zero (changed zero l) := by simp [changed]
    rw [e]
    cases c <;> simp [Change.exec, Change.lower, Change.upper, Setting.set, Setting.setMinimum, Setting.setMaximum, Setting.reset,
      Setting.initial]

/-- **C165**: a search takes exactly the limits in force. -/
theorem C165_param {F : Type} (zero : F) (calls : List (Change Nat)) (fcalls : List (Change F)) :
    (∀ a, (changed 0 calls).param.minimum = some a ↔ InForce Change.lower calls a) ∧
      (∀ a, (changed 0 calls).param.maximum = some a ↔ InForce Change.upper calls a) ∧
      (∀ a, (changed zero fcalls).fparam.minimum = some a ↔ InForce Change.lower fcalls a) ∧
      (∀ a, (changed zero fcalls).fparam.maximum = some a ↔ InForce Change.upper fcalls a) := by
  refine ⟨fun a => ?_, fun a => ?_, fun a => ?_, fun a => ?_⟩
  · rw [← (C165_limits 0 calls a).1, Setting.param]
    simp
  · rw [← (C165_limits 0 calls a).2, Setting.param]
    simp
  · rw [← (C165_limits zero fcalls a).1, Setting.fparam]
    simp
  · rw [← (C165_limits zero fcalls a).2, Setting.fparam]
    simp

/-- **C165**: `verify` throws exactly when both limits are in force and the minimum is above the maximum. -/
theorem C165_verify {D : Type} (zero : D) (gt : D → D → Bool) (calls : List (Change D)) (m : BMem) :
    ((changed zero calls).verify gt m = .throw m ↔
      ∃ a b, InForce Change.lower calls a ∧ InForce Change.upper calls b ∧ gt a b = true) ∧
    ((changed zero calls).verify gt m = .ok () m ↔
      ∀ a b, InForce Change.lower calls a → InForce Change.upper calls b → gt a b = false) := by
  have key : (∃ a b, InForce Change.lower calls a ∧ InForce Change.upper calls b ∧ gt a b = true) ↔
      ((changed zero calls).checkMaximum && (changed zero calls).checkMinimum &&
        gt (changed zero calls).minimum (changed zero calls).maximum) = true := by
    simp only [Bool.and_eq_true]
    constructor
    · rintro ⟨a, b, h1, h2, h3⟩
      obtain ⟨c1, rfl⟩ := (C165_limits zero calls a).1.mpr h1
      obtain ⟨c2, rfl⟩ := (C165_limits zero calls b).2.mpr h2
      exact ⟨⟨c2, c1⟩, h3⟩
    · rintro ⟨⟨h1, h2⟩, h3⟩
      exact ⟨_, _, (C165_limits zero calls _).1.mp ⟨h2, rfl⟩, (C165_limits zero calls _).2.mp ⟨h1, rfl⟩, h3⟩
  have key' : (∀ a b, InForce Change.lower calls a → InForce Change.upper calls b → gt a b = false) ↔
      ¬ ∃ a b, InForce Change.lower calls a ∧ InForce Change.upper calls b ∧ gt a b = true := by
    constructor
    · rintro h ⟨a, b, h1, h2, h3⟩
      rw [h a b h1 h2] at h3
      cases h3
    · intro h a b h1 h2
      rw [← Bool.not_eq_true]
      exact fun h3 => h ⟨a, b, h1, h2, h3⟩
  rw [key', key, Setting.verify]
  cases (changed zero calls).checkMaximum && (changed zero calls).checkMinimum && gt (changed zero calls).minimum (changed zero calls).maximum
  · exact ⟨⟨fun h => (by cases h), fun h => (by cases h)⟩, ⟨fun _ h => (by cases h), fun _ => rfl⟩⟩
  · exact ⟨⟨fun _ => rfl, fun _ => rfl⟩, ⟨fun h => (by cases h), fun h => absurd rfl h⟩⟩

/-- The members and the model of a search agree about `verify`. -/
theorem C165_verify_search {F : Type} (fl : Floats F) (p : Setting Nat) (q : Setting F) (m : BMem) :
    p.param.verify m = p.verify (fun a b => decide (a > b)) m ∧ q.fparam.verify fl m = q.verify (fun a b => fl.lt b a) m := by
  obtain ⟨a, b, c, d⟩ := p
  obtain ⟨a', b', c', d'⟩ := q
  constructor
  · cases b <;> cases d <;> rfl
  · cases b' <;> cases d' <;> rfl

/-- The calls made on each of the six limits. -/
structure Histories (F : Type) where
  circularity : List (Change F)
  elongation : List (Change F)
  height : List (Change Nat)
  length : List (Change F)
  size : List (Change Nat)
  width : List (Change Nat)

/-- The parameters after them. -/
def Histories.settings {F : Type} (zero : F) (c : Histories F) : Settings F :=
  { circularity := changed zero c.circularity
    elongation := changed zero c.elongation
    height := changed 0 c.height
    length := changed zero c.length
    size := changed 0 c.size
    width := changed 0 c.width }

/-- A value within the limits in force. -/
def BetweenLimits {D : Type} (less : D → D → Prop) (calls : List (Change D)) (x : D) : Prop :=
  (∀ a, InForce Change.lower calls a → ¬ less x a) ∧ ∀ b, InForce Change.upper calls b → ¬ less b x

/-- The limits in force are in order. -/
def InOrder {D : Type} (less : D → D → Prop) (calls : List (Change D)) : Prop :=
  ∀ a b, InForce Change.lower calls a → InForce Change.upper calls b → ¬ less b a

/-- The limits in force are in order for each criterion. -/
def Histories.InOrder {F : Type} (fl : Floats F) (c : Histories F) : Prop :=
  Props.InOrder (fun x y => fl.lt x y = true) c.circularity ∧ Props.InOrder (fun x y => fl.lt x y = true) c.elongation ∧
    Props.InOrder (· < ·) c.height ∧ Props.InOrder (fun x y => fl.lt x y = true) c.length ∧ Props.InOrder (· < ·) c.size ∧
    Props.InOrder (· < ·) c.width

/-- A blob within all limits in force: its extents, its length and its size are those of its pixels. -/
def Histories.Keeps {F : Type} (fl : Floats F) (c : Histories F) (b : BlobInfo) : Prop :=
  BetweenLimits (fun x y => fl.lt x y = true) c.circularity (fl.circularity b) ∧
    BetweenLimits (fun x y => fl.lt x y = true) c.elongation (fl.elongation b) ∧
    (∃ k, Spans (b.point.map Prod.snd) k ∧ BetweenLimits (· < ·) c.height k) ∧
    (∃ n, Diameter b.point n ∧ BetweenLimits (fun x y => fl.lt x y = true) c.length (fl.sqrt n)) ∧
    BetweenLimits (· < ·) c.size b.point.length ∧ ∃ k, Spans (b.point.map Prod.fst) k ∧ BetweenLimits (· < ·) c.width k

theorem within_iff (calls : List (Change Nat)) (n : Nat) : Within (changed 0 calls).param n ↔ BetweenLimits (· < ·) calls n := by
  obtain ⟨h1, h2, -, -⟩ := C165_param (0 : Nat) calls []
  simp only [Within, BetweenLimits, h1, h2, Nat.not_lt]

theorem fwithin_iff {F : Type} (fl : Floats F) (zero : F) (calls : List (Change F)) (x : F) :
    FWithin fl (changed zero calls).fparam x ↔ BetweenLimits (fun x y => fl.lt x y = true) calls x := by
  obtain ⟨-, -, h1, h2⟩ := C165_param zero [] calls
  simp only [FWithin, BetweenLimits, h1, h2, Bool.not_eq_true]

theorem sane_iff (calls : List (Change Nat)) : Sane (changed 0 calls).param ↔ InOrder (· < ·) calls := by
  obtain ⟨h1, h2, -, -⟩ := C165_param (0 : Nat) calls []
  simp only [Sane, InOrder, h1, h2, Nat.not_lt]

theorem fsane_iff {F : Type} (fl : Floats F) (zero : F) (calls : List (Change F)) :
    FSane fl (changed zero calls).fparam ↔ InOrder (fun x y => fl.lt x y = true) calls := by
  obtain ⟨-, -, h1, h2⟩ := C165_param zero [] calls
  simp only [FSane, InOrder, h1, h2, Bool.not_eq_true]

theorem keeps_iff {F : Type} (fl : Floats F) (zero : F) (c : Histories F) (b : BlobInfo) :
    InLimits fl (c.settings zero).limits b ↔ c.Keeps fl b := by
  constructor
  · rintro ⟨h1, h2, ⟨k, h3, h3'⟩, ⟨n, h4, h4'⟩, h5, l, h6, h6'⟩
    exact ⟨(fwithin_iff fl zero _ _).mp h1, (fwithin_iff fl zero _ _).mp h2, ⟨k, h3, (within_iff _ _).mp h3'⟩,
      ⟨n, h4, (fwithin_iff fl zero _ _).mp h4'⟩, (within_iff _ _).mp h5, l, h6, (within_iff _ _).mp h6'⟩
  · rintro ⟨h1, h2, ⟨k, h3, h3'⟩, ⟨n, h4, h4'⟩, h5, l, h6, h6'⟩
    exact ⟨(fwithin_iff fl zero _ _).mpr h1, (fwithin_iff fl zero _ _).mpr h2, ⟨k, h3, (within_iff _ _).mpr h3'⟩,
      ⟨n, h4, (fwithin_iff fl zero _ _).mpr h4'⟩, (within_iff _ _).mpr h5, l, h6, (within_iff _ _).mpr h6'⟩

theorem orderly_iff {F : Type} (fl : Floats F) (zero : F) (c : Histories F) :
    LimitsSane fl (c.settings zero).limits ↔ c.InOrder fl := by
  constructor
  · rintro ⟨h1, h2, h3, h4, h5, h6⟩
    exact ⟨(fsane_iff fl zero _).mp h1, (fsane_iff fl zero _).mp h2, (sane_iff _).mp h3, (fsane_iff fl zero _).mp h4, (sane_iff _).mp h5,
      (sane_iff _).mp h6⟩
  · rintro ⟨h1, h2, h3, h4, h5, h6⟩
    exact ⟨(fsane_iff fl zero _).mpr h1, (fsane_iff fl zero _).mpr h2, (sane_iff _).mpr h3, (fsane_iff fl zero _).mpr h4, (sane_iff _).mpr h5,
      (sane_iff _).mpr h6⟩

/-- **C165**: a search gives exactly the blobs within the limits in force, in the order of the search without limits; it throws when limits in force
    are not in order.  `partial`: only in regions whose squared diagonal fits into 31 bits (see `C119_wrong`). -/
theorem C165_search_partial {F : Type} [DecidableEq F] {fl : Floats F} {thr : UInt8} {m : BMem} {v : View} {w h : Nat} (o : One m v w h)
    (cc : v.img.cc = 1) (small : (w + 2) * (h + 2) < 2 ^ 32) (fits : (w - 1) * (w - 1) + (h - 1) * (h - 1) < 2 ^ 31) (zero : F)
    (c : Histories F) :
    (c.InOrder fl → ∃ all kept, find v w h Params.none thr m = .ok all m ∧ findBy fl v w h (c.settings zero).limits thr m = .ok kept m ∧
      (kept.map (·.info)).Sublist all ∧ ∀ b, b ∈ all → (b ∈ kept.map (·.info) ↔ c.Keeps fl b)) ∧
    (¬ c.InOrder fl → findBy fl v w h (c.settings zero).limits thr m = .throw m) := by
  constructor
  · intro sane
    obtain ⟨all, kept, e1, e2, e3, e4, -⟩ := C122_filters_partial (thr := thr) o cc small (c.settings zero).limits (fun _ => fits)
      ((orderly_iff fl zero c).mpr sane)
    exact ⟨all, kept, e1, e2, e3, fun b hb => (e4 b hb).trans (keeps_iff fl zero c b)⟩
  · intro bad
    exact C122_rejects o cc _ fun s => bad ((orderly_iff fl zero c).mp s)

/-- **C165**: after `_reset` a search has no limits, whatever was set before, and finds all blobs. -/
theorem C165_reset {F : Type} [DecidableEq F] {fl : Floats F} {thr : UInt8} {m : BMem} {v : View} {w h : Nat} (o : One m v w h)
    (cc : v.img.cc = 1) (small : (w + 2) * (h + 2) < 2 ^ 32) (zero : F) (s : Settings F) :
    ∃ all kept, find v w h Params.none thr m = .ok all m ∧ findBy fl v w h (s.reset zero).limits thr m = .ok kept m ∧
      kept.map (·.info) = all := by
  obtain ⟨all, e, -⟩ := find_shapes (thr := thr) o cc small
  have es : search v w h Params.none thr m = .ok all m := by
    obtain ⟨n1, n2, n3⟩ := none_sane
    rw [find, bind_ok (validate_on_ok (vs := [v]) (by simp; exact ⟨o.wf, o.fit⟩)), bind_ok (gray_ok (by simp [cc])),
      bind_ok (verify_ok n1 m), bind_ok (verify_ok n2 m), bind_ok (verify_ok n3 m)] at e
    exact e
  have n1 : FSane fl (⟨none, none⟩ : FParam F) := fun _ _ h => by cases h
  have n2 : Sane ⟨none, none⟩ := fun _ _ h => by cases h
  refine ⟨all, all.map (Blob.new fl), e, ?_, ?_⟩
  · have el : (s.reset zero).limits = ⟨⟨none, none⟩, ⟨none, none⟩, ⟨none, none⟩, ⟨none, none⟩, ⟨none, none⟩, ⟨none, none⟩⟩ := rfl
    rw [el, findBy, bind_ok (validate_on_ok (vs := [v]) (by simp; exact ⟨o.wf, o.fit⟩)), bind_ok (gray_ok (by simp [cc])),
      bind_ok (fverify_ok n1 m), bind_ok (fverify_ok n1 m), bind_ok (verify_ok n2 m), bind_ok (fverify_ok n1 m), bind_ok (verify_ok n2 m),
      bind_ok (verify_ok n2 m), bind_ok es]
    rfl
  · rw [List.map_map]
    exact List.map_id _

/-! ### C166 -/

/-- The same number of different elements. -/
theorem full_iff {α : Type} [DecidableEq α] {l k : List α} (hl : l.Nodup) (hk : k.Nodup) (h : ∀ x, x ∈ l → x ∈ k) :
    l.length = k.length ↔ ∀ x, x ∈ k → x ∈ l := by
  constructor
  · intro e x hx
    exact ((hl.subperm h).perm_of_length_le (by omega)).mem_iff.mpr hx
  · intro h'
    exact ((List.perm_ext_iff_of_nodup hl hk).mpr fun x => ⟨h x, h' x⟩).length_eq

variable {m : BMem} {v : View} {w h : Nat} {thr : UInt8}

/-- **C166**: a blob is solid exactly when its edge points are in one piece. -/
theorem C166_exact (o : One m v w h) (cc : v.img.cc = 1) (small : (w + 2) * (h + 2) < 2 ^ 32) :
    ∃ bs, find v w h Params.none thr m = .ok bs m ∧ ∀ b, b ∈ bs →
      (b.isSolid = true ↔ ∀ p q, p ∈ b.edge → q ∈ b.edge → Conn (fun r => r ∈ b.edge) p q) := by
  obtain ⟨bs, e, hb⟩ := C54_edges (thr := thr) o cc small
  refine ⟨bs, e, fun b hbs => ?_⟩
  obtain ⟨-, hn, hc, he, hsub, s, hs, -, hse, hcon⟩ := hb b hbs
  rw [BlobInfo.isSolid, beq_iff_eq, full_iff hc hn hsub]
  have inner : ∀ q, Conn (Rim (Fg m v w h thr)) s q → Conn (fun r => r ∈ b.edge) s q := fun q c => by
    induction c with
    | refl => exact .refl
    | step c a hr ih => exact .step ih a (hsub _ ((hcon _).mpr (.step c a hr)))
  constructor
  · intro all p q hp hq
    exact (Conn.symm hse (inner p ((hcon p).mp (all p hp)))).1.trans (inner q ((hcon q).mp (all q hq)))
  · intro all q hq
    rw [hcon]
    have c := all s q hse hq
    clear hq
    induction c with
    | refl => exact .refl
    | step c a hr ih => exact .step ih a ((he _).mp hr).2

/-- **C54**: the contour of a blob has all its pixels next to the outer background, the positions which can be reached from outside of the image
    around the blob. -/
theorem C54_outer (o : One m v w h) (cc : v.img.cc = 1) (small : (w + 2) * (h + 2) < 2 ^ 32) :
    ∃ bs, find v w h Params.none thr m = .ok bs m ∧ ∀ b, b ∈ bs →
      (∀ q, OuterRim (fun p => p ∈ b.point) q → q ∈ b.contour) ∧ ∃ s, b.contour.head? = some s ∧ OuterRim (fun p => p ∈ b.point) s := by
  obtain ⟨bs, e, -, hp, hb⟩ := find_run (thr := thr) o cc small
  obtain ⟨bs', e', he⟩ := C54_edges_of_blob (thr := thr) o cc small
  have e0 := (e _ none_sane).trans (by rw [none_apply])
  rw [e0] at e'
  obtain ⟨rfl, -⟩ := Res.ok.inj e'
  refine ⟨bs, e0, fun b hbs => ?_⟩
  have k := hb b hbs
  obtain ⟨s, h1, h2, -, -, h5, h6⟩ := k.start
  have hs : s ∈ b.point := (h5 s).mpr .refl
  have outer : OuterRim (fun p => p ∈ b.point) s :=
    ⟨hs, (s.1 + 1, s.2), around_row (fun i p hp e => by
      simp only [Prod.mk.injEq] at e
      have := k.first s h1 p hp
      omega) _, by simp only [Touch]; omega⟩
  have within : ∀ q, Conn (Fg m v w h thr) s q → Conn (fun r => r ∈ b.point) s q := fun q c => by
    induction c with
    | refl => exact .refl
    | step c a hr ih => exact .step ih a ((h5 _).mpr (.step c a hr))
  refine ⟨fun q hq => ?_, s, h2, outer⟩
  rw [h6]
  have c := outer_connected (fun q hq => within q ((h5 q).mp hq)) outer hq
  clear hq
  induction c with
  | refl => exact .refl
  | step c a hr ih =>
    have hr' := (k.edges _).mp ((he b hbs _).mpr hr.rim)
    exact .step ih a ⟨(hp _).mp (List.mem_flatMap.mpr ⟨b, hbs, hr'.1⟩), hr'.2⟩

/-- C166, what holds: a blob without holes is solid.  `partial`: there are blobs with holes which are solid too (`C166_wrong`); which blobs are
    solid is said by `C166_exact`. -/
theorem C166_solid_partial (o : One m v w h) (cc : v.img.cc = 1) (small : (w + 2) * (h + 2) < 2 ^ 32) :
    ∃ bs, find v w h Params.none thr m = .ok bs m ∧ ∀ b, b ∈ bs → NoHole (fun p => p ∈ b.point) → b.isSolid = true := by
  obtain ⟨bs, e, hb⟩ := C166_exact (thr := thr) o cc small
  obtain ⟨bs', e', he⟩ := C54_edges_of_blob (thr := thr) o cc small
  obtain ⟨bs'', e'', -, hp, hc⟩ := C53_components (thr := thr) o cc small
  rw [e] at e' e''
  obtain ⟨rfl, -⟩ := Res.ok.inj e'
  obtain ⟨rfl, -⟩ := Res.ok.inj e''
  refine ⟨bs, e, fun b hbs free => (hb b hbs).mpr fun p q hpe hqe => ?_⟩
  rw [he b hbs] at hpe hqe
  have within : ∀ q, Conn (Fg m v w h thr) p q → Conn (fun r => r ∈ b.point) p q := fun q c => by
    induction c with
    | refl => exact .refl
    | step c a hr ih => exact .step ih a (((hc b hbs).2 p hpe.1 _).mpr (.step c a hr))
  have := rim_connected (fun q hq => within q (((hc b hbs).2 p hpe.1 q).mp hq)) free hpe hqe
  clear hqe
  induction this with
  | refl => exact .refl
  | step c a hr ih => exact .step ih a ((he b hbs _).mpr hr)

/-- **C166**: a blob that is not solid has a hole: a position outside the blob with no way around the blob to the outside. -/
theorem C166_hole (o : One m v w h) (cc : v.img.cc = 1) (small : (w + 2) * (h + 2) < 2 ^ 32) :
    ∃ bs, find v w h Params.none thr m = .ok bs m ∧ ∀ b, b ∈ bs → b.isSolid = false →
      ∃ z, Outside (fun p => p ∈ b.point) z ∧ ¬ Conn (Outside fun p => p ∈ b.point) (0, 0) z := by
  obtain ⟨bs, e, hb⟩ := C166_solid_partial (thr := thr) o cc small
  refine ⟨bs, e, fun b hbs hs => Classical.byContradiction fun hn => ?_⟩
  have := hb b hbs fun z hz => Classical.byContradiction fun hc => hn ⟨z, hz, hc⟩
  rw [hs] at this
  cases this

/-- A ring: `find` of blobs in a 3 x 3 image without its pixel in the middle. -/
def ringMem : BMem where
  size b := if b = 1 then 9 else 0
  byte _ i := [9, 9, 9, 9, 0, 9, 9, 9, 9].getD i 0

def ringImg : Image := ⟨1, 3, 3, 1, 3⟩

theorem one_ring : One ringMem ⟨ringImg, 0, 0⟩ 3 3 :=
  ⟨⟨by decide, by decide, by decide⟩, ⟨by decide, Or.inl rfl, by decide, by decide, by decide, by decide⟩⟩

/-- The points of the blobs and whether they are solid. -/
def solids : Res BMem (List BlobInfo) → Option (List (List (Nat × Nat) × Bool))
  | .ok bs _ => some (bs.map fun b => (b.point, b.isSolid))
  | _ => none

/-- The points of the ring. -/
abbrev ringPoints : List (Nat × Nat) := [(0, 0), (1, 0), (0, 1), (2, 0), (2, 1), (0, 2), (1, 2), (2, 2)]

theorem ring_found : solids (find ⟨ringImg, 0, 0⟩ 3 3 Params.none 5 ringMem) = some [(ringPoints, true)] := by
  decide +kernel

/-- C166 fails: a ring of one pixel around a hole is solid. -/
theorem C166_wrong : ∃ b, find ⟨ringImg, 0, 0⟩ 3 3 Params.none 5 ringMem = .ok [b] ringMem ∧ b.isSolid = true ∧
    Outside (fun p => p ∈ b.point) (2, 2) ∧ ¬ Conn (Outside fun p => p ∈ b.point) (0, 0) (2, 2) := by
  obtain ⟨bs, e, -⟩ := C54_edges (thr := 5) one_ring rfl (by decide)
  have hk := ring_found
  rw [e] at hk
  obtain ⟨b, rfl, hb⟩ := List.map_eq_singleton_iff.mp (Option.some.inj hk)
  obtain ⟨hp, hs⟩ := Prod.mk.inj hb
  refine ⟨b, e, hs, ?_, ?_⟩
  · rw [hp]
    unfold Outside
    decide
  · rw [hp]
    intro c
    have stuck : ∀ z, Conn (Outside fun p => p ∈ ringPoints) (0, 0) z → z ≠ (2, 2) := fun z c => by
      induction c with
      | refl => decide
      | @step q r c a hr ih =>
        rintro rfl
        obtain ⟨h1, h2, h3, h4, h5⟩ := a
        have hq : Outside (fun p => p ∈ ringPoints) q := by
          cases c with
          | refl => intro p _ e; simp at e
          | step _ _ h => exact h
        have all : ∀ i, i ∈ [1, 2, 3] → ∀ j, j ∈ [1, 2, 3] → (i, j) ≠ (2, 2) → (i - 1, j - 1) ∈ ringPoints := by decide
        obtain ⟨i, j⟩ := q
        simp only at h2 h3 h4 h5
        refine hq _ (all i (by simp; omega) j (by simp; omega) h1) ?_
        simp only [Prod.mk.injEq]
        omega
    exact stuck _ c rfl

/-- A set without holes: every position outside is in a row or in a column which is outside. -/
theorem noHole_of {S : Nat × Nat → Prop}
    (free : ∀ i j, Outside S (i, j) → (∀ a, Outside S (a, j)) ∨ ∀ b, Outside S (i, b)) : NoHole S := by
  have col0 : ∀ b, Outside S (0, b) := fun b p _ e => by simp at e
  have row0 : ∀ a, Outside S (a, 0) := fun a p _ e => by simp at e
  have right : ∀ j, (∀ a, Outside S (a, j)) → ∀ a, Conn (Outside S) (0, j) (a, j) := fun j f a => by
    induction a with
    | zero => exact .refl
    | succ a ih => exact .step ih ⟨by simp, by dsimp only; omega, by dsimp only; omega, by dsimp only; omega, by dsimp only; omega⟩ (f _)
  have down : ∀ i, (∀ b, Outside S (i, b)) → ∀ b, Conn (Outside S) (i, 0) (i, b) := fun i f b => by
    induction b with
    | zero => exact .refl
    | succ b ih => exact .step ih ⟨by simp, by dsimp only; omega, by dsimp only; omega, by dsimp only; omega, by dsimp only; omega⟩ (f _)
  rintro ⟨i, j⟩ hz
  rcases free i j hz with f | f
  · exact (down 0 col0 j).trans (right j f i)
  · exact (right 0 row0 i).trans (down i f j)

/-- A full 3 x 3 square. -/
def blockMem : BMem where
  size b := if b = 1 then 9 else 0
  byte _ _ := 9

theorem one_block : One blockMem ⟨ringImg, 0, 0⟩ 3 3 :=
  ⟨⟨by decide, by decide, by decide⟩, ⟨by decide, Or.inl rfl, by decide, by decide, by decide, by decide⟩⟩

/-- C166 applies: a square has no hole and is solid. -/
example : NoHole (fun p => p.1 < 3 ∧ p.2 < 3) := noHole_of fun i j h => by
  by_cases hi : i = 0 ∨ 3 < i
  · refine Or.inr fun b p hp e => ?_
    simp only [Prod.mk.injEq] at e
    omega
  · refine Or.inl fun a p hp e => ?_
    simp only [Prod.mk.injEq] at e
    exact h (i - 1, j - 1) (by dsimp only; omega) (by simp only [Prod.mk.injEq]; omega)

example : solids (find ⟨ringImg, 0, 0⟩ 3 3 Params.none 5 blockMem) =
    some [([(0, 0), (1, 0), (0, 1), (1, 1), (2, 0), (2, 1), (0, 2), (1, 2), (2, 2)], true)] := by
  decide +kernel

/-- A frame of three pixels around a hole is not solid. -/
def frameMem : BMem where
  size b := if b = 1 then 49 else 0
  byte _ i := if i = 24 then 0 else 9

example : (solids (find ⟨⟨1, 7, 7, 1, 7⟩, 0, 0⟩ 7 7 Params.none 5 frameMem)).map (·.map (·.2)) = some [false] := by
  decide +kernel

/-- C165 applies: the minimum was given, reset with all else, and then given again. -/
example : InForce Change.lower [.setMinimum 5, .reset, .set 2 9, .setMaximum 4] 2 ∧ InForce Change.upper [.setMinimum 5, .reset, .set 2 9, .setMaximum 4] 4 :=
  ⟨⟨[.setMinimum 5, .reset], .set 2 9, [.setMaximum 4], rfl, rfl, by simp [Change.lower]⟩,
    ⟨[.setMinimum 5, .reset, .set 2 9], .setMaximum 4, [], rfl, rfl, by simp⟩⟩

example : (changed 0 [.setMinimum 5, .reset, .set 2 9, .setMaximum 4]).param = ⟨some 2, some 4⟩ ∧
    (changed 0 [.set 2 9, .setMaximum 1]).verify (fun a b => decide (a > b)) ringMem = .throw ringMem ∧
    (changed 0 [.set 2 9, .setMaximum 1, .reset]).param = ⟨none, none⟩ := ⟨rfl, rfl, rfl⟩

example {F : Type} [DecidableEq F] (fl : Floats F) (zero : F) (s : Settings F) : ∃ all kept,
    find ⟨blobImg, 0, 0⟩ 5 4 Params.none 5 blobMem = .ok all blobMem ∧
      findBy fl ⟨blobImg, 0, 0⟩ 5 4 (s.reset zero).limits 5 blobMem = .ok kept blobMem ∧ kept.map (·.info) = all :=
  C165_reset one_blob rfl (by decide) zero s

/-- A minimum of the size that was set, then a maximum, then only the maximum again. -/
def threeSize (F : Type) : Histories F := ⟨[], [], [], [], [.setMinimum 5, .reset, .setMaximum 3], []⟩

theorem no_calls {D : Type} (less : D → D → Prop) : InOrder less [] := fun a _ h => absurd h (inForce_nil a)

example {F : Type} [DecidableEq F] (fl : Floats F) (zero : F) : ∃ all kept,
    find ⟨blobImg, 0, 0⟩ 5 4 Params.none 5 blobMem = .ok all blobMem ∧
      findBy fl ⟨blobImg, 0, 0⟩ 5 4 ((threeSize F).settings zero).limits 5 blobMem = .ok kept blobMem ∧
      (kept.map (·.info)).Sublist all ∧ ∀ b, b ∈ all → (b ∈ kept.map (·.info) ↔ (threeSize F).Keeps fl b) :=
  (C165_search_partial one_blob rfl (by decide) (by decide) zero (threeSize F)).1
    ⟨no_calls _, no_calls _, no_calls _, no_calls _, fun a b h => by
      rw [← (C165_param zero _ []).1] at h
      simp [threeSize, changed, Change.exec, Setting.param, Setting.reset, Setting.initial, Setting.setMaximum, Setting.setMinimum] at h,
      no_calls _⟩

end PV.Props
