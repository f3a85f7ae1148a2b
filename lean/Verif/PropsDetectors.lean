import Verif.Detectors
import Verif.PropsBlobCentre
import Verif.PropsBlobFilter
import Verif.PropsEdgeFind
/-
  C162: detectors which are used more than once.
-/
namespace PV.Props

open PV.Blob

variable {F : Type} {fl : Floats F} {circ : Rat × Rat → BlobInfo → F}

/-! ### What a blob should answer -/

/-- The answer of a blob, from its pixels.  The centre is the mean only while the sums of the coordinates are below 2^31 (C120). -/
def Reports (fl : Floats F) (b : BlobInfo) : Measure → Answer F → Prop
  | .area, .area a => Bounds b.point a
  | .center, .point c => (b.point.map Prod.fst).sum < 2 ^ 31 → (b.point.map Prod.snd).sum < 2 ^ 31 → IsCentre fl.rnd b.point c
  | .circularity, .number x => x = fl.circularity b
  | .elongation, .number x => x = fl.elongation b
  | .height, .count n => Spans (b.point.map Prod.snd) n
  | .length, .number x => ∃ n : Nat, Diameter b.point n ∧ x = fl.sqrt n
  | .width, .count n => Spans (b.point.map Prod.fst) n
  | .size, .count n => n = b.point.length
  | _, _ => False

/-- Whether the value was computed already; the size always is. -/
def knows (x : Item F) : Measure → Bool
  | .area => x.area.found
  | .center => x.center.found
  | .circularity => x.blob.circularity.found
  | .elongation => x.blob.elongation.found
  | .height => x.blob.height.found
  | .length => x.blob.length.found
  | .width => x.blob.width.found
  | .size => true

/-- What is there before -/
def zeroOf (fl : Floats F) : Measure → Answer F
  | .area => .area ⟨0, 0, 0, 0⟩
  | .center => .point (0, 0)
  | .circularity | .elongation | .length => .number fl.zero
  | .height | .width | .size => .count 0

/-- A search the theorems on searches apply to. -/
structure Proper (c : Search F) : Prop where
  one : One c.m c.v c.w c.h
  gray : c.v.img.cc = 1
  small : (c.w + 2) * (c.h + 2) < 2 ^ 32
  fits : Fits c.lim c.w c.h

/-- All searches which did not throw were proper. -/
def ProperAll (es : List (Event F)) : Prop := ∀ c, .find c false ∈ es → Proper c

/-! ### The invariant -/

/-- A value is the right one, or still zero. -/
def Kept {α : Type} (x : Lazy α) (zero : α) (P : α → Prop) : Prop := (x.found = true → P x.value) ∧ (x.found = false → x.value = zero)

/-- What is known of a blob from its search -/
structure Solid (fl : Floats F) (b : BlobInfo) : Prop where
  known : Known b
  pixels : b.point ≠ []
  bounds : Bounds b.point (areaOf b)
  centre : (b.point.map Prod.fst).sum < 2 ^ 31 → (b.point.map Prod.snd).sum < 2 ^ 31 → IsCentre fl.rnd b.point (centerOf fl.rnd b)
  length : ∀ n, Diameter b.point n → (longest b.contour).map (·.distance) = if n < 2 ^ 31 then some (n : Int) else none

/-- A blob held by a detector -/
structure HeldBlob (fl : Floats F) (x : Item F) : Prop where
  solid : Solid fl x.blob.info
  area : Kept x.area ⟨0, 0, 0, 0⟩ (· = areaOf x.blob.info)
  center : Kept x.center (0, 0) (· = centerOf fl.rnd x.blob.info)
  circularity : Kept x.blob.circularity fl.zero (· = fl.circularity x.blob.info)
  elongation : Kept x.blob.elongation fl.zero (· = fl.elongation x.blob.info)
  height : Kept x.blob.height 0 (Spans (x.blob.info.point.map Prod.snd))
  length : Kept x.blob.length fl.zero (fun y => ∃ n : Nat, Diameter x.blob.info.point n ∧ y = fl.sqrt n)
  width : Kept x.blob.width 0 (Spans (x.blob.info.point.map Prod.fst))
  both : x.blob.circularity.found = true → x.center.found = true

theorem Stored.kept {α : Type} {on : Bool} {x : Lazy α} {zero : α} {P : α → Prop} (h : Stored on x zero P) : Kept x zero P := by
  cases on with
  | true => exact ⟨fun _ => (h.1 rfl).2, fun hf => by rw [(h.1 rfl).1] at hf; exact absurd hf (by simp)⟩
  | false =>
    rw [h.2 rfl]
    exact ⟨fun hf => absurd hf (by simp), fun _ => rfl⟩

theorem fverify_eq (p : FParam F) (m : BMem) : p.verify fl m = .ok () m ∨ p.verify fl m = .throw m := by
  by_cases h : FSane fl p
  · exact Or.inl (fverify_ok h m)
  · exact Or.inr (fverify_bad h m)

theorem verify_eq (p : Param) (m : BMem) : p.verify m = .ok () m ∨ p.verify m = .throw m := by
  by_cases h : Sane p
  · exact Or.inl (verify_ok h m)
  · exact Or.inr (verify_bad h m)

theorem checks_sane {c : Search F} (o : One c.m c.v c.w c.h) (cc : c.v.img.cc = 1) (sane : LimitsSane fl c.lim) : c.checks fl c.m = .ok () c.m := by
  rw [Search.checks, bind_ok (validate_on_ok (vs := [c.v]) (by simp; exact ⟨o.wf, o.fit⟩)), bind_ok (gray_ok (by simp [cc])),
    bind_ok (fverify_ok sane.circularity _), bind_ok (fverify_ok sane.elongation _), bind_ok (verify_ok sane.height _),
    bind_ok (fverify_ok sane.length _), bind_ok (verify_ok sane.size _), verify_ok sane.width]

theorem checks_insane {c : Search F} (o : One c.m c.v c.w c.h) (cc : c.v.img.cc = 1) (bad : ¬ LimitsSane fl c.lim) :
    c.checks fl c.m = .throw c.m := by
  rw [Search.checks, bind_ok (validate_on_ok (vs := [c.v]) (by simp; exact ⟨o.wf, o.fit⟩)), bind_ok (gray_ok (by simp [cc]))]
  by_cases h1 : FSane fl c.lim.circularity
  · rw [bind_ok (fverify_ok h1 _)]
    by_cases h2 : FSane fl c.lim.elongation
    · rw [bind_ok (fverify_ok h2 _)]
      by_cases h3 : Sane c.lim.height
      · rw [bind_ok (verify_ok h3 _)]
        by_cases h4 : FSane fl c.lim.length
        · rw [bind_ok (fverify_ok h4 _)]
          by_cases h5 : Sane c.lim.size
          · rw [bind_ok (verify_ok h5 _)]
            by_cases h6 : Sane c.lim.width
            · exact absurd ⟨h1, h2, h3, h4, h5, h6⟩ bad
            · rw [verify_bad h6]
          · rw [bind_throw (verify_bad h5 _)]
        · rw [bind_throw (fverify_bad h4 _)]
      · rw [bind_throw (verify_bad h3 _)]
    · rw [bind_throw (fverify_bad h2 _)]
  · rw [bind_throw (fverify_bad h1 _)]

/-- A proper search with limits in order on any detector -/
theorem run_proper {c : Search F} (p : Proper c) (sane : LimitsSane fl c.lim) :
    ∃ kept, findBy fl c.v c.w c.h c.lim c.thr c.m = .ok kept c.m ∧ (∀ s, c.run fl s = some (false, kept.map (Item.of fl))) ∧
      ∀ x, x ∈ kept.map (Item.of fl) → HeldBlob fl x := by
  obtain ⟨all, kept, e1, e2, e3, _, e5⟩ := C122_filters_partial (fl := fl) (thr := c.thr) p.one p.gray p.small c.lim p.fits sane
  refine ⟨kept, e2, fun s => ?_, fun x hx => ?_⟩
  · have es : search c.v c.w c.h Params.none c.thr c.m = .ok all c.m := by
      obtain ⟨n1, n2, n3⟩ := none_sane
      rw [find, bind_ok (validate_on_ok (vs := [c.v]) (by simp; exact ⟨p.one.wf, p.one.fit⟩)), bind_ok (gray_ok (by simp [p.gray])),
        bind_ok (verify_ok n1 _), bind_ok (verify_ok n2 _), bind_ok (verify_ok n3 _)] at e1
      exact e1
    rw [findBy, bind_ok (validate_on_ok (vs := [c.v]) (by simp; exact ⟨p.one.wf, p.one.fit⟩)), bind_ok (gray_ok (by simp [p.gray])),
      bind_ok (fverify_ok sane.circularity _), bind_ok (fverify_ok sane.elongation _), bind_ok (verify_ok sane.height _),
      bind_ok (fverify_ok sane.length _), bind_ok (verify_ok sane.size _), bind_ok (verify_ok sane.width _), bind_ok es] at e2
    have ea : c.lim.apply fl (all.map (Blob.new fl)) = some kept := by
      cases h : c.lim.apply fl (all.map (Blob.new fl)) with
      | none => rw [h] at e2; exact absurd e2 (by simp [orUb, ubE])
      | some k =>
        rw [h] at e2
        have : k = kept := (Res.ok.inj e2).1
        rw [this]
    simp only [Search.run, checks_sane p.one p.gray sane, es, ea]
    rfl
  · obtain ⟨b, hb, rfl⟩ := List.mem_map.1 hx
    have hv := e5 b hb
    have hall : b.info ∈ all := e3.subset (List.mem_map_of_mem hb)
    obtain ⟨bs1, f1, k1⟩ := find_shapes (thr := c.thr) p.one p.gray p.small
    obtain ⟨bs2, f2, k2⟩ := C118_bounds (thr := c.thr) p.one p.gray p.small
    obtain ⟨bs3, f3, k3⟩ := centre_mean fl.rnd (thr := c.thr) p.one p.gray p.small
    rw [e1] at f1 f2 f3
    obtain rfl := (Res.ok.inj f1).1
    obtain rfl := (Res.ok.inj f2).1
    obtain rfl := (Res.ok.inj f3).1
    have sh := k1 _ hall
    refine ⟨⟨known_of p.one sh, ?_, (k2 _ hall).1, fun s1 s2 => k3 _ hall s1 s2, fun n hn => ?_⟩, ?_, ?_, hv.circularity.kept, hv.elongation.kept,
      hv.height.kept, hv.length.kept, hv.width.kept, ?_⟩
    · obtain ⟨q, hq⟩ := List.exists_mem_of_ne_nil _ sh.nonempty
      exact List.ne_nil_of_mem (sh.sub q hq)
    · obtain ⟨l1, l2⟩ := sh.longest p.one p.small hn
      by_cases hlt : n < 2 ^ 31
      · obtain ⟨r, r1, r2, _⟩ := l1 hlt
        have r1' : longest (Item.of fl b).blob.info.contour = some r := r1
        rw [r1', if_pos hlt, Option.map_some, r2]
      · have l2' : longest (Item.of fl b).blob.info.contour = none := l2 hlt
        rw [l2', if_neg hlt]
        rfl
    · exact ⟨fun hf => absurd hf (by simp [Item.of]), fun _ => rfl⟩
    · simp only [Item.of]
      split
      · exact ⟨fun _ => rfl, fun hf => absurd hf (by simp)⟩
      · exact ⟨fun hf => absurd hf (by simp), fun _ => rfl⟩
    · intro hf
      have hf : b.circularity.found = true := hf
      simp [Item.of, hf]

/-- The number `_getCircularity` computes is the circularity when the centre is the right one. -/
def Consistent (fl : Floats F) (circ : Rat × Rat → BlobInfo → F) : Prop := ∀ b, circ (centerOf fl.rnd b) b = fl.circularity b

/-- `y` is `x` with more values known. -/
structure Grown (x y : Item F) : Prop where
  info : y.blob.info = x.blob.info
  keeps : ∀ q, knows x q = true → knows y q = true ∧ y.read q = x.read q

theorem Grown.refl (x : Item F) : Grown x x := ⟨rfl, fun _ h => ⟨h, rfl⟩⟩

theorem getCenter_held {x : Item F} (h : HeldBlob fl x) : HeldBlob fl (x.getCenter fl) ∧ Grown x (x.getCenter fl) ∧ (x.getCenter fl).center.found = true := by
  cases hf : x.center.found with
  | true =>
    have : x.getCenter fl = x := by simp [Item.getCenter, hf]
    rw [this]
    exact ⟨h, Grown.refl x, hf⟩
  | false =>
    have : x.getCenter fl = { x with center := ⟨centerOf fl.rnd x.blob.info, true⟩ } := by simp [Item.getCenter, hf, h.solid.pixels]
    rw [this]
    refine ⟨⟨h.solid, h.area, ⟨fun _ => rfl, fun hf => absurd hf (by simp)⟩, h.circularity, h.elongation, h.height, h.length, h.width, fun _ => rfl⟩, ⟨rfl, ?_⟩, rfl⟩
    intro q hq
    cases q <;> first | exact ⟨hq, rfl⟩ | skip
    rw [knows, hf] at hq
    exact absurd hq (by simp)

/-- A question leaves a blob in order, and the answer is known afterwards. -/
theorem compute_held (hc : Consistent fl circ) {x y : Item F} (h : HeldBlob fl x) {q : Measure} (e : x.compute fl circ q = some y) :
    HeldBlob fl y ∧ Grown x y ∧ knows y q = true := by
  have hne := h.solid.known.nonempty
  cases q with
  | area =>
    obtain rfl := Option.some.inj e
    cases hf : x.area.found with
    | true =>
      have : x.getArea = x := by simp [Item.getArea, hf]
      rw [this]
      exact ⟨h, Grown.refl x, hf⟩
    | false =>
      have : x.getArea = { x with area := ⟨areaOf x.blob.info, true⟩ } := by simp [Item.getArea, hf, hne]
      rw [this]
      refine ⟨⟨h.solid, ⟨fun _ => rfl, fun hf => absurd hf (by simp)⟩, h.center, h.circularity, h.elongation, h.height, h.length, h.width, h.both⟩, ⟨rfl, ?_⟩, rfl⟩
      intro q hq
      cases q <;> first | exact ⟨hq, rfl⟩ | skip
      rw [knows, hf] at hq
      exact absurd hq (by simp)
  | center =>
    obtain rfl := Option.some.inj e
    exact getCenter_held h
  | circularity =>
    obtain rfl := Option.some.inj e
    cases hf : x.blob.circularity.found with
    | true =>
      have : x.getCircularity fl circ = x := by simp [Item.getCircularity, hf]
      rw [this]
      exact ⟨h, Grown.refl x, hf⟩
    | false =>
      obtain ⟨hy, g, hcf⟩ := getCenter_held h
      have : x.getCircularity fl circ =
          { x.getCenter fl with blob := { (x.getCenter fl).blob with circularity := ⟨circ (x.getCenter fl).center.value (x.getCenter fl).blob.info, true⟩ } } := by
        simp [Item.getCircularity, hf, hne]
      rw [this]
      refine ⟨⟨hy.solid, hy.area, hy.center, ⟨fun _ => ?_, fun hf => absurd hf (by simp)⟩, hy.elongation, hy.height, hy.length, hy.width, fun _ => hcf⟩, ⟨g.info, ?_⟩, rfl⟩
      · show circ (x.getCenter fl).center.value (x.getCenter fl).blob.info = fl.circularity (x.getCenter fl).blob.info
        rw [hy.center.1 hcf, hc]
      · intro q hq
        cases q <;> first | exact g.keeps _ hq | skip
        rw [knows, hf] at hq
        exact absurd hq (by simp)
  | elongation =>
    cases hf : x.blob.elongation.found with
    | true =>
      have : y = x := by simpa [Item.compute, Blob.getElongation, hf] using e.symm
      rw [this]
      exact ⟨h, Grown.refl x, hf⟩
    | false =>
      have hlen : y = { x with blob := { x.blob with elongation := ⟨fl.elongation x.blob.info, true⟩ } } := by
        cases hr : longest x.blob.info.contour with
        | none => simp [Item.compute, Blob.getElongation, hf, hne, hr] at e
        | some r => simpa [Item.compute, Blob.getElongation, hf, hne, hr] using e.symm
      obtain rfl := hlen
      refine ⟨⟨h.solid, h.area, h.center, h.circularity, ⟨fun _ => rfl, fun hf => absurd hf (by simp)⟩, h.height, h.length, h.width, h.both⟩, ⟨rfl, ?_⟩, rfl⟩
      intro q hq
      cases q <;> first | exact ⟨hq, rfl⟩ | skip
      rw [knows, hf] at hq
      exact absurd hq (by simp)
  | height =>
    cases hf : x.blob.height.found with
    | true =>
      have : y = x := by simpa [Item.compute, Blob.getHeight, hf] using e.symm
      rw [this]
      exact ⟨h, Grown.refl x, hf⟩
    | false =>
      simp [Item.compute, Blob.getHeight, hf, hne] at e
      obtain rfl := e
      refine ⟨⟨h.solid, h.area, h.center, h.circularity, h.elongation, ⟨fun _ => h.solid.known.height, fun hf => absurd hf (by simp)⟩, h.length, h.width, h.both⟩,
        ⟨rfl, ?_⟩, rfl⟩
      intro q hq
      cases q <;> first | exact ⟨hq, rfl⟩ | skip
      rw [knows, hf] at hq
      exact absurd hq (by simp)
  | length =>
    cases hf : x.blob.length.found with
    | true =>
      have : y = x := by simpa [Item.compute, Blob.getLength, hf] using e.symm
      rw [this]
      exact ⟨h, Grown.refl x, hf⟩
    | false =>
      have hlen : ∃ r, longest x.blob.info.contour = some r ∧ y = { x with blob := { x.blob with length := ⟨fl.sqrt r.distance, true⟩ } } := by
        cases hr : longest x.blob.info.contour with
        | none => simp [Item.compute, Blob.getLength, hf, hne, hr] at e
        | some r => exact ⟨r, rfl, by simpa [Item.compute, Blob.getLength, hf, hne, hr] using e.symm⟩
      obtain ⟨r, hr, rfl⟩ := hlen
      obtain ⟨n, hn⟩ := h.solid.known.diameter
      have hl := h.solid.length n hn
      rw [hr, Option.map_some] at hl
      have hd : r.distance = n := by
        by_cases hlt : n < 2 ^ 31
        · rw [if_pos hlt] at hl
          exact Option.some.inj hl
        · rw [if_neg hlt] at hl
          exact absurd hl (by simp)
      refine ⟨⟨h.solid, h.area, h.center, h.circularity, h.elongation, h.height, ⟨fun _ => ⟨n, hn, by rw [hd]⟩, fun hf => absurd hf (by simp)⟩, h.width, h.both⟩,
        ⟨rfl, ?_⟩, rfl⟩
      intro q hq
      cases q <;> first | exact ⟨hq, rfl⟩ | skip
      rw [knows, hf] at hq
      exact absurd hq (by simp)
  | width =>
    cases hf : x.blob.width.found with
    | true =>
      have : y = x := by simpa [Item.compute, Blob.getWidth, hf] using e.symm
      rw [this]
      exact ⟨h, Grown.refl x, hf⟩
    | false =>
      simp [Item.compute, Blob.getWidth, hf, hne] at e
      obtain rfl := e
      refine ⟨⟨h.solid, h.area, h.center, h.circularity, h.elongation, h.height, h.length, ⟨fun _ => h.solid.known.width, fun hf => absurd hf (by simp)⟩, h.both⟩,
        ⟨rfl, ?_⟩, rfl⟩
      intro q hq
      cases q <;> first | exact ⟨hq, rfl⟩ | skip
      rw [knows, hf] at hq
      exact absurd hq (by simp)
  | size =>
    obtain rfl := Option.some.inj e
    exact ⟨h, Grown.refl _, rfl⟩

/-- A known value is the right one. -/
theorem read_held {x : Item F} (h : HeldBlob fl x) {q : Measure} (hk : knows x q = true) : Reports fl x.blob.info q (x.read q) := by
  cases q with
  | area =>
    show Bounds _ x.area.value
    rw [h.area.1 hk]
    exact h.solid.bounds
  | center =>
    show _ → _ → IsCentre fl.rnd _ x.center.value
    rw [h.center.1 hk]
    exact h.solid.centre
  | circularity => exact h.circularity.1 hk
  | elongation => exact h.elongation.1 hk
  | height => exact h.height.1 hk
  | length => exact h.length.1 hk
  | width => exact h.width.1 hk
  | size => rfl

theorem run_held (hc : Consistent fl circ) {es : List (Event F)} {s : List (Item F)} (r : Run fl circ es s) (hp : ProperAll es) :
    ∀ x, x ∈ s → HeldBlob fl x := by
  induction r with
  | start => exact fun x hx => absurd hx (by simp)
  | @step es s s' e r st ih =>
    have ih := ih fun c hc' => hp c (List.mem_append_left _ hc')
    cases st with
    | @find _ c threw e =>
      cases threw with
      | false =>
        have p : Proper c := hp c (by simp)
        by_cases sane : LimitsSane fl c.lim
        · obtain ⟨kept, _, h2, h3⟩ := run_proper p sane
          rw [h2] at e
          obtain rfl := (Prod.mk.inj (Option.some.inj e)).2
          exact h3
        · simp only [Search.run, checks_insane p.one p.gray sane] at e
          exact absurd e (by simp)
      | true =>
        intro x hx
        simp only [Search.run] at e
        split at e
        · exact absurd e (by simp)
        · obtain rfl := (Prod.mk.inj (Option.some.inj e)).2
          exact ih x hx
        · split at e
          · exact absurd e (by simp)
          · obtain rfl := (Prod.mk.inj (Option.some.inj e)).2
            exact absurd hx (by simp)
          · simp at e
    | @ask i q x y a hx e =>
      intro z hz
      simp only [Item.ask, Option.map_eq_some_iff] at e
      obtain ⟨y', ey, e2⟩ := e
      obtain ⟨rfl, _⟩ := Prod.mk.inj e2
      rcases List.mem_or_eq_of_mem_set hz with hz | rfl
      · exact ih z hz
      · exact (compute_held hc (ih x (List.mem_of_getElem? hx)) ey).1
    | read hx => exact ih
    | best _ _ _ => exact ih
    | sort hperm _ => exact fun x hx => ih x (hperm.mem_iff.1 hx)

/-! ### C162 -/

/-- C162: what a detector holds after a search is what a new detector would hold; earlier uses make no difference. -/
theorem C162_search_again {c : Search F} (p : Proper c) (sane : LimitsSane fl c.lim) {es : List (Event F)} {s : List (Item F)}
    (_r : Run fl circ es s) :
    ∃ kept, findBy fl c.v c.w c.h c.lim c.thr c.m = .ok kept c.m ∧ ∀ s' threw, Step fl circ s (.find c threw) s' ↔
      threw = false ∧ s' = kept.map (Item.of fl) := by
  obtain ⟨kept, e1, e2, _⟩ := run_proper p sane
  refine ⟨kept, e1, fun s' threw => ⟨fun st => ?_, ?_⟩⟩
  · cases st with
    | find e =>
      rw [e2] at e
      obtain ⟨rfl, rfl⟩ := Prod.mk.inj (Option.some.inj e)
      exact ⟨rfl, rfl⟩
  · rintro ⟨rfl, rfl⟩
    exact .find (e2 s)

/-- C162: a search which is rejected — a region outside of the image, a colour image, limits out of order — leaves the blobs of the last search. -/
theorem C162_rejected {c : Search F} (bad : Bad [c.v] c.w c.h (c.v.img.cc = 1) ∨
    (One c.m c.v c.w c.h ∧ c.v.img.cc = 1 ∧ ¬ LimitsSane fl c.lim)) {es : List (Event F)} {s : List (Item F)} (_r : Run fl circ es s)
    (s' : List (Item F)) (threw : Bool) : Step fl circ s (.find c threw) s' ↔ threw = true ∧ s' = s := by
  have e : c.checks fl c.m = .throw c.m := by
    rcases bad with hb | ⟨o, cc, ns⟩
    · rw [Search.checks]
      refine rois_bad_then hb fun hcc => ?_
      rw [bind_throw (gray_throw ⟨c.v.img, by simp, hcc⟩)]
    · exact checks_insane o cc ns
  have e2 : c.run fl s = some (true, s) := by simp only [Search.run, e]
  constructor
  · intro st
    cases st with
    | find e3 =>
      rw [e2] at e3
      obtain ⟨rfl, rfl⟩ := Prod.mk.inj (Option.some.inj e3)
      exact ⟨rfl, rfl⟩
  · rintro ⟨rfl, rfl⟩
    exact .find e2

/-- C162: whatever a detector was used for before, a blob answers every question as its pixels demand. -/
theorem C162_answers_partial (hc : Consistent fl circ) {es : List (Event F)} {s s' : List (Item F)} (r : Run fl circ es s) (hp : ProperAll es)
    {i : Nat} {q : Measure} {a : Answer F} (st : Step fl circ s (.ask i q a) s') :
    ∃ x, s[i]? = some x ∧ Reports fl x.blob.info q a ∧ s'.map (·.blob.info) = s.map (·.blob.info) := by
  cases st with
  | @ask _ _ x y _ hx e =>
    have hh := run_held hc r hp x (List.mem_of_getElem? hx)
    simp only [Item.ask, Option.map_eq_some_iff] at e
    obtain ⟨y', ey, e2⟩ := e
    obtain ⟨rfl, rfl⟩ := Prod.mk.inj e2
    obtain ⟨h1, h2, h3⟩ := compute_held hc hh ey
    refine ⟨x, hx, ?_, ?_⟩
    · have := read_held h1 h3
      rw [h2.info] at this
      exact this
    · rw [List.map_set]
      show (s.map fun x => x.blob.info).set i y'.blob.info = _
      rw [h2.info]
      apply List.ext_getElem?
      intro j
      rw [List.getElem?_set]
      split
      · rename_i hij
        subst hij
        simp [hx]
        exact (List.getElem?_eq_some_iff.1 hx).1
      · rfl

/-- C162: a question can always be asked, except for the length and the elongation of a blob whose ends are 46341 pixels apart (C119). -/
theorem C162_defined (hc : Consistent fl circ) {es : List (Event F)} {s : List (Item F)} (r : Run fl circ es s) (hp : ProperAll es)
    {i : Nat} {x : Item F} (hx : s[i]? = some x) (q : Measure)
    (hq : q = .length ∨ q = .elongation → ∀ n, Diameter x.blob.info.point n → n < 2 ^ 31) : ∃ s' a, Step fl circ s (.ask i q a) s' := by
  have hh := run_held hc r hp x (List.mem_of_getElem? hx)
  have : ∃ y, x.compute fl circ q = some y := by
    have hl : q = .length ∨ q = .elongation → ∃ r, longest x.blob.info.contour = some r := by
      intro h
      obtain ⟨n, hn⟩ := hh.solid.known.diameter
      have := hh.solid.length n hn
      rw [if_pos (hq h n hn)] at this
      obtain ⟨r, hr, _⟩ := Option.map_eq_some_iff.1 this
      exact ⟨r, hr⟩
    cases q with
    | area => exact ⟨_, rfl⟩
    | center => exact ⟨_, rfl⟩
    | circularity => exact ⟨_, rfl⟩
    | elongation =>
      obtain ⟨r, hr⟩ := hl (Or.inr rfl)
      simp only [Item.compute, Blob.getElongation]
      split
      · rw [hr]; exact ⟨_, rfl⟩
      · exact ⟨_, rfl⟩
    | height =>
      simp only [Item.compute, Blob.getHeight]
      split <;> exact ⟨_, rfl⟩
    | length =>
      obtain ⟨r, hr⟩ := hl (Or.inl rfl)
      simp only [Item.compute, Blob.getLength]
      split
      · rw [hr]; exact ⟨_, rfl⟩
      · exact ⟨_, rfl⟩
    | width =>
      simp only [Item.compute, Blob.getWidth]
      split <;> exact ⟨_, rfl⟩
    | size => exact ⟨_, rfl⟩
  obtain ⟨y, hy⟩ := this
  exact ⟨s.set i y, y.read q, .ask hx (by rw [Item.ask, hy]; rfl)⟩

/-- C162: a blob asked through a constant reference answers as its pixels demand when the value was computed before, and zero otherwise. -/
theorem C162_constant_exact (hc : Consistent fl circ) {es : List (Event F)} {s s' : List (Item F)} (r : Run fl circ es s) (hp : ProperAll es)
    {i : Nat} {q : Measure} {a : Answer F} (st : Step fl circ s (.read i q a) s') :
    s' = s ∧ ∃ x, s[i]? = some x ∧ (knows x q = true → Reports fl x.blob.info q a) ∧ (knows x q = false → a = zeroOf fl q) := by
  cases st with
  | @read _ _ x hx =>
    have hh := run_held hc r hp x (List.mem_of_getElem? hx)
    refine ⟨rfl, x, hx, fun hk => read_held hh hk, fun hk => ?_⟩
    cases q with
    | area => exact congrArg _ (hh.area.2 hk)
    | center => exact congrArg _ (hh.center.2 hk)
    | circularity => exact congrArg _ (hh.circularity.2 hk)
    | elongation => exact congrArg _ (hh.elongation.2 hk)
    | height => exact congrArg _ (hh.height.2 hk)
    | length => exact congrArg _ (hh.length.2 hk)
    | width => exact congrArg _ (hh.width.2 hk)
    | size => exact absurd hk (by simp [knows])

/-- C162: a value which was asked for is known from then on ... -/
theorem C162_known_after (hc : Consistent fl circ) {es : List (Event F)} {s s' : List (Item F)} (r : Run fl circ es s) (hp : ProperAll es)
    {i : Nat} {q : Measure} {a : Answer F} (st : Step fl circ s (.ask i q a) s') : ∃ y, s'[i]? = some y ∧ knows y q = true ∧ y.read q = a := by
  cases st with
  | @ask _ _ x y _ hx e =>
    have hh := run_held hc r hp x (List.mem_of_getElem? hx)
    simp only [Item.ask, Option.map_eq_some_iff] at e
    obtain ⟨y', ey, e2⟩ := e
    obtain ⟨rfl, rfl⟩ := Prod.mk.inj e2
    obtain ⟨hi, _⟩ := List.getElem?_eq_some_iff.1 hx
    exact ⟨y', by rw [List.getElem?_set_self hi], (compute_held hc hh ey).2.2, rfl⟩

/-- Where the circularity is known, by a search with limits of it or by a question, the centre is known too, without a question for it. -/
theorem C162_centre_known (hc : Consistent fl circ) {es : List (Event F)} {s : List (Item F)} (r : Run fl circ es s) (hp : ProperAll es)
    {x : Item F} (hx : x ∈ s) (hk : knows x .circularity = true) : knows x .center = true ∧ Reports fl x.blob.info .center (x.read .center) :=
  have h := (run_held hc r hp x hx).both hk
  ⟨h, read_held (run_held hc r hp x hx) h⟩

/-- ... and stays so, as the blob does, until the next search. -/
theorem C162_kept (hc : Consistent fl circ) {es : List (Event F)} {s s' : List (Item F)} (r : Run fl circ es s) (hp : ProperAll es)
    {e : Event F} (hf : ∀ c threw, e ≠ .find c threw) (st : Step fl circ s e s') :
    (s'.map (·.blob.info)).Perm (s.map (·.blob.info)) ∧ ∀ x, x ∈ s → ∃ y, y ∈ s' ∧ Grown x y := by
  cases st with
  | find e => exact absurd rfl (hf _ _)
  | @ask i q x y a hx e =>
    have hh := run_held hc r hp x (List.mem_of_getElem? hx)
    obtain ⟨_, _, _, e3⟩ := C162_answers_partial hc r hp (.ask hx e)
    refine ⟨by rw [e3], ?_⟩
    simp only [Item.ask, Option.map_eq_some_iff] at e
    obtain ⟨y', ey, e2⟩ := e
    obtain ⟨rfl, rfl⟩ := Prod.mk.inj e2
    obtain ⟨hi, hxi⟩ := List.getElem?_eq_some_iff.1 hx
    intro z hz
    obtain ⟨j, hj, rfl⟩ := List.getElem_of_mem hz
    by_cases hij : i = j
    · subst hij
      refine ⟨y', List.mem_iff_getElem.2 ⟨i, by simpa using hi, by simp⟩, ?_⟩
      rw [hxi]
      exact (compute_held hc hh ey).2.1
    · exact ⟨s[j], List.mem_iff_getElem.2 ⟨j, by simpa using hj, by simp [List.getElem_set, hij]⟩, Grown.refl _⟩
  | read hx => exact ⟨.refl _, fun x hx => ⟨x, hx, Grown.refl x⟩⟩
  | best _ _ _ => exact ⟨.refl _, fun x hx => ⟨x, hx, Grown.refl x⟩⟩
  | sort hperm _ => exact ⟨hperm.map _, fun x hx => ⟨x, hperm.mem_iff.2 hx, Grown.refl x⟩⟩

/-- Two answers of the same kind -/
theorem C162_same_answer (hc : Consistent fl circ) {es es' : List (Event F)} {s s' t t' : List (Item F)} (r : Run fl circ es s)
    (hp : ProperAll es) (r' : Run fl circ es' t) (hp' : ProperAll es') {i j : Nat} {q : Measure} {a b : Answer F} {x y : Item F}
    (hx : s[i]? = some x) (hy : t[j]? = some y) (hxy : x.blob.info = y.blob.info) (st : Step fl circ s (.ask i q a) s')
    (st' : Step fl circ t (.ask j q b) t') : a = b := by
  obtain ⟨x', h1, h2, h3⟩ := C162_known_after hc r hp st
  obtain ⟨y', k1, k2, k3⟩ := C162_known_after hc r' hp' st'
  have hx' := run_held hc (r.step st) (by
    intro c hm
    rcases List.mem_append.1 hm with hm | hm
    · exact hp c hm
    · simp at hm) x' (List.mem_of_getElem? h1)
  have hy' := run_held hc (r'.step st') (by
    intro c hm
    rcases List.mem_append.1 hm with hm | hm
    · exact hp' c hm
    · simp at hm) y' (List.mem_of_getElem? k1)
  have hxy' : x'.blob.info = y'.blob.info := by
    obtain ⟨_, _, _, e⟩ := C162_answers_partial hc r hp st
    obtain ⟨_, _, _, e'⟩ := C162_answers_partial hc r' hp' st'
    have e1 := congrArg (·[i]?) e
    have e2 := congrArg (·[j]?) e'
    simp [hx, h1] at e1
    simp [hy, k1] at e2
    rw [e1, e2, hxy]
  rw [← h3, ← k3]
  cases q with
  | area => simp only [Item.read]; rw [hx'.area.1 h2, hy'.area.1 k2, hxy']
  | center => simp only [Item.read]; rw [hx'.center.1 h2, hy'.center.1 k2, hxy']
  | circularity => simp only [Item.read]; rw [hx'.circularity.1 h2, hy'.circularity.1 k2, hxy']
  | elongation => simp only [Item.read]; rw [hx'.elongation.1 h2, hy'.elongation.1 k2, hxy']
  | height => exact congrArg _ (spans_unique (hx'.height.1 h2) (by rw [hxy']; exact hy'.height.1 k2))
  | length =>
    obtain ⟨n, n1, n2⟩ := hx'.length.1 h2
    obtain ⟨n', n1', n2'⟩ := hy'.length.1 k2
    rw [hxy'] at n1
    simp only [Item.read]
    rw [n2, n2', diameter_unique n1 n1']
  | width => exact congrArg _ (spans_unique (hx'.width.1 h2) (by rw [hxy']; exact hy'.width.1 k2))
  | size => simp only [Item.read]; rw [hxy']

/-- A search of the image of the examples, without limits and with some -/
def searchAll : Search Nat := ⟨blobMem, ⟨blobImg, 0, 0⟩, 5, 4, noLimits, 5⟩
def searchSome : Search Nat := ⟨blobMem, ⟨blobImg, 0, 0⟩, 5, 4, someLimits, 5⟩

/-- The circularity of the examples -/
def natCirc (_ : Rat × Rat) (b : BlobInfo) : Nat := b.point.length

theorem nat_consistent : Consistent natFloats natCirc := fun _ => rfl

theorem searchAll_proper : Proper searchAll := ⟨one_blob, rfl, by decide, fun h => by simp [searchAll, noLimits, FParam.on] at h⟩

theorem searchSome_proper : Proper searchSome := ⟨one_blob, rfl, by decide, fun _ => by decide⟩

/-- A detector after both searches and a rejected one -/
theorem detector_ex : ∃ s, Run natFloats natCirc [.find searchSome false, .find { searchSome with w := 6 } true, .find searchAll false] s ∧
    ProperAll [.find searchSome false, .find { searchSome with w := 6 } true, .find searchAll false] ∧
    s.map (fun x => x.blob.info.point.length) = [9, 1] := by
  obtain ⟨k1, _, e1, _⟩ := run_proper searchSome_proper some_limits_sane
  obtain ⟨k2, f2, e2, _⟩ := run_proper searchAll_proper none_limits_sane
  have r1 := Run.start.step (.find (circ := natCirc) (e1 []))
  have r2 := r1.step ((C162_rejected (c := { searchSome with w := 6 }) (Or.inl (by
    refine ⟨fun v hv => ?_, by decide, by decide, Or.inl ⟨_, List.mem_singleton.2 rfl, fun hf => absurd hf.inX (by decide)⟩⟩
    rw [List.mem_singleton.1 hv]
    exact ⟨by decide, by decide, by decide, by decide⟩)) r1 _ true).2 ⟨rfl, rfl⟩)
  have r3 := r2.step (.find (e2 _))
  refine ⟨_, r3, ?_, ?_⟩
  · intro c hc
    simp at hc
    rcases hc with rfl | rfl
    · exact searchSome_proper
    · exact searchAll_proper
  · have : sizes (findBy natFloats ⟨blobImg, 0, 0⟩ 5 4 noLimits 5 blobMem) = some [9, 1] := by decide +kernel
    have f2' : findBy natFloats ⟨blobImg, 0, 0⟩ 5 4 noLimits 5 blobMem = .ok k2 blobMem := f2
    rw [f2'] at this
    simpa [sizes, Item.of, Function.comp_def] using this

example : ∃ s x a s', s[0]? = some x ∧ Step natFloats natCirc s (.ask 0 .width a) s' ∧ Reports natFloats x.blob.info .width a := by
  obtain ⟨s, r, hp, hs⟩ := detector_ex
  obtain ⟨x, hx⟩ : ∃ x, s[0]? = some x := by
    match s, hs with
    | x :: _, _ => exact ⟨x, rfl⟩
  obtain ⟨s', a, st⟩ := C162_defined nat_consistent r hp hx .width (fun h => by simp at h)
  obtain ⟨x', hx', h, _⟩ := C162_answers_partial nat_consistent r hp st
  rw [hx] at hx'
  obtain rfl := Option.some.inj hx'
  exact ⟨s, x, a, s', hx, st, h⟩

/-- The theorems on searches apply to the detector of the example. -/
example : ∃ s kept, Run natFloats natCirc [.find searchSome false, .find { searchSome with w := 6 } true, .find searchAll false] s ∧
    findBy natFloats searchSome.v 5 4 someLimits 5 blobMem = .ok kept blobMem ∧ Step natFloats natCirc s (.find searchSome false) (kept.map (Item.of natFloats)) := by
  obtain ⟨s, r, _, _⟩ := detector_ex
  obtain ⟨kept, e, h⟩ := C162_search_again searchSome_proper some_limits_sane r
  exact ⟨s, kept, r, e, (h _ _).2 ⟨rfl, rfl⟩⟩

/-- C162 does not hold for blobs asked through a constant reference, as all results of `find` are: the width of a blob of 9 pixels is 0. -/
theorem C162_constant_wrong : ∃ (es : List (Event Nat)) (s : List (Item Nat)) (x : Item Nat), Run natFloats natCirc es s ∧ ProperAll es ∧
    s[0]? = some x ∧ x.blob.info.point.length = 9 ∧ Step natFloats natCirc s (.read 0 .width (.count 0)) s ∧
    ¬ Reports natFloats x.blob.info .width (.count 0) := by
  obtain ⟨k, f, e, hh⟩ := run_proper searchAll_proper none_limits_sane
  have hp : ProperAll [.find searchAll false] := by
    intro c hc
    simp at hc
    rw [hc]
    exact searchAll_proper
  have hs : sizes (findBy natFloats ⟨blobImg, 0, 0⟩ 5 4 noLimits 5 blobMem) = some [9, 1] := by decide +kernel
  obtain ⟨_, _, _, f', _, _, hv⟩ := C122_filters_partial (fl := natFloats) (thr := 5) one_blob rfl (by decide) noLimits
    (fun h => by simp [noLimits, FParam.on] at h) none_limits_sane
  have f2 : findBy natFloats ⟨blobImg, 0, 0⟩ 5 4 noLimits 5 blobMem = .ok k blobMem := f
  rw [f2] at f' hs
  obtain rfl := (Res.ok.inj f').1
  match k, e, hs, hv with
  | b :: k, e, hs, hv =>
    have hw : b.width = ⟨0, false⟩ := (hv b (by simp)).width.2 rfl
    have r := Run.start.step (.find (circ := natCirc) (e []))
    refine ⟨_, _, Item.of natFloats b, r, hp, rfl, ?_, ?_, ?_⟩
    · simp [sizes] at hs
      exact hs.1
    · have := Step.read (fl := natFloats) (circ := natCirc) (q := .width) (s := (b :: k).map (Item.of natFloats)) (i := 0) (x := Item.of natFloats b) rfl
      have er : (Item.of natFloats b).read .width = .count 0 := by simp only [Item.read, Item.of, hw]
      rw [er] at this
      exact this
    · rintro ⟨lo, hi, _, _, _, h⟩
      omega

/-! ### Edges -/

section Edges

open PV.Edge

variable {rnd fl : ℚ → ℚ}

theorem rowsFrom_nil (v : View) (w h : Nat) (P : Edge.Params) : rowsFrom rnd fl v w h P ([], []) = findRows rnd fl v w h P := by
  rw [rowsFrom, findRows]

theorem columnsFrom_nil (v : View) (w h : Nat) (P : Edge.Params) : columnsFrom rnd fl v w h P ([], []) = findColumns rnd fl v w h P := by
  rw [columnsFrom, findColumns]

/-- A search on an object is a search on a new one; if it throws, both lists are empty. -/
theorem again_eq (c : Edge.Search) (o : Lists) : again rnd fl c.v c.w c.h c.P c.m o = match Edge.find rnd fl c.v c.w c.h c.P c.m with
    | .ok r _ => some (false, r)
    | .throw _ => some (true, ([], []))
    | .ub => none := by
  obtain ⟨m, v, w, h, P⟩ := c
  simp only [again, helper, cleared, admit]
  cases h1 : verifyGray (μ := BMem) [v.img] m with
  | ub => rw [bind_ub h1, Edge.find, bind_ub h1]
  | throw m1 => rw [bind_throw h1, Edge.find, bind_throw h1]
  | ok _ m1 =>
    rw [bind_ok h1, Edge.find, bind_ok h1]
    cases h2 : validateRoi (μ := BMem) v w h m1 with
    | ub => rw [bind_ub h2, bind_ub h2]
    | throw m2 => rw [bind_throw h2, bind_throw h2]
    | ok _ m2 =>
      rw [bind_ok h2, bind_ok h2]
      cases h3 : P.verify (μ := BMem) m2 with
      | ub => rw [bind_ub h3]
      | throw m3 => rw [bind_throw h3]
      | ok _ m3 =>
        rw [bind_ok h3]
        by_cases hs : (P.horizontal ∧ w < 4) ∨ (¬ P.horizontal ∧ h < 4)
        · simp only [if_pos hs]
          rfl
        · simp only [if_neg hs]
          by_cases hh : P.horizontal = true
          · simp only [if_pos hh]
            rw [rowsFrom_nil]
            cases h4 : findRows rnd fl v w h P m3 with
            | ub => rw [bind_ub h4]
            | throw m4 => rw [bind_throw h4]
            | ok a m4 => rw [bind_ok h4]; rfl
          · simp only [if_neg hh]
            rw [columnsFrom_nil]
            cases h4 : findColumns rnd fl v w h P m3 with
            | ub => rw [bind_ub h4]
            | throw m4 => rw [bind_throw h4]
            | ok a m4 => rw [bind_ok h4]; rfl

theorem searches_append (cs : List Edge.Search) (c : Edge.Search) (o : Lists) :
    searches rnd fl (cs ++ [c]) o = (searches rnd fl cs o).bind fun o' => (again rnd fl c.v c.w c.h c.P c.m o').map (·.2) := by
  induction cs generalizing o with
  | nil =>
    simp only [List.nil_append, searches, Option.bind_some]
    cases again rnd fl c.v c.w c.h c.P c.m o <;> rfl
  | cons d cs ih =>
    simp only [List.cons_append, searches]
    cases again rnd fl d.v d.w d.h d.P d.m o with
    | none => rfl
    | some r => exact ih r.2

/-- C162: the edges of an object are those of its last search, whatever it was used for before. -/
theorem C162_edges_again {c : Edge.Search} (e : EdgeCall c.m c.v c.w c.h c.P) {cs : List Edge.Search} {o o' : Lists}
    (hs : searches rnd fl cs o = some o') :
    ∃ r, Edge.find rnd fl c.v c.w c.h c.P c.m = .ok r c.m ∧ searches rnd fl (cs ++ [c]) o = some r := by
  have : ∃ r, Edge.find rnd fl c.v c.w c.h c.P c.m = .ok r c.m := by
    by_cases h4 : 4 ≤ edgeLength c.P c.w c.h
    · exact ⟨_, find_ok e h4⟩
    · exact ⟨_, C57_short e (by omega)⟩
  obtain ⟨r, hr⟩ := this
  exact ⟨r, hr, by rw [searches_append, hs, Option.bind_some, again_eq, hr]; rfl⟩

/-- C162, what a rejected search leaves of the edges: nothing. -/
theorem C162_edges_rejected {c : Edge.Search} (hv : c.v.U32) (hw : c.w < 4294967296) (hh : c.h < 4294967296)
    (hbad : c.v.img.cc ≠ 1 ∨ ¬ c.v.Fits c.w c.h ∨ c.P.group = 0 ∨ c.P.skip = 0 ∨ c.P.contrast = 0) {cs : List Edge.Search} {o o' : Lists}
    (hs : searches rnd fl cs o = some o') :
    again rnd fl c.v c.w c.h c.P c.m o' = some (true, ([], [])) ∧ searches rnd fl (cs ++ [c]) o = some ([], []) := by
  have e : again rnd fl c.v c.w c.h c.P c.m o' = some (true, ([], [])) := by rw [again_eq, C57_rejects hv hw hh hbad]
  exact ⟨e, by rw [searches_append, hs, Option.bind_some, e]; rfl⟩

example : ∃ r, Edge.find id id edgeImg 6 2 edgeParams edgeMem = .ok r edgeMem ∧
    searches id id [⟨edgeMem, edgeImgT, 2, 6, edgeParams⟩, ⟨edgeMem, edgeImg, 6, 2, edgeParams⟩] ([], []) = some r :=
  C162_edges_again (c := ⟨edgeMem, edgeImg, 6, 2, edgeParams⟩) edgeCall_ex (cs := [⟨edgeMem, edgeImgT, 2, 6, edgeParams⟩])
    (o' := ([], [])) (by decide +kernel)

/-- C162 does not hold for edges: a search with a parameter equal to zero throws, and the points found before are lost. -/
theorem C162_edges_wrong : searches id id [⟨edgeMem, edgeImg, 6, 2, edgeParams⟩] ([], []) = some ([(5 / 2, 0), (5 / 2, 1)], []) ∧
    again id id edgeImg 6 2 { edgeParams with contrast := 0 } edgeMem ([(5 / 2, 0), (5 / 2, 1)], []) = some (true, ([], [])) := by
  constructor
  · decide +kernel
  · decide +kernel

end Edges

end PV.Props
