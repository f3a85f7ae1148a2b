import Verif.PropsBlobMeasure
/-
  C122, C123: all filters of a search for blobs, the best blob and sorting.
-/
namespace PV.Props

open PV.Blob

variable {m : BMem} {v : View} {w h : Nat} {thr : UInt8} {F : Type} {fl : Floats F}

/-! ### C122: the filters -/

/-- The limits of a filter are in order. -/
def FSane (fl : Floats F) (p : FParam F) : Prop := ∀ a b, p.minimum = some a → p.maximum = some b → fl.lt b a = false

/-- A value within the limits -/
def FWithin (fl : Floats F) (p : FParam F) (x : F) : Prop :=
  (∀ a, p.minimum = some a → fl.lt x a = false) ∧ ∀ b, p.maximum = some b → fl.lt b x = false

theorem fverify_ok {p : FParam F} (hp : FSane fl p) (m : BMem) : p.verify fl m = .ok () m := by
  obtain ⟨a, b⟩ := p
  rcases a with _ | a
  · exact congrFun throwIf_false m
  rcases b with _ | b
  · exact congrFun throwIf_false m
  · have := hp a b rfl rfl
    simp only [FParam.verify, this]
    exact congrFun throwIf_false m

theorem fverify_bad {p : FParam F} (hp : ¬ FSane fl p) (m : BMem) : p.verify fl m = .throw m := by
  obtain ⟨a, b⟩ := p
  rcases a with _ | a
  · exact absurd (fun _ _ h => by simp at h) hp
  rcases b with _ | b
  · exact absurd (fun _ _ _ h => by simp at h) hp
  · have : fl.lt b a = true := by
      cases e : fl.lt b a with
      | true => rfl
      | false =>
        refine absurd (fun a' b' h1 h2 => ?_) hp
        simp only [Option.some.injEq] at h1 h2
        rw [← h1, ← h2, e]
    simp only [FParam.verify, this]
    exact throwIf_true m

theorem fdrops_iff {p : FParam F} {x : F} : p.drops fl x = false ↔ FWithin fl p x := by
  obtain ⟨a, b⟩ := p
  unfold FParam.drops FWithin
  rcases a with _ | a <;> rcases b with _ | b <;> simp [and_comm]

theorem fdrops_off {p : FParam F} (hp : p.on = false) (x : F) : p.drops fl x = false := by
  obtain ⟨a, b⟩ := p
  unfold FParam.on at hp
  rcases a with _ | a <;> rcases b with _ | b <;> simp_all [FParam.drops]

theorem drops_off {p : Param} (hp : p.on = false) (x : Nat) : p.drops x = false := by
  obtain ⟨a, b⟩ := p
  unfold Param.on at hp
  rcases a with _ | a <;> rcases b with _ | b <;> simp_all [Param.drops]

theorem stage_eq {l : List BlobInfo} {f g : BlobInfo → Blob F} {on : Bool} {compute : Blob F → Option (Blob F)} {drops : Blob F → Bool}
    (hc : ∀ b, b ∈ l → on = true → compute (f b) = some (g b)) (hd : on = false → ∀ x, drops x = false) :
    stage on compute drops (l.map f) = some ((l.filter fun b => !drops (if on then g b else f b)).map fun b => if on then g b else f b) := by
  cases on with
  | false =>
    simp only [stage, Bool.false_eq_true, if_false]
    rw [List.filter_eq_self.2 fun b _ => by rw [hd rfl]; rfl]
  | true =>
    simp only [stage, if_true]
    have : (l.map f).mapM compute = some (l.map g) := by
      induction l with
      | nil => rfl
      | cons a l ih =>
        rw [List.map_cons, List.mapM_cons, hc a List.mem_cons_self rfl, ih fun b hb => hc b (List.mem_cons_of_mem _ hb)]
        rfl
    rw [this, Option.map_some, List.filter_map]
    rfl

/-- The six limits are in order. -/
structure LimitsSane (fl : Floats F) (lim : Limits F) : Prop where
  circularity : FSane fl lim.circularity
  elongation : FSane fl lim.elongation
  height : Sane lim.height
  length : FSane fl lim.length
  size : Sane lim.size
  width : Sane lim.width

/-- A blob within all limits; its extents and its length are those of its pixels. -/
structure InLimits (fl : Floats F) (lim : Limits F) (b : BlobInfo) : Prop where
  circularity : FWithin fl lim.circularity (fl.circularity b)
  elongation : FWithin fl lim.elongation (fl.elongation b)
  height : ∃ k, Spans (b.point.map Prod.snd) k ∧ Within lim.height k
  length : ∃ n, Diameter b.point n ∧ FWithin fl lim.length (fl.sqrt n)
  size : Within lim.size b.point.length
  width : ∃ k, Spans (b.point.map Prod.fst) k ∧ Within lim.width k

/-- A value of a blob in the result: computed when there was a limit, zero otherwise -/
def Stored {α : Type} (on : Bool) (x : Lazy α) (zero : α) (P : α → Prop) : Prop :=
  (on = true → x.found = true ∧ P x.value) ∧ (on = false → x = ⟨zero, false⟩)

/-- The values of a blob in the result -/
structure Values (fl : Floats F) (lim : Limits F) (x : Blob F) : Prop where
  circularity : Stored lim.circularity.on x.circularity fl.zero (· = fl.circularity x.info)
  elongation : Stored lim.elongation.on x.elongation fl.zero (· = fl.elongation x.info)
  height : Stored lim.height.on x.height 0 (Spans (x.info.point.map Prod.snd))
  length : Stored lim.length.on x.length fl.zero (fun y => ∃ n : Nat, Diameter x.info.point n ∧ y = fl.sqrt n)
  width : Stored lim.width.on x.width 0 (Spans (x.info.point.map Prod.fst))

/-- What is known of a blob: its extents and its length. -/
structure Known (b : BlobInfo) : Prop where
  nonempty : b.contour ≠ []
  height : Spans (b.point.map Prod.snd) (extent (b.contour.map Prod.snd))
  width : Spans (b.point.map Prod.fst) (extent (b.contour.map Prod.fst))
  diameter : ∃ n, Diameter b.point n

theorem known_of (o : One m v w h) {b : BlobInfo} (k : Shape v w h b) : Known b := by
  obtain ⟨rx, ry⟩ := view_room o
  obtain ⟨⟨q1, m1, e1⟩, ⟨q2, m2, e2⟩, ⟨q3, m3, e3⟩, ⟨q4, m4, e4⟩, e5⟩ := k.bounds rx ry
  have hx : ∀ l : List Nat, l = b.contour.map Prod.fst ∨ l = b.contour.map Prod.snd → l ≠ [] := by
    rintro l (rfl | rfl)
    · simpa using k.nonempty
    · simpa using k.nonempty
  have sx := spans_extent (l := b.contour.map Prod.fst) (hx _ (Or.inl rfl)) (by
    intro a ha
    obtain ⟨q, hq, rfl⟩ := List.mem_map.mp ha
    have := k.inside q (k.sub q hq)
    omega)
  have sy := spans_extent (l := b.contour.map Prod.snd) (hx _ (Or.inr rfl)) (by
    intro a ha
    obtain ⟨q, hq, rfl⟩ := List.mem_map.mp ha
    have := k.inside q (k.sub q hq)
    omega)
  have cx : Spans (b.contour.map Prod.fst) (q1.1 - q2.1 + 1) :=
    ⟨q2.1, q1.1, List.mem_map_of_mem m2, List.mem_map_of_mem m1, fun a ha => by
      obtain ⟨q, hq, rfl⟩ := List.mem_map.1 ha
      have := e5 q (k.sub q hq)
      omega, rfl⟩
  have cy : Spans (b.contour.map Prod.snd) (q3.2 - q4.2 + 1) :=
    ⟨q4.2, q3.2, List.mem_map_of_mem m4, List.mem_map_of_mem m3, fun a ha => by
      obtain ⟨q, hq, rfl⟩ := List.mem_map.1 ha
      have := e5 q (k.sub q hq)
      omega, rfl⟩
  refine ⟨k.nonempty, ?_, ?_, ?_⟩
  · rw [spans_unique sy cy]
    exact ⟨q4.2, q3.2, List.mem_map_of_mem (k.sub _ m4), List.mem_map_of_mem (k.sub _ m3), fun a ha => by
      obtain ⟨q, hq, rfl⟩ := List.mem_map.1 ha
      have := e5 q hq
      omega, rfl⟩
  · rw [spans_unique sx cx]
    exact ⟨q2.1, q1.1, List.mem_map_of_mem (k.sub _ m2), List.mem_map_of_mem (k.sub _ m1), fun a ha => by
      obtain ⟨q, hq, rfl⟩ := List.mem_map.1 ha
      have := e5 q hq
      omega, rfl⟩
  · obtain ⟨p, _, q, _, hd⟩ := k.diameter
    exact ⟨_, hd⟩

/-- The filters keep the blobs within the limits, and store the values asked for. -/
theorem apply_run (lim : Limits F) {all : List BlobInfo} (hk : ∀ b, b ∈ all → Known b)
    (hlen : ∀ b, b ∈ all → lim.length.on = true ∨ lim.elongation.on = true → ∃ (r : Longest) (n : Nat), longest b.contour = some r ∧
      Diameter b.point n ∧ r.distance = n) :
    ∃ kept, lim.apply fl (all.map (Blob.new fl)) = some kept ∧ (kept.map (·.info)).Sublist all ∧
      (∀ b, b ∈ all → (b ∈ kept.map (·.info) ↔ InLimits fl lim b)) ∧ ∀ x, x ∈ kept → Values fl lim x := by
  -- the values one after another
  let len : BlobInfo → F := fun b => match longest b.contour with
    | some r => fl.sqrt r.distance
    | none => fl.zero
  let f0 : BlobInfo → Blob F := Blob.new fl
  let f1 : BlobInfo → Blob F := fun b => if lim.circularity.on then { f0 b with circularity := ⟨fl.circularity b, true⟩ } else f0 b
  let f2 : BlobInfo → Blob F := fun b => if lim.elongation.on then { f1 b with elongation := ⟨fl.elongation b, true⟩ } else f1 b
  let f3 : BlobInfo → Blob F := fun b => if lim.height.on then { f2 b with height := ⟨extent (b.contour.map Prod.snd), true⟩ } else f2 b
  let f4 : BlobInfo → Blob F := fun b => if lim.length.on then { f3 b with length := ⟨len b, true⟩ } else f3 b
  let f5 : BlobInfo → Blob F := fun b => if lim.size.on then f4 b else f4 b
  let f6 : BlobInfo → Blob F := fun b => if lim.width.on then { f5 b with width := ⟨extent (b.contour.map Prod.fst), true⟩ } else f5 b
  have i1 : ∀ b, (f1 b).info = b := fun b => by simp only [f1]; split <;> rfl
  have i2 : ∀ b, (f2 b).info = b := fun b => by simp only [f2]; split <;> exact i1 b
  have i3 : ∀ b, (f3 b).info = b := fun b => by simp only [f3]; split <;> exact i2 b
  have i4 : ∀ b, (f4 b).info = b := fun b => by simp only [f4]; split <;> exact i3 b
  have i5 : ∀ b, (f5 b).info = b := fun b => by simp only [f5]; split <;> exact i4 b
  have i6 : ∀ b, (f6 b).info = b := fun b => by simp only [f6]; split <;> exact i5 b
  -- no value is found before its turn
  have e1 : ∀ b, (f1 b).elongation = ⟨fl.zero, false⟩ := fun b => by simp only [f1]; split <;> rfl
  have h1 : ∀ b, (f1 b).height = ⟨0, false⟩ := fun b => by simp only [f1]; split <;> rfl
  have h2 : ∀ b, (f2 b).height = ⟨0, false⟩ := fun b => by simp only [f2]; split <;> exact h1 b
  have l1 : ∀ b, (f1 b).length = ⟨fl.zero, false⟩ := fun b => by simp only [f1]; split <;> rfl
  have l2 : ∀ b, (f2 b).length = ⟨fl.zero, false⟩ := fun b => by simp only [f2]; split <;> exact l1 b
  have l3 : ∀ b, (f3 b).length = ⟨fl.zero, false⟩ := fun b => by simp only [f3]; split <;> exact l2 b
  have w1 : ∀ b, (f1 b).width = ⟨0, false⟩ := fun b => by simp only [f1]; split <;> rfl
  have w2 : ∀ b, (f2 b).width = ⟨0, false⟩ := fun b => by simp only [f2]; split <;> exact w1 b
  have w3 : ∀ b, (f3 b).width = ⟨0, false⟩ := fun b => by simp only [f3]; split <;> exact w2 b
  have w4 : ∀ b, (f4 b).width = ⟨0, false⟩ := fun b => by simp only [f4]; split <;> exact w3 b
  have w5 : ∀ b, (f5 b).width = ⟨0, false⟩ := fun b => by simp only [f5]; split <;> exact w4 b
  -- no value is lost after its turn
  have c6 : ∀ b, (f6 b).circularity = (f1 b).circularity := fun b => by
    simp only [f6, f5, f4, f3, f2]
    repeat' split
    all_goals rfl
  have e6 : ∀ b, (f6 b).elongation = (f2 b).elongation := fun b => by
    simp only [f6, f5, f4, f3]
    repeat' split
    all_goals rfl
  have h6 : ∀ b, (f6 b).height = (f3 b).height := fun b => by
    simp only [f6, f5, f4]
    repeat' split
    all_goals rfl
  have l6 : ∀ b, (f6 b).length = (f4 b).length := fun b => by
    simp only [f6, f5]
    repeat' split
    all_goals rfl
  -- the stages
  let a1 := all.filter fun b => !lim.circularity.drops fl (f1 b).circularity.value
  let a2 := a1.filter fun b => !lim.elongation.drops fl (f2 b).elongation.value
  let a3 := a2.filter fun b => !lim.height.drops (f3 b).height.value
  let a4 := a3.filter fun b => !lim.length.drops fl (f4 b).length.value
  let a5 := a4.filter fun b => !lim.size.drops (f5 b).info.point.length
  let a6 := a5.filter fun b => !lim.width.drops (f6 b).width.value
  have m1 : ∀ b, b ∈ a1 → b ∈ all := fun b hb => (List.mem_filter.1 hb).1
  have m2 : ∀ b, b ∈ a2 → b ∈ all := fun b hb => m1 b ((List.mem_filter.1 hb).1)
  have m3 : ∀ b, b ∈ a3 → b ∈ all := fun b hb => m2 b ((List.mem_filter.1 hb).1)
  have m4 : ∀ b, b ∈ a4 → b ∈ all := fun b hb => m3 b ((List.mem_filter.1 hb).1)
  have m5 : ∀ b, b ∈ a5 → b ∈ all := fun b hb => m4 b ((List.mem_filter.1 hb).1)
  have m6 : ∀ b, b ∈ a6 → b ∈ all := fun b hb => m5 b ((List.mem_filter.1 hb).1)
  have s1 : stage lim.circularity.on (Blob.getCircularity fl) (fun b => lim.circularity.drops fl b.circularity.value) (all.map f0) =
      some (a1.map f1) := by
    refine stage_eq (g := fun b => { f0 b with circularity := ⟨fl.circularity b, true⟩ }) (fun b hb _ => ?_) (fun hoff x => fdrops_off hoff _)
    unfold Blob.getCircularity
    rw [if_pos]
    · rfl
    · simpa [f0, Blob.new] using (hk b hb).nonempty
  have s2 : stage lim.elongation.on (Blob.getElongation fl) (fun b => lim.elongation.drops fl b.elongation.value) (a1.map f1) =
      some (a2.map f2) := by
    refine stage_eq (g := fun b => { f1 b with elongation := ⟨fl.elongation b, true⟩ }) (fun b hb hon => ?_) (fun hoff x => fdrops_off hoff _)
    obtain ⟨r, _, hr, _⟩ := hlen b (m1 b hb) (Or.inr hon)
    unfold Blob.getElongation
    rw [if_pos (by rw [e1, i1]; simpa using (hk b (m1 b hb)).nonempty)]
    simp only [i1, hr, Option.map_some]
  have s3 : stage lim.height.on Blob.getHeight (fun b => lim.height.drops b.height.value) (a2.map f2) = some (a3.map f3) := by
    refine stage_eq (g := fun b => { f2 b with height := ⟨extent (b.contour.map Prod.snd), true⟩ }) (fun b hb hon => ?_)
      (fun hoff x => drops_off hoff _)
    unfold Blob.getHeight
    rw [if_pos (by rw [h2, i2]; simpa using (hk b (m2 b hb)).nonempty)]
    simp only [i2]
  have s4 : stage lim.length.on (Blob.getLength fl) (fun b => lim.length.drops fl b.length.value) (a3.map f3) = some (a4.map f4) := by
    refine stage_eq (g := fun b => { f3 b with length := ⟨len b, true⟩ }) (fun b hb hon => ?_) (fun hoff x => fdrops_off hoff _)
    obtain ⟨r, _, hr, _⟩ := hlen b (m3 b hb) (Or.inl hon)
    unfold Blob.getLength
    rw [if_pos (by rw [l3, i3]; simpa using (hk b (m3 b hb)).nonempty)]
    simp only [i3, hr, Option.map_some, len]
  have s5 : stage lim.size.on some (fun b => lim.size.drops b.info.point.length) (a4.map f4) = some (a5.map f5) := by
    exact stage_eq (g := f4) (fun b hb hon => rfl) (fun hoff x => drops_off hoff _)
  have s6 : stage lim.width.on Blob.getWidth (fun b => lim.width.drops b.width.value) (a5.map f5) = some (a6.map f6) := by
    refine stage_eq (g := fun b => { f5 b with width := ⟨extent (b.contour.map Prod.fst), true⟩ }) (fun b hb hon => ?_)
      (fun hoff x => drops_off hoff _)
    unfold Blob.getWidth
    rw [if_pos (by rw [w5, i5]; simpa using (hk b (m5 b hb)).nonempty)]
    simp only [i5]
  have hinfo : (a6.map f6).map (·.info) = a6 := by
    rw [List.map_map]
    refine (List.map_congr_left fun b _ => ?_).trans (List.map_id a6)
    exact i6 b
  refine ⟨a6.map f6, ?_, ?_, fun b hb => ?_, fun x hx => ?_⟩
  · unfold Limits.apply
    rw [show all.map (Blob.new fl) = all.map f0 from rfl]
    simp only [s1, s2, s3, s4, s5, s6, Option.bind_eq_bind, Option.bind_some]
  · rw [hinfo]
    exact (((((List.filter_sublist).trans List.filter_sublist).trans List.filter_sublist).trans List.filter_sublist).trans
      List.filter_sublist).trans List.filter_sublist
  · rw [hinfo]
    have kb := hk b hb
    -- with or without the filter
    have d1 : lim.circularity.drops fl (f1 b).circularity.value = lim.circularity.drops fl (fl.circularity b) := by
      by_cases hon : lim.circularity.on = true
      · simp only [f1, if_pos hon]
      · rw [fdrops_off (by simpa using hon), fdrops_off (by simpa using hon)]
    have d2 : lim.elongation.drops fl (f2 b).elongation.value = lim.elongation.drops fl (fl.elongation b) := by
      by_cases hon : lim.elongation.on = true
      · simp only [f2, if_pos hon]
      · rw [fdrops_off (by simpa using hon), fdrops_off (by simpa using hon)]
    have d3 : lim.height.drops (f3 b).height.value = lim.height.drops (extent (b.contour.map Prod.snd)) := by
      by_cases hon : lim.height.on = true
      · simp only [f3, if_pos hon]
      · rw [drops_off (by simpa using hon), drops_off (by simpa using hon)]
    have d6 : lim.width.drops (f6 b).width.value = lim.width.drops (extent (b.contour.map Prod.fst)) := by
      by_cases hon : lim.width.on = true
      · simp only [f6, if_pos hon]
      · rw [drops_off (by simpa using hon), drops_off (by simpa using hon)]
    obtain ⟨n, hn⟩ := kb.diameter
    have d4 : lim.length.drops fl (f4 b).length.value = lim.length.drops fl (fl.sqrt n) := by
      by_cases hon : lim.length.on = true
      · obtain ⟨r, n', hr, hn', hrn⟩ := hlen b hb (Or.inl hon)
        simp only [f4, if_pos hon, len, hr, hrn, diameter_unique hn' hn]
      · rw [fdrops_off (by simpa using hon), fdrops_off (by simpa using hon)]
    simp only [a6, a5, a4, a3, a2, a1, List.mem_filter, d1, d2, d3, d4, d6, i5, Bool.not_eq_true', drops_iff, fdrops_iff]
    constructor
    · rintro ⟨⟨⟨⟨⟨⟨_, t1⟩, t2⟩, t3⟩, t4⟩, t5⟩, t6⟩
      exact ⟨t1, t2, ⟨_, kb.height, t3⟩, ⟨n, hn, t4⟩, t5, ⟨_, kb.width, t6⟩⟩
    · rintro ⟨t1, t2, ⟨k3, u3, t3⟩, ⟨k4, u4, t4⟩, t5, ⟨k6, u6, t6⟩⟩
      rw [spans_unique u3 kb.height] at t3
      rw [spans_unique u6 kb.width] at t6
      rw [diameter_unique u4 hn] at t4
      exact ⟨⟨⟨⟨⟨⟨hb, t1⟩, t2⟩, t3⟩, t4⟩, t5⟩, t6⟩
  · obtain ⟨b, hb, rfl⟩ := List.mem_map.1 hx
    have kb := hk b (m6 b hb)
    refine ⟨?_, ?_, ?_, ?_, ?_⟩
    · rw [c6, i6]
      constructor
      · intro hon
        simp only [f1, if_pos hon]
        exact ⟨trivial, trivial⟩
      · intro hoff
        simp only [f1, hoff, Bool.false_eq_true, if_false]
        rfl
    · rw [e6, i6]
      constructor
      · intro hon
        simp only [f2, if_pos hon]
        exact ⟨trivial, trivial⟩
      · intro hoff
        simp only [f2, hoff, Bool.false_eq_true, if_false]
        exact e1 b
    · rw [h6, i6]
      constructor
      · intro hon
        simp only [f3, if_pos hon]
        exact ⟨trivial, kb.height⟩
      · intro hoff
        simp only [f3, hoff, Bool.false_eq_true, if_false]
        exact h2 b
    · rw [l6, i6]
      constructor
      · intro hon
        obtain ⟨r, n, hr, hn, hrn⟩ := hlen b (m6 b hb) (Or.inl hon)
        simp only [f4, if_pos hon]
        exact ⟨trivial, n, hn, by simp only [len, hr, hrn]⟩
      · intro hoff
        simp only [f4, hoff, Bool.false_eq_true, if_false]
        exact l3 b
    · rw [i6]
      constructor
      · intro hon
        simp only [f6, if_pos hon]
        exact ⟨trivial, kb.width⟩
      · intro hoff
        simp only [f6, hoff, Bool.false_eq_true, if_false]
        exact w5 b

/-- The region is small enough for the lengths, when they are asked for. -/
def Fits (lim : Limits F) (w h : Nat) : Prop :=
  lim.length.on = true ∨ lim.elongation.on = true → (w - 1) * (w - 1) + (h - 1) * (h - 1) < 2 ^ 31

/-- C122, what holds: a search with limits on any of the six criteria gives exactly the blobs within all of them, in the order of the search without
    limits.  `partial`: only in regions whose squared diagonal fits into 31 bits (see `C119_wrong`). -/
theorem C122_filters_partial (o : One m v w h) (cc : v.img.cc = 1) (small : (w + 2) * (h + 2) < 2 ^ 32) (lim : Limits F)
    (fits : Fits lim w h) (sane : LimitsSane fl lim) :
    ∃ all kept, find v w h Params.none thr m = .ok all m ∧ findBy fl v w h lim thr m = .ok kept m ∧ (kept.map (·.info)).Sublist all ∧
      (∀ b, b ∈ all → (b ∈ kept.map (·.info) ↔ InLimits fl lim b)) ∧ ∀ x, x ∈ kept → Values fl lim x := by
  obtain ⟨all, e, hs⟩ := find_shapes (thr := thr) o cc small
  obtain ⟨kept, k1, k2, k3, k4⟩ := apply_run (fl := fl) lim (fun b hb => known_of o (hs b hb)) (fun b hb hon => by
    obtain ⟨p, _, q, _, hd⟩ := (hs b hb).diameter
    obtain ⟨r, e1, e2, _⟩ := ((hs b hb).longest o small hd).1 (by have := dist2_room (hs b hb) hd; have := fits hon; omega)
    exact ⟨r, _, e1, hd, e2⟩)
  refine ⟨all, kept, e, ?_, k2, k3, k4⟩
  have es : search v w h Params.none thr m = .ok all m := by
    obtain ⟨n1, n2, n3⟩ := none_sane
    rw [find, bind_ok (validate_on_ok (vs := [v]) (by simp; exact ⟨o.wf, o.fit⟩)), bind_ok (gray_ok (by simp [cc])),
      bind_ok (verify_ok n1 m), bind_ok (verify_ok n2 m), bind_ok (verify_ok n3 m)] at e
    exact e
  rw [findBy, bind_ok (validate_on_ok (vs := [v]) (by simp; exact ⟨o.wf, o.fit⟩)), bind_ok (gray_ok (by simp [cc])),
    bind_ok (fverify_ok sane.circularity m), bind_ok (fverify_ok sane.elongation m), bind_ok (verify_ok sane.height m),
    bind_ok (fverify_ok sane.length m), bind_ok (verify_ok sane.size m), bind_ok (verify_ok sane.width m), bind_ok es, k1]
  rfl

/-- C122: limits out of order are rejected, whichever criterion they are for. -/
theorem C122_rejects (o : One m v w h) (cc : v.img.cc = 1) (lim : Limits F) (bad : ¬ LimitsSane fl lim) :
    findBy fl v w h lim thr m = .throw m := by
  rw [findBy, bind_ok (validate_on_ok (vs := [v]) (by simp; exact ⟨o.wf, o.fit⟩)), bind_ok (gray_ok (by simp [cc]))]
  by_cases h1 : FSane fl lim.circularity
  · rw [bind_ok (fverify_ok h1 m)]
    by_cases h2 : FSane fl lim.elongation
    · rw [bind_ok (fverify_ok h2 m)]
      by_cases h3 : Sane lim.height
      · rw [bind_ok (verify_ok h3 m)]
        by_cases h4 : FSane fl lim.length
        · rw [bind_ok (fverify_ok h4 m)]
          by_cases h5 : Sane lim.size
          · rw [bind_ok (verify_ok h5 m)]
            by_cases h6 : Sane lim.width
            · exact absurd ⟨h1, h2, h3, h4, h5, h6⟩ bad
            · rw [bind_throw (verify_bad h6 m)]
          · rw [bind_throw (verify_bad h5 m)]
        · rw [bind_throw (fverify_bad h4 m)]
      · rw [bind_throw (verify_bad h3 m)]
    · rw [bind_throw (fverify_bad h2 m)]
  · rw [bind_throw (fverify_bad h1 m)]

/-! ### C123: the best blob -/

/-- The first blob is below the second, measured by their pixels. -/
def Below (fl : Floats F) : Criterion → BlobInfo → BlobInfo → Prop
  | .circularity, a, b => fl.lt (fl.circularity a) (fl.circularity b) = true
  | .elongation, a, b => fl.lt (fl.elongation a) (fl.elongation b) = true
  | .height, a, b => ∃ i j, Spans (a.point.map Prod.snd) i ∧ Spans (b.point.map Prod.snd) j ∧ i < j
  | .length, a, b => ∃ i j : Nat, Diameter a.point i ∧ Diameter b.point j ∧ fl.lt (fl.sqrt i) (fl.sqrt j) = true
  | .size, a, b => a.point.length < b.point.length
  | .width, a, b => ∃ i j, Spans (a.point.map Prod.fst) i ∧ Spans (b.point.map Prod.fst) j ∧ i < j

/-- There was a limit for this criterion in the search; the size needs none. -/
def Active (lim : Limits F) : Criterion → Prop
  | .circularity => lim.circularity.on = true
  | .elongation => lim.elongation.on = true
  | .height => lim.height.on = true
  | .length => lim.length.on = true
  | .size => True
  | .width => lim.width.on = true

/-- Numbers are compared as usual; no number is a NaN. -/
structure Ordered (fl : Floats F) : Prop where
  asymm : ∀ a b, fl.lt a b = true → fl.lt b a = false
  neg : ∀ a b c, fl.lt a b = false → fl.lt b c = false → fl.lt a c = false

theorem less_below {lim : Limits F} {c : Criterion} (act : Active lim c) {x y : Blob F} (hx : Values fl lim x) (hy : Values fl lim y) :
    less fl c x y = true ↔ Below fl c x.info y.info := by
  cases c with
  | circularity =>
    simp only [less, Below]
    rw [(hx.circularity.1 act).2, (hy.circularity.1 act).2]
  | elongation =>
    simp only [less, Below]
    rw [(hx.elongation.1 act).2, (hy.elongation.1 act).2]
  | height =>
    simp only [less, Below, decide_eq_true_eq]
    have sx := (hx.height.1 act).2
    have sy := (hy.height.1 act).2
    constructor
    · exact fun hlt => ⟨_, _, sx, sy, hlt⟩
    · rintro ⟨i, j, hi, hj, hlt⟩
      rw [spans_unique sx hi, spans_unique sy hj]
      exact hlt
  | length =>
    simp only [less, Below]
    obtain ⟨_, i, hi, ei⟩ := hx.length.1 act
    obtain ⟨_, j, hj, ej⟩ := hy.length.1 act
    rw [ei, ej]
    constructor
    · exact fun hlt => ⟨_, _, hi, hj, hlt⟩
    · rintro ⟨i', j', hi', hj', hlt⟩
      rw [diameter_unique hi hi', diameter_unique hj hj']
      exact hlt
  | size => simp only [less, Below, decide_eq_true_eq]
  | width =>
    simp only [less, Below, decide_eq_true_eq]
    have sx := (hx.width.1 act).2
    have sy := (hy.width.1 act).2
    constructor
    · exact fun hlt => ⟨_, _, sx, sy, hlt⟩
    · rintro ⟨i, j, hi, hj, hlt⟩
      rw [spans_unique sx hi, spans_unique sy hj]
      exact hlt

theorem less_asymm (ord : Ordered fl) (c : Criterion) (a b : Blob F) (hlt : less fl c a b = true) : less fl c b a = false := by
  cases c <;> simp only [less, decide_eq_true_eq, decide_eq_false_iff_not] at hlt ⊢
  · exact ord.asymm _ _ hlt
  · exact ord.asymm _ _ hlt
  · omega
  · exact ord.asymm _ _ hlt
  · omega
  · omega

theorem less_neg (ord : Ordered fl) (c : Criterion) (a b d : Blob F) (h1 : less fl c a b = false) (h2 : less fl c b d = false) :
    less fl c a d = false := by
  cases c <;> simp only [less, decide_eq_false_iff_not] at h1 h2 ⊢
  · exact ord.neg _ _ _ h1 h2
  · exact ord.neg _ _ _ h1 h2
  · omega
  · exact ord.neg _ _ _ h1 h2
  · omega
  · omega

/-- `std::max_element` gives the first of the greatest. -/
theorem best_run (ord : Ordered fl) (c : Criterion) (l : List (Blob F)) :
    ∀ (pre : List (Blob F)) (a : Blob F) (mid : List (Blob F)), (∀ y ∈ pre, less fl c y a = true) → (∀ y ∈ mid, less fl c a y = false) →
    ∃ pre' post', pre ++ a :: mid ++ l = pre' ++ l.foldl (fun m b => if less fl c m b then b else m) a :: post' ∧
      (∀ y ∈ pre', less fl c y (l.foldl (fun m b => if less fl c m b then b else m) a) = true) ∧
      ∀ y ∈ post', less fl c (l.foldl (fun m b => if less fl c m b then b else m) a) y = false := by
  induction l with
  | nil => exact fun pre a mid h1 h2 => ⟨pre, mid, by simp, h1, h2⟩
  | cons b l ih =>
    intro pre a mid h1 h2
    rw [List.foldl_cons]
    cases hlt : less fl c a b with
    | true =>
      simp only [if_true]
      obtain ⟨pre', post', e, k1, k2⟩ := ih (pre ++ a :: mid) b [] (by
        intro y hy
        cases hyb : less fl c y b with
        | true => rfl
        | false =>
          exfalso
          rcases List.mem_append.1 hy with hy | hy
          · have := less_neg ord c y b a hyb (less_asymm ord c a b hlt)
            rw [h1 y hy] at this
            exact absurd this (by simp)
          · rcases List.mem_cons.1 hy with rfl | hy
            · rw [hlt] at hyb
              exact absurd hyb (by simp)
            · have := less_neg ord c a y b (h2 y hy) hyb
              rw [hlt] at this
              exact absurd this (by simp)) (by simp)
      exact ⟨pre', post', by rw [← e]; simp, k1, k2⟩
    | false =>
      simp only [Bool.false_eq_true, if_false]
      obtain ⟨pre', post', e, k1, k2⟩ := ih pre a (mid ++ [b]) h1 (by
        intro y hy
        rcases List.mem_append.1 hy with hy | hy
        · exact h2 y hy
        · rw [List.mem_singleton.1 hy]
          exact hlt)
      exact ⟨pre', post', by rw [← e]; simp, k1, k2⟩

/-- C123, the best blob: after a search with a limit on the criterion (or for the size), `getBestBlob` gives the first of the greatest blobs. -/
theorem C123_best_partial (ord : Ordered fl) (o : One m v w h) (cc : v.img.cc = 1) (small : (w + 2) * (h + 2) < 2 ^ 32) (lim : Limits F)
    (fits : Fits lim w h) (sane : LimitsSane fl lim) {c : Criterion} (act : Active lim c) :
    ∃ kept, findBy fl v w h lim thr m = .ok kept m ∧ (kept = [] → best fl c kept = none) ∧ (kept ≠ [] → ∃ x pre post,
      best fl c kept = some x ∧ kept = pre ++ x :: post ∧ (∀ y ∈ pre, Below fl c y.info x.info) ∧ ∀ y ∈ post, ¬ Below fl c x.info y.info) := by
  obtain ⟨all, kept, _, e, _, _, hv⟩ := C122_filters_partial (thr := thr) o cc small lim fits sane
  refine ⟨kept, e, fun hnil => by rw [hnil]; rfl, fun hne => ?_⟩
  match kept, hne, hv with
  | a :: l, _, hv =>
    obtain ⟨pre, post, e1, k1, k2⟩ := best_run ord c l [] a [] (by simp) (by simp)
    simp only [List.nil_append, List.cons_append] at e1
    refine ⟨_, pre, post, rfl, e1, fun y hy => ?_, fun y hy hb => ?_⟩
    · exact (less_below act (hv y (by rw [e1]; simp [hy])) (hv _ (by rw [e1]; simp))).1 (k1 y hy)
    · have := (less_below act (hv _ (by rw [e1]; simp)) (hv y (by rw [e1]; simp [hy]))).2 hb
      rw [k2 y hy] at this
      exact absurd this (by simp)

/-- C123, sorting: whatever `std::sort` does, the same blobs are in descending order afterwards.  `partial`: the header speaks of ascending order. -/
theorem C123_sort_partial (o : One m v w h) (cc : v.img.cc = 1) (small : (w + 2) * (h + 2) < 2 ^ 32) (lim : Limits F)
    (fits : Fits lim w h) (sane : LimitsSane fl lim) {c : Criterion} (act : Active lim c) :
    ∃ kept, findBy fl v w h lim thr m = .ok kept m ∧ ∀ after, SortedBy fl c kept after →
      after.Perm kept ∧ after.Pairwise fun a b => ¬ Below fl c a.info b.info := by
  obtain ⟨all, kept, _, e, _, _, hv⟩ := C122_filters_partial (thr := thr) o cc small lim fits sane
  refine ⟨kept, e, fun after hs => ⟨hs.1, ?_⟩⟩
  refine hs.2.imp_of_mem fun {a b} ha hb hl hlt => ?_
  rw [(less_below act (hv a (hs.1.mem_iff.1 ha)) (hv b (hs.1.mem_iff.1 hb))).2 hlt] at hl
  exact absurd hl (by simp)

/-- C123, without a limit on the criterion: the first blob is returned as the best, and sorting may leave any order. -/
theorem C123_unmeasured (hz : fl.lt fl.zero fl.zero = false) (o : One m v w h) (cc : v.img.cc = 1) (small : (w + 2) * (h + 2) < 2 ^ 32)
    (lim : Limits F) (fits : Fits lim w h) (sane : LimitsSane fl lim) {c : Criterion} (act : ¬ Active lim c) :
    ∃ kept, findBy fl v w h lim thr m = .ok kept m ∧ best fl c kept = kept.head? ∧ ∀ after, SortedBy fl c kept after ↔ after.Perm kept := by
  obtain ⟨all, kept, _, e, _, _, hv⟩ := C122_filters_partial (thr := thr) o cc small lim fits sane
  have hl : ∀ x, x ∈ kept → ∀ y, y ∈ kept → less fl c x y = false := by
    intro x hx y hy
    have vx := hv x hx
    have vy := hv y hy
    cases c <;> simp only [Active, Bool.not_eq_true] at act <;> simp only [less]
    · rw [vx.circularity.2 act, vy.circularity.2 act]
      exact hz
    · rw [vx.elongation.2 act, vy.elongation.2 act]
      exact hz
    · rw [vx.height.2 act, vy.height.2 act]
      rfl
    · rw [vx.length.2 act, vy.length.2 act]
      exact hz
    · exact absurd trivial act
    · rw [vx.width.2 act, vy.width.2 act]
      rfl
  refine ⟨kept, e, ?_, fun after => ⟨fun hs => hs.1, fun hp => ⟨hp, ?_⟩⟩⟩
  · match kept, hl with
    | [], _ => rfl
    | a :: l, hl =>
      simp only [best, List.head?_cons, Option.some.injEq]
      have : ∀ l' : List (Blob F), (∀ y ∈ l', less fl c a y = false) → l'.foldl (fun m b => if less fl c m b then b else m) a = a := by
        intro l'
        induction l' with
        | nil => exact fun _ => rfl
        | cons b l' ih =>
          intro hb
          rw [List.foldl_cons, hb b List.mem_cons_self]
          exact ih fun y hy => hb y (List.mem_cons_of_mem _ hy)
      exact this l fun y hy => hl a List.mem_cons_self y (List.mem_cons_of_mem _ hy)
  · exact List.pairwise_iff_forall_sublist.2 fun {a b} hs => hl a (hp.mem_iff.1 (hs.subset (by simp))) b (hp.mem_iff.1 (hs.subset (by simp)))

/-- Numbers for the examples: naturals, the square of a length in place of the length, and the size for the other two measures -/
def natFloats : Floats Nat where
  rnd x := x
  zero := 0
  lt a b := decide (a < b)
  sqrt n := n.toNat
  circularity b := b.point.length
  elongation b := b.point.length

theorem nat_ordered : Ordered natFloats :=
  ⟨fun a b h => by simp [natFloats] at *; omega, fun a b c h1 h2 => by simp [natFloats] at *; omega⟩

/-- No limits -/
def noLimits : Limits Nat := ⟨⟨none, none⟩, ⟨none, none⟩, ⟨none, none⟩, ⟨none, none⟩, ⟨none, none⟩, ⟨none, none⟩⟩

theorem none_limits_sane : LimitsSane natFloats noLimits :=
  ⟨fun _ _ h => by simp [noLimits] at h, fun _ _ h => by simp [noLimits] at h, fun _ _ h => by simp [noLimits] at h,
    fun _ _ h => by simp [noLimits] at h, fun _ _ h => by simp [noLimits] at h, fun _ _ h => by simp [noLimits] at h⟩

/-- The sizes of the blobs of a result -/
def sizes : Res BMem (List (Blob Nat)) → Option (List Nat)
  | .ok bs _ => some (bs.map (·.info.point.length))
  | _ => none

/-- C123 does not hold as the header has it: "in ascending order" — after sorting by size the two blobs of the example, of 9 pixels and 1, are
    never in ascending order. -/
theorem C123_sort_wrong : ∃ (m : BMem) (v : View) (w h : Nat) (thr : UInt8) (kept : List (Blob Nat)), One m v w h ∧ v.img.cc = 1 ∧
    findBy natFloats v w h noLimits thr m = .ok kept m ∧ Active noLimits .size ∧
    ∀ after, SortedBy natFloats .size kept after → ¬ after.Pairwise fun a b => a.info.point.length ≤ b.info.point.length := by
  obtain ⟨all, kept, _, e, _⟩ := C122_filters_partial (thr := 5) one_blob rfl (by decide) noLimits (fun h => by simp [noLimits, FParam.on] at h)
    none_limits_sane
  refine ⟨_, _, _, _, _, kept, one_blob, rfl, e, trivial, fun after hs hup => ?_⟩
  have hsz : kept.map (·.info.point.length) = [9, 1] := by
    have : sizes (findBy natFloats ⟨blobImg, 0, 0⟩ 5 4 noLimits 5 blobMem) = some [9, 1] := by decide +kernel
    rw [e] at this
    simpa [sizes] using this
  have hperm := hs.1.map (fun x : Blob Nat => x.info.point.length)
  rw [hsz] at hperm
  match after, hs.2, hup, hperm with
  | [], _, _, hp => simpa using hp.length_eq
  | [_], _, _, hp => simpa using hp.length_eq
  | [a, b], h1, h2, hp =>
    simp [less] at h1 h2
    have h9 : 9 ∈ [a.info.point.length, b.info.point.length] := hp.mem_iff.2 (by simp)
    have h0 : 1 ∈ [a.info.point.length, b.info.point.length] := hp.mem_iff.2 (by simp)
    simp at h9 h0
    omega
  | _ :: _ :: _ :: _, _, _, hp => simpa using hp.length_eq

/-- Blobs of at least four pixels, and of a squared length of at most 20: the theorems apply, and the first blob of the example is kept. -/
def someLimits : Limits Nat := ⟨⟨none, none⟩, ⟨none, none⟩, ⟨none, none⟩, ⟨none, some 20⟩, ⟨some 4, none⟩, ⟨some 1, some 4⟩⟩

theorem some_limits_sane : LimitsSane natFloats someLimits :=
  ⟨fun _ _ h => by simp [someLimits] at h, fun _ _ h => by simp [someLimits] at h, fun _ _ h => by simp [someLimits] at h,
    fun _ _ h => by simp [someLimits] at h, fun _ _ _ h => by simp [someLimits] at h, fun a b h1 h2 => by simp [someLimits] at h1 h2; omega⟩

example : ∃ all kept, find ⟨blobImg, 0, 0⟩ 5 4 Params.none 5 blobMem = .ok all blobMem ∧
    findBy natFloats ⟨blobImg, 0, 0⟩ 5 4 someLimits 5 blobMem = .ok kept blobMem ∧ (kept.map (·.info)).Sublist all ∧
    (∀ b, b ∈ all → (b ∈ kept.map (·.info) ↔ InLimits natFloats someLimits b)) ∧ ∀ x, x ∈ kept → Values natFloats someLimits x :=
  C122_filters_partial one_blob rfl (by decide) _ (fun _ => by decide) some_limits_sane

example : sizes (findBy natFloats ⟨blobImg, 0, 0⟩ 5 4 someLimits 5 blobMem) = some [9] := by decide +kernel

/-- Limits out of order -/
example : findBy natFloats ⟨blobImg, 0, 0⟩ 5 4 { noLimits with elongation := ⟨some 3, some 2⟩ } 5 blobMem = .throw blobMem :=
  C122_rejects one_blob rfl _ fun h => by simpa [natFloats] using h.elongation 3 2 rfl rfl

/-- The longest blob: there is one. -/
example : Active someLimits .length ∧ ¬ Active someLimits .height := by
  simp [Active, someLimits, FParam.on, Param.on]

example : ∃ kept, findBy natFloats ⟨blobImg, 0, 0⟩ 5 4 someLimits 5 blobMem = .ok kept blobMem ∧ (kept = [] → best natFloats .length kept = none) ∧
    (kept ≠ [] → ∃ x pre post, best natFloats .length kept = some x ∧ kept = pre ++ x :: post ∧
      (∀ y ∈ pre, Below natFloats .length y.info x.info) ∧ ∀ y ∈ post, ¬ Below natFloats .length x.info y.info) :=
  C123_best_partial nat_ordered one_blob rfl (by decide) _ (fun _ => by decide) some_limits_sane (by simp [Active, someLimits, FParam.on])

end PV.Props
