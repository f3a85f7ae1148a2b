import Verif.BlobFind
/-
  All blobs: the loop over the map.
-/
namespace PV.Blob

open PV

variable {g : Geo} {h : Nat}

theorem nbs_symm {mw p n : Nat} (hp : mw + 1 ≤ p) (hn : n ∈ nbs mw p) : p ∈ nbs mw n := by
  simp only [nbs, List.mem_cons, List.not_mem_nil, or_false] at hn ⊢
  omega

theorem Reach.mono {nb : Nat → List Nat} {S T : Nat → Prop} {s n : Nat} (h : ∀ n, S n → T n) (r : Reach nb S s n) :
    Reach nb T s n := by
  induction r with
  | refl => exact .refl
  | step _ hn hs ih => exact .step ih hn (h _ hs)

/-- The vertices of one blob and of its contour. Not in the code: for statements and proofs. -/
abbrev Pair := List Nat × List Nat

/-- What is known of one blob, in map positions; `c₁` is the map before the search. Not in the code: for statements and proofs. -/
structure Comp (g : Geo) (c₁ : Nat → Nat) (b : Pair) : Prop where
  nodup : b.1.Nodup
  cnodup : b.2.Nodup
  start : ∃ s, b.1.head? = some s ∧ b.2.head? = some s ∧ c₁ s = 1 ∧ edgeAt g.mw c₁ s = true ∧
    (∀ n, n ∈ b.1 ↔ Reach (nbs g.mw) (fun n => c₁ n = 1) s n) ∧
    (∀ n, n ∈ b.2 ↔ Reach (nbs g.mw) (fun n => c₁ n = 1 ∧ edgeAt g.mw c₁ n = true) s n)
  first : ∀ s, b.1.head? = some s → ∀ n, n ∈ b.1 → s ≤ n

/-- The result for one blob. Not in the code: for statements and proofs. -/
def info (g : Geo) (c₁ : Nat → Nat) (b : Pair) : BlobInfo :=
  ⟨b.1.map g.point, (b.1.filter (edgeAt g.mw c₁)).map g.point, b.2.map g.point⟩

/-- The map before the search. Not in the code: for statements and proofs. -/
structure Init (g : Geo) (h : Nat) (c₁ : Nat → Nat) : Prop where
  bin : ∀ n, c₁ n = 0 ∨ c₁ n = 1
  inner : ∀ n, c₁ n = 1 → Interior g.w h g.mw n

/-- The invariant of the loop over the map. Not in the code: for statements and proofs. -/
structure Out (g : Geo) (c₁ c : Nat → Nat) (pos : Nat) (L : List Pair) : Prop where
  comp : ∀ b, b ∈ L → Comp g c₁ b
  nodup : (L.flatMap Prod.fst).Nodup
  old : ∀ n, n ∉ L.flatMap Prod.fst → c n = c₁ n
  new : ∀ n, n ∈ L.flatMap Prod.fst → c n ≠ 0 ∧ c n ≠ 1
  passed : ∀ n, n < pos → c₁ n = 1 → n ∈ L.flatMap Prod.fst

variable {c₁ c : Nat → Nat} {pos : Nat} {L : List Pair}

theorem Comp.one {b : Pair} (k : Comp g c₁ b) {n : Nat} (hn : n ∈ b.1) : c₁ n = 1 := by
  obtain ⟨s, _, _, h1, _, h2, _⟩ := k.start
  cases (h2 n).mp hn with
  | refl => exact h1
  | step _ _ h => exact h

theorem Comp.closed {b : Pair} (k : Comp g c₁ b) {m n : Nat} (hm : m ∈ b.1) (hn : n ∈ nbs g.mw m) (h1 : c₁ n = 1) :
    n ∈ b.1 := by
  obtain ⟨s, _, _, _, _, h2, _⟩ := k.start
  exact (h2 n).mpr (.step ((h2 m).mp hm) hn h1)

/-- Points found before are not next to points not found yet. -/
theorem Out.apart (o : Out g c₁ c pos L) (D : Dims g h) (I : Init g h c₁) {m n : Nat} (h1 : c₁ m = 1)
    (hm : m ∉ L.flatMap Prod.fst) (hn : n ∈ nbs g.mw m) : n ∉ L.flatMap Prod.fst := by
  intro h
  obtain ⟨b, hb, hnb⟩ := List.mem_flatMap.mp h
  refine hm (List.mem_flatMap.mpr ⟨b, hb, (o.comp b hb).closed hnb (nbs_symm ?_ hn) h1⟩)
  exact (interior_lt D (I.inner m h1)).1

theorem findBlob_run (D : Dims g h) (I : Init g h c₁) (o : Out g c₁ c pos L) (hc : c pos = 1) :
    ∃ b c', findBlob g pos ⟨g.mw * (h + 2), c⟩ = .ok (info g c₁ b) ⟨g.mw * (h + 2), c'⟩ ∧
      Out g c₁ c' (pos + 1) (L ++ [b]) := by
  have hnot : pos ∉ L.flatMap Prod.fst := fun e => (o.new pos e).2 hc
  have h1 : c₁ pos = 1 := by rw [← o.old pos hnot]; exact hc
  have hone : ∀ n, c n = 1 ↔ c₁ n = 1 ∧ n ∉ L.flatMap Prod.fst := by
    intro n
    by_cases hn : n ∈ L.flatMap Prod.fst
    · exact ⟨fun e => absurd e (o.new n hn).2, fun e => absurd hn e.2⟩
    · rw [o.old n hn]
      exact ⟨fun e => ⟨e, hn⟩, fun e => e.1⟩
  have hzero : ∀ n, c n = 0 ↔ c₁ n = 0 := by
    intro n
    by_cases hn : n ∈ L.flatMap Prod.fst
    · obtain ⟨b, hb, hnb⟩ := List.mem_flatMap.mp hn
      have := (o.comp b hb).one hnb
      exact ⟨fun e => absurd e (o.new n hn).1, fun e => by omega⟩
    · rw [o.old n hn]
  have hedge : edgeAt g.mw c = edgeAt g.mw c₁ := by
    funext v
    rw [Bool.eq_iff_iff, edgeAt, edgeAt, List.any_eq_true, List.any_eq_true]
    simp only [beq_iff_eq, hzero]
  have hint := I.inner pos h1
  obtain ⟨l1, l2⟩ := interior_lt D hint
  have hsm := D.small
  -- the points
  obtain ⟨c2, ps, e2, t2⟩ := growPoints_run D hc (fun n hn => I.inner n ((hone n).mp hn).1) fuelMax 0 _ [pos]
    (trav_start (f := pointColour g.mw c) (nb := nbs g.mw) (W := 1) (K := 2) (c₀ := c) rfl) (by simp)
    (by unfold fuelMax; omega)
  obtain ⟨hps, hcol2⟩ := t2.end
  have hreach : ∀ n, n ∈ ps ↔ Reach (nbs g.mw) (fun n => c₁ n = 1) pos n := by
    intro n
    rw [hps]
    refine ⟨Reach.mono fun k hk => ((hone k).mp hk).1, fun hr => ?_⟩
    have : Reach (nbs g.mw) (fun n => c n = 1) pos n ∧ n ∉ L.flatMap Prod.fst ∧ c₁ n = 1 := by
      induction hr with
      | refl => exact ⟨.refl, hnot, h1⟩
      | step _ hn hs ih =>
        obtain ⟨i1, i2, i3⟩ := ih
        have hna := o.apart D I i3 i2 hn
        exact ⟨.step i1 hn ((hone _).mpr ⟨hs, hna⟩), hna, hs⟩
    exact this.1
  have hps1 : ∀ n, n ∈ ps → c₁ n = 1 := by
    intro n hn
    cases (hreach n).mp hn with
    | refl => exact h1
    | step _ _ h => exact h
  have hps2 : ∀ n, n ∈ ps → n ∉ L.flatMap Prod.fst := by
    intro n hn
    cases (hps n).mp hn with
    | refl => exact hnot
    | step _ _ h => exact ((hone n).mp h).2
  have hposmem : pos ∈ ps := (hreach pos).mpr .refl
  have hpcol : ∀ n, n ∈ ps → (c2 n = 3 ↔ edgeAt g.mw c₁ n = true) ∧ c2 n ≠ 0 ∧ c2 n ≠ 1 := by
    intro n hn
    rw [hcol2, if_pos hn, pointColour, hedge]
    by_cases he : edgeAt g.mw c₁ n = true <;> simp [he]
  have hne : ∀ n, c₁ n ≠ 0 → c₁ n = 1 := fun n hn => (I.bin n).resolve_left hn
  -- the contour
  have hS3 : ∀ n, c2 n = 3 → c₁ n = 1 := by
    intro n hn
    by_cases hm : n ∈ ps
    · exact hps1 n hm
    · rw [hcol2, if_neg hm] at hn
      refine hne n fun e => ?_
      have := (hzero n).mpr e
      omega
  obtain ⟨c3, qs, e3, t3⟩ := growContours_run D hint (fun n hn => I.inner n (hS3 n hn)) fuelMax 0 _ [pos]
    (trav_start (f := fun _ => 4) (nb := nbs g.mw) (W := 3) (K := 4) (c₀ := c2) rfl) (by simp)
    (by unfold fuelMax; omega)
  obtain ⟨hqs, hcol3⟩ := t3.end
  have hcreach : ∀ n, n ∈ qs ↔ Reach (nbs g.mw) (fun n => c₁ n = 1 ∧ edgeAt g.mw c₁ n = true) pos n := by
    intro n
    rw [hqs]
    constructor
    · intro hr
      have : Reach (nbs g.mw) (fun n => c₁ n = 1 ∧ edgeAt g.mw c₁ n = true) pos n ∧ n ∈ ps := by
        induction hr with
        | refl => exact ⟨.refl, hposmem⟩
        | step _ hn hs ih =>
          have hin := (hreach _).mpr (.step ((hreach _).mp ih.2) hn (hS3 _ hs))
          exact ⟨.step ih.1 hn ⟨hS3 _ hs, (hpcol _ hin).1.mp hs⟩, hin⟩
      exact this.1
    · intro hr
      have : Reach (nbs g.mw) (fun n => c2 n = 3) pos n ∧ n ∈ ps := by
        induction hr with
        | refl => exact ⟨.refl, hposmem⟩
        | step _ hn hs ih =>
          have hin := (hreach _).mpr (.step ((hreach _).mp ih.2) hn hs.1)
          exact ⟨.step ih.1 hn ((hpcol _ hin).1.mpr hs.2), hin⟩
      exact this.1
  have hqsub : ∀ n, n ∈ qs → n ∈ ps := fun n hn =>
    (hreach n).mpr (Reach.mono (fun _ hk => hk.1) ((hcreach n).mp hn))
  have hupedge : edgeAt g.mw c₁ pos = true := by
    rw [edgeAt, List.any_eq_true]
    refine ⟨pos - g.mw, by simp [nbs], ?_⟩
    rw [beq_iff_eq]
    rcases I.bin (pos - g.mw) with e | e
    · exact e
    · exact absurd (o.passed _ (by have := D.mw; omega) e) (o.apart D I h1 hnot (by simp [nbs]))
  refine ⟨(ps, qs), c3, ?_, ?_, ?_, ?_, ?_, ?_⟩
  · rw [findBlob, u32_of_lt (by omega), bind_ok (setCell_run 2 (by omega))]
    have e2' : growPoints g fuelMax 0 [g.point pos] [] ⟨g.mw * (h + 2), upd c pos 2⟩ = _ := e2
    rw [bind_ok e2', bind_ok (setCell_run 4 (by omega))]
    have e3' : growContours g fuelMax 0 [g.point pos] ⟨g.mw * (h + 2), upd c2 pos 4⟩ = _ := e3
    rw [bind_ok e3', hedge]
    rfl
  · intro b hb
    rcases List.mem_append.mp hb with hb | hb
    · exact o.comp b hb
    · rw [List.mem_singleton.mp hb]
      refine ⟨t2.nodup, t3.nodup, ⟨pos, t2.head, t3.head, h1, hupedge, hreach, hcreach⟩, fun s hs n hn => ?_⟩
      have hs' : pos = s := Option.some.inj (t2.head.symm.trans hs)
      refine Nat.le_of_not_lt fun hlt => hps2 n hn (o.passed n (by omega) (hps1 n hn))
  · rw [List.flatMap_append, List.nodup_append]
    refine ⟨o.nodup, by simpa using t2.nodup, fun a ha b hb => ?_⟩
    rintro rfl
    exact hps2 a (by simpa using hb) ha
  · intro n hn
    rw [List.flatMap_append, List.mem_append] at hn
    have hn1 : n ∉ L.flatMap Prod.fst := fun e => hn (Or.inl e)
    have hn2 : n ∉ ps := fun e => hn (Or.inr (by simpa using e))
    rw [hcol3, if_neg (fun e => hn2 (hqsub n e)), hcol2, if_neg hn2, o.old n hn1]
  · intro n hn
    rw [List.flatMap_append, List.mem_append] at hn
    rw [hcol3]
    by_cases hq : n ∈ qs
    · rw [if_pos hq]
      omega
    · rw [if_neg hq]
      rcases hn with hn | hn
      · rw [hcol2, if_neg (fun e => hps2 n e hn)]
        exact o.new n hn
      · exact (hpcol n (by simpa using hn)).2
  · intro n hn hc1
    rw [List.flatMap_append, List.mem_append]
    rcases Nat.lt_or_ge n pos with hlt | hge
    · exact Or.inl (o.passed n hlt hc1)
    · have : n = pos := by omega
      subst this
      exact Or.inr (by simpa using hposmem)

/-- A fold keeps an invariant. -/
theorem fold_range_inv {μ A : Type} {body : Nat → A → M μ A} (P : Nat → A → μ → Prop) (n : Nat) :
    ∀ {a : A} {m : μ}, P 0 a m →
    (∀ k a m, k < n → P k a m → ∃ a' m', body k a m = .ok a' m' ∧ P (k + 1) a' m') →
    ∃ a' m', fold body (List.range n) a m = .ok a' m' ∧ P n a' m' := by
  induction n with
  | zero => exact fun h _ => ⟨_, _, rfl, h⟩
  | succ n ih =>
    intro a m h0 hs
    obtain ⟨a1, m1, e1, p1⟩ := ih h0 fun k a m hk => hs k a m (by omega)
    obtain ⟨a2, m2, e2, p2⟩ := hs n a1 m1 (by omega) p1
    refine ⟨a2, m2, ?_, p2⟩
    rw [List.range_succ, fold_append, bind_ok e1, fold_cons, bind_ok e2]
    rfl

theorem findAll_run (D : Dims g h) (I : Init g h c₁) :
    ∃ L c', findAll g (g.mw * (h + 1)) ⟨g.mw * (h + 2), c₁⟩ = .ok (L.map (info g c₁)) ⟨g.mw * (h + 2), c'⟩ ∧
      Out g c₁ c' (g.mw * (h + 1)) L := by
  have hsm := D.small
  have hmw := D.mw
  have hlt : g.mw * (h + 1) + g.mw = g.mw * (h + 2) := by rw [← Nat.mul_succ]
  have hge : g.mw * (h + 1) = g.mw * h + g.mw := Nat.mul_succ ..
  have hl : findAll g (g.mw * (h + 1)) = fold (fun k found => do
      let c ← getCell (g.mw + k)
      if c = 1 then do
        let b ← findBlob g (g.mw + k)
        pure (found ++ [b])
      else pure found) (List.range (g.mw * h)) [] :=
    loop_eq_fold (fun k => g.mw + k) (g.mw * h) fuelMax [] (by unfold fuelMax; omega)
      (fun k hk => by simp only [bne_iff_ne, ne_eq]; omega) (by rw [hge, Nat.add_comm]; simp) (fun k hk => rfl)
  rw [hl]
  have base : Out g c₁ c₁ g.mw [] := by
    refine ⟨fun b hb => by simp at hb, by simp, fun n _ => rfl, fun n hn => by simp at hn, fun n hn h1 => ?_⟩
    have := (interior_lt D (I.inner n h1)).1
    omega
  obtain ⟨a', m', e, p⟩ := fold_range_inv
    (body := fun k found => do
      let c ← getCell (g.mw + k)
      if c = 1 then do
        let b ← findBlob g (g.mw + k)
        pure (found ++ [b])
      else pure found)
    (fun k a (m : PMap) => ∃ L, a = L.map (info g c₁) ∧ m.size = g.mw * (h + 2) ∧ Out g c₁ m.cell (g.mw + k) L)
    (g.mw * h) (a := []) (m := ⟨g.mw * (h + 2), c₁⟩) ⟨[], rfl, rfl, base⟩ (by
      rintro k a ⟨sz, c⟩ hk ⟨L, rfl, rfl, o⟩
      rw [bind_ok (getCell_run (by omega))]
      by_cases hc : c (g.mw + k) = 1
      · rw [if_pos hc]
        obtain ⟨b, c', e, o'⟩ := findBlob_run D I o hc
        rw [bind_ok e]
        exact ⟨_, _, rfl, L ++ [b], by simp, rfl, o'⟩
      · rw [if_neg hc]
        refine ⟨_, _, rfl, L, rfl, rfl, o.comp, o.nodup, o.old, o.new, fun n hn h1 => ?_⟩
        rcases Nat.lt_or_ge n (g.mw + k) with hlt | hge
        · exact o.passed n hlt h1
        · have : n = g.mw + k := by omega
          subst this
          rcases Classical.em ((g.mw + k) ∈ L.flatMap Prod.fst) with hm | hm
          · exact hm
          · exact absurd ((o.old _ hm).trans h1) hc)
  obtain ⟨L, rfl, hsz, o⟩ := p
  obtain ⟨sz, c'⟩ := m'
  simp only at hsz o
  subst hsz
  refine ⟨L, c', e, ?_⟩
  rw [hge, Nat.add_comm]
  exact o

/-! ### The map before the search -/

theorem mark_fold {sz : Nat} {m : BMem} {b : Nat} {thr : UInt8} (rd wr : Nat × Nat → Nat) (P : List (Nat × Nat)) :
    ∀ {c : Nat → Nat}, (∀ p, p ∈ P → m.Valid b (rd p) ∧ wr p < sz) →
    fold (fun p (_ : Unit) => do
        let a ← readImg m b (rd p)
        if thr ≤ a then setCell (wr p) 1 else pure ()) P () ⟨sz, c⟩ =
      .ok () ⟨sz, fun n => if P.any (fun p => wr p == n && decide (thr ≤ m.byte b (rd p))) then 1 else c n⟩ := by
  induction P with
  | nil => exact fun _ => rfl
  | cons p P ih =>
    intro c hv
    obtain ⟨v1, v2⟩ := hv p (List.mem_cons_self ..)
    have hr : readImg m b (rd p) ⟨sz, c⟩ = .ok (m.byte b (rd p)) ⟨sz, c⟩ := if_pos v1
    have hstep : (do
        let a ← readImg m b (rd p)
        if thr ≤ a then setCell (wr p) 1 else pure () : M PMap Unit) ⟨sz, c⟩ =
        .ok () ⟨sz, fun n => if wr p == n && decide (thr ≤ m.byte b (rd p)) then 1 else c n⟩ := by
      rw [bind_ok hr]
      by_cases ht : thr ≤ m.byte b (rd p)
      · rw [if_pos ht, setCell_run 1 v2]
        refine congrArg (fun z => Res.ok () (PMap.mk sz z)) ?_
        funext n
        simp only [upd, ht, decide_true, Bool.and_true, beq_iff_eq]
        by_cases hn : n = wr p
        · simp [hn]
        · simp [hn, Ne.symm hn]
      · rw [if_neg ht]
        simp only [ht, decide_false, Bool.and_false, Bool.false_eq_true, ↓reduceIte]
        rfl
    rw [fold_cons, bind_ok hstep, ih fun q hq => hv q (List.mem_cons_of_mem _ hq)]
    refine congrArg (fun z => Res.ok () (PMap.mk sz z)) ?_
    funext n
    simp only [List.any_cons]
    by_cases h1 : (P.any fun p => wr p == n && decide (thr ≤ m.byte b (rd p))) = true
    · simp [h1]
    · simp [h1]

/-- The map before the search. Not in the code: for statements and proofs. -/
def marked (m : BMem) (v : View) (w h : Nat) (thr : UInt8) (n : Nat) : Nat :=
  if (grid h w).any fun p => at' (w + 2) (p.2 + 1) (p.1 + 1) == n && decide (thr ≤ v.get m p.2 p.1 0) then 1 else 0

theorem mark_run {m : BMem} {v : View} {w h : Nat} {thr : UInt8} (wf : v.img.WF m) (fit : v.Fits w h) (cc : v.img.cc = 1) :
    mark m v w h (w + 2) thr ⟨(w + 2) * (h + 2), fun _ => 0⟩ =
      .ok () ⟨(w + 2) * (h + 2), marked m v w h thr⟩ := by
  obtain ⟨_, hr, _, _, _, hfit, hy, _, hwcc, _⟩ := View.facts wf fit
  rw [cc] at hwcc
  have e := rowLoop2_eq (μ := PMap) (A := Unit) (row := v.img.rowSize) (step := 1) (row₁ := w + 2) (step₁ := 1)
    (body := fun imageX mapValue _ => do
      let a ← readImg m v.img.data imageX
      if thr ≤ a then setCell mapValue 1 else pure ())
    (pY := u32 (v.y * v.img.rowSize) + v.x) (qY := w + 2 + 1) (n := w) (height := h) () hr (by decide) hfit hwcc
  rw [Nat.mul_one] at e
  rw [mark, e]
  refine (mark_fold (fun p => u32 (v.y * v.img.rowSize) + v.x + p.1 * v.img.rowSize + p.2 * 1)
    (fun p => w + 2 + 1 + p.1 * (w + 2) + p.2 * 1) (grid h w) ?_).trans ?_
  · intro p hp
    obtain ⟨hp1, hp2⟩ := mem_grid.1 hp
    have hv := View.cell_valid wf fit hp2 hp1 (c := 0) (by omega)
    have hs := View.start_cell wf fit p.2 p.1 0
    rw [View.start_eq wf fit, cc] at hs
    rw [u32_of_lt hy]
    refine ⟨?_, ?_⟩
    · rw [← hs] at hv
      simpa using hv
    · have : (p.1 + 1) * (w + 2) ≤ h * (w + 2) := Nat.mul_le_mul_right _ hp1
      rw [Nat.add_mul] at this
      rw [Nat.mul_comm (w + 2), Nat.add_mul]
      omega
  · refine congrArg (fun z => Res.ok () (PMap.mk ((w + 2) * (h + 2)) z)) ?_
    funext n
    rw [marked]
    refine congrArg (fun b : Bool => if b = true then 1 else 0) ?_
    rw [Bool.eq_iff_iff, List.any_eq_true, List.any_eq_true]
    refine exists_congr fun p => and_congr_right fun hp => ?_
    have hs := View.start_cell wf fit p.2 p.1 0
    rw [View.start_eq wf fit, cc] at hs
    simp only [u32_of_lt hy, View.get, ← hs, Nat.mul_one, Nat.add_zero,
      show at' (w + 2) (p.2 + 1) (p.1 + 1) = w + 2 + 1 + p.1 * (w + 2) + p.2 from by
        rw [at', Nat.add_mul]
        omega]

end PV.Blob
