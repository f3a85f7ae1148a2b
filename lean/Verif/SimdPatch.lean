import Verif.SimdVec
import Verif.Convert16
/-
  Lemmas about rows of the output which are written in groups of cells.
-/
namespace PV.Simd

variable {α : Type}

theorem Mem_ext {m₁ m₂ : Mem α} (hs : m₂.size = m₁.size) (hb : ∀ b i, m₂.byte b i = m₁.byte b i) : m₂ = m₁ := by
  cases m₁
  cases m₂
  simp only [Mem.mk.injEq]
  exact ⟨hs, funext fun b => funext fun i => hb b i⟩

theorem _root_.PV.WritesRoi.congr {m m₁ : Mem α} {v : View} {w h : Nat} {F G : Nat → Nat → Nat → α}
    (h1 : WritesRoi m m₁ v w h F) (he : ∀ x y c, x < w → y < h → c < v.img.cc → F x y c = G x y c) :
    WritesRoi m m₁ v w h G :=
  ⟨h1.size_eq, fun x y c hx hy hc => (h1.inside x y c hx hy hc).trans (he x y c hx hy hc), h1.outside⟩

/-- A row of `N` cells from `p` of which the cells in `done` have their final value; all other
    memory is as before the row. Not in the code: for statements and proofs. -/
structure RowState (m1 : Mem α) (b p N : Nat) (val : Nat → α) (done : Nat → Prop) (m2 : Mem α) : Prop where
  size_eq : m2.size = m1.size
  outside : ∀ b' i, ¬ (b' = b ∧ p ≤ i ∧ i < p + N) → m2.byte b' i = m1.byte b' i
  inside : ∀ t, t < N → done t → m2.byte b (p + t) = val t

theorem RowState.start (m1 : Mem α) (b p N : Nat) (val : Nat → α) (done : Nat → Prop) (h : ∀ t, t < N → ¬ done t) :
    RowState m1 b p N val done m1 :=
  ⟨rfl, fun _ _ _ => rfl, fun t ht hd => absurd hd (h t ht)⟩

theorem RowState.mono {m1 m2 : Mem α} {b p N : Nat} {val : Nat → α} {done done' : Nat → Prop}
    (r : RowState m1 b p N val done m2) (h : ∀ t, t < N → done' t → done t) : RowState m1 b p N val done' m2 :=
  ⟨r.size_eq, r.outside, fun t ht hd => r.inside t ht (h t ht hd)⟩

theorem RowState.finish {m1 m2 : Mem α} {b p N : Nat} {val : Nat → α} {done : Nat → Prop}
    (r : RowState m1 b p N val done m2) (h : ∀ t, t < N → done t) : m2 = setRange m1 b p N val := by
  refine Mem_ext r.size_eq fun b' i => ?_
  by_cases hc : b' = b ∧ p ≤ i ∧ i < p + N
  · have := r.inside (i - p) (by omega) (h _ (by omega))
    rw [show p + (i - p) = i by omega] at this
    simp only [setRange, if_pos hc]
    rw [hc.1, this]
  · simp only [setRange, if_neg hc]
    exact r.outside b' i hc

theorem RowState.store {m1 m2 : Mem α} {b p N : Nat} {val v : Nat → α} {done done' : Nat → Prop}
    (r : RowState m1 b p N val done m2) (k n : Nat) (hk : k + n ≤ N)
    (h : ∀ t, t < N → done' t → (k ≤ t ∧ t < k + n ∧ v (t - k) = val t) ∨ (¬ (k ≤ t ∧ t < k + n) ∧ done t)) :
    RowState m1 b p N val done' (setRange m2 b (p + k) n v) := by
  refine ⟨r.size_eq, fun b' i hi => ?_, fun t ht hd => ?_⟩
  · rw [setRange_byte_other (fun hc => hi ⟨hc.1, by omega, by omega⟩), r.outside b' i hi]
  · rcases h t ht hd with ⟨h1, h2, h3⟩ | ⟨h1, h2⟩
    · simp only [setRange, true_and]
      rw [← h3, Nat.add_sub_add_left, if_pos ⟨by omega, by omega⟩]
    · rw [setRange_byte_other (fun hc => h1 ⟨by omega, by omega⟩)]
      exact r.inside t ht h2

theorem set_eq_setRange (m : Mem α) (b p : Nat) (a : α) : m.set b p a = setRange m b p 1 fun _ => a := by
  have := setRange_succ m b p 0 fun _ => a
  rw [setRange_zero] at this
  exact this.symm

theorem writeC_row {m : Mem α} {b p : Nat} {a : α} (hv : m.Valid b p) :
    writeC b p a m = .ok () (setRange m b p 1 fun _ => a) := by
  rw [writeC_ok _ hv, set_eq_setRange]

/-- The memory outside a rectangle is as it was. Not in the code: for statements and proofs. -/
structure Off (m m1 : Mem α) (out : View) (w h : Nat) : Prop where
  size_eq : m1.size = m.size
  outside : ∀ b i, ¬ (b = out.img.data ∧ ∃ x y c, x < w ∧ y < h ∧ c < out.img.cc ∧ i = out.cell x y c) →
    m1.byte b i = m.byte b i

theorem Off.refl (m : Mem α) (out : View) (w h : Nat) : Off m m out w h := ⟨rfl, fun _ _ _ => rfl⟩

theorem in_row {m : Mem α} {out : View} {w h y i : Nat} (wf : out.img.WF m) (fit : out.Fits w h) (hy : y < h)
    (h1 : out.start out.img.cc + y * out.img.rowSize ≤ i)
    (h2 : i < out.start out.img.cc + y * out.img.rowSize + w * out.img.cc) :
    ∃ x y c, x < w ∧ y < h ∧ c < out.img.cc ∧ i = out.cell x y c := by
  obtain ⟨hcc, _⟩ := View.facts wf fit
  generalize ht : i - (out.start out.img.cc + y * out.img.rowSize) = t
  refine ⟨t / out.img.cc, y, t % out.img.cc, Nat.div_lt_of_lt_mul (by rw [Nat.mul_comm]; omega), hy, Nat.mod_lt _ hcc, ?_⟩
  have e := View.start_cell wf fit (t / out.img.cc) y (t % out.img.cc)
  rw [Nat.mul_comm (t / _), Nat.div_add_mod] at e
  omega

theorem RowState.off {m m1 m2 : Mem α} {out : View} {w h y : Nat} {val : Nat → α} {done : Nat → Prop}
    (wf : out.img.WF m) (fit : out.Fits w h) (hy : y < h) (ho : Off m m1 out w h)
    (r : RowState m1 out.img.data (out.start out.img.cc + y * out.img.rowSize) (w * out.img.cc) val done m2) :
    Off m m2 out w h := by
  refine ⟨r.size_eq.trans ho.size_eq, fun b i hi => ?_⟩
  rw [r.outside b i fun hc => hi ⟨hc.1, in_row wf fit hy hc.2.1 hc.2.2⟩, ho.outside b i hi]

/-- Rows written one by one, in any order. -/
theorem rows_writes {m : Mem α} {out : View} {w h : Nat} (wf : out.img.WF m) (fit : out.Fits w h)
    {ι : Type} {L : List ι} {ρ : ι → Nat} (hL : ∀ l ∈ L, ρ l < h) (hall : ∀ y, y < h → ∃ l ∈ L, ρ l = y)
    {body : ι → M (Mem α) Unit} {val : Nat → Nat → α}
    (hb : ∀ l ∈ L, ∀ m1, Off m m1 out w h → body l m1 = .ok () (setRange m1 out.img.data
      (out.start out.img.cc + ρ l * out.img.rowSize) (w * out.img.cc) (val (ρ l)))) :
    ∃ m', fold (fun l _ => body l) L () m = .ok () m' ∧
      WritesRoi m m' out w h fun x y c => val y (x * out.img.cc + c) := by
  obtain ⟨hcc, hr, _, _, _, _, _, _, _, hle⟩ := View.facts wf fit
  have hrow : ∀ y t y' i, t < w * out.img.cc → y < h → ¬ y = y' →
      i = out.start out.img.cc + y * out.img.rowSize + t →
      ¬ (out.start out.img.cc + y' * out.img.rowSize ≤ i ∧
        i < out.start out.img.cc + y' * out.img.rowSize + w * out.img.cc) := by
    intro y t y' i ht hy hne hi hc
    have := mul_add_inj (r := out.img.rowSize) (a := y) (b := t) (a' := y')
      (b' := i - (out.start out.img.cc + y' * out.img.rowSize)) (by omega) (by omega) (by omega)
    exact hne this.1
  have key : ∀ L : List ι, (∀ l ∈ L, ρ l < h) → (∀ l ∈ L, ∀ m1, Off m m1 out w h → body l m1 = .ok () (setRange m1 out.img.data
      (out.start out.img.cc + ρ l * out.img.rowSize) (w * out.img.cc) (val (ρ l)))) →
      ∀ m1, Off m m1 out w h → ∃ m', fold (fun l _ => body l) L () m1 = .ok () m' ∧ Off m m' out w h ∧
        (∀ y t, y < h → t < w * out.img.cc → (∃ l ∈ L, ρ l = y) →
          m'.byte out.img.data (out.start out.img.cc + y * out.img.rowSize + t) = val y t) ∧
        (∀ y t, y < h → t < w * out.img.cc → ¬ (∃ l ∈ L, ρ l = y) →
          m'.byte out.img.data (out.start out.img.cc + y * out.img.rowSize + t)
            = m1.byte out.img.data (out.start out.img.cc + y * out.img.rowSize + t)) := by
    intro L
    induction L with
    | nil =>
      intro _ _ m1 ho
      exact ⟨m1, rfl, ho, fun _ _ _ _ h => (by obtain ⟨l, hl, _⟩ := h; cases hl), fun _ _ _ _ _ => rfl⟩
    | cons l ls ih =>
      intro hl hb m1 ho
      have h1 := hb l (List.mem_cons_self ..) m1 ho
      generalize hm2 : setRange m1 out.img.data (out.start out.img.cc + ρ l * out.img.rowSize) (w * out.img.cc)
        (val (ρ l)) = m2 at h1
      have ho2 : Off m m2 out w h := by
        refine ⟨by rw [← hm2]; exact ho.size_eq, fun b i hi => ?_⟩
        rw [← hm2, setRange_byte_other fun hc =>
          hi ⟨hc.1, in_row wf fit (hl l (List.mem_cons_self ..)) hc.2.1 hc.2.2⟩, ho.outside b i hi]
      obtain ⟨m', h3, h4, h5, h6⟩ := ih (fun q hq => hl q (List.mem_cons_of_mem _ hq))
        (fun q hq => hb q (List.mem_cons_of_mem _ hq)) m2 ho2
      refine ⟨m', by rw [fold_cons, bind_ok h1, h3], h4, ?_, ?_⟩
      · intro y t hy ht hex
        by_cases hin : ∃ q ∈ ls, ρ q = y
        · exact h5 y t hy ht hin
        · rw [h6 y t hy ht hin]
          obtain ⟨q, hq, rfl⟩ := hex
          rcases List.mem_cons.1 hq with rfl | hq
          · rw [← hm2]
            simp only [setRange, true_and]
            rw [if_pos ⟨by omega, by omega⟩, Nat.add_sub_cancel_left]
          · exact absurd ⟨q, hq, rfl⟩ hin
      · intro y t hy ht hex
        rw [h6 y t hy ht fun ⟨q, hq, he⟩ => hex ⟨q, List.mem_cons_of_mem _ hq, he⟩, ← hm2]
        refine setRange_byte_other fun hc => ?_
        exact hrow y t (ρ l) _ ht hy (fun he => hex ⟨l, List.mem_cons_self .., he.symm⟩) rfl hc.2
  obtain ⟨m', h1, h2, h3, _⟩ := key L hL hb m (Off.refl m out w h)
  refine ⟨m', h1, h2.size_eq, fun x y c hx hy hc => ?_, h2.outside⟩
  have ht := mul_add_lt hx hc
  rw [View.get, ← View.start_cell wf fit, h3 y _ hy ht (hall y hy)]

/-- Rows without gaps written as one. -/
theorem range_writes {m : Mem α} {out : View} {w h : Nat} (wf : out.img.WF m) (fit : out.Fits w h)
    (hrow : out.img.rowSize = w * out.img.cc) (V : Nat → α) :
    WritesRoi m (setRange m out.img.data (out.start out.img.cc) (h * (w * out.img.cc)) V) out w h
      fun x y c => V (y * (w * out.img.cc) + (x * out.img.cc + c)) := by
  obtain ⟨hcc, _⟩ := View.facts wf fit
  refine ⟨rfl, fun x y c hx hy hc => ?_, fun b i hi => ?_⟩
  · have ht := mul_add_lt hx hc
    have h2 := mul_add_lt hy ht
    have e := View.start_cell wf fit x y c
    rw [hrow] at e
    rw [View.get, ← e]
    simp only [setRange, true_and]
    rw [if_pos ⟨by omega, by omega⟩]
    congr 1
    omega
  · refine setRange_byte_other fun hc => hi ⟨hc.1, ?_⟩
    have hwc : 0 < w * out.img.cc := Nat.mul_pos fit.wpos hcc
    generalize hq : i - out.start out.img.cc = q
    have hdm := Nat.div_add_mod q (w * out.img.cc)
    rw [Nat.mul_comm] at hdm
    refine in_row wf fit (y := q / (w * out.img.cc)) (Nat.div_lt_of_lt_mul (by rw [Nat.mul_comm]; omega)) ?_ ?_
    · rw [hrow]
      omega
    · rw [hrow]
      have := Nat.mod_lt q hwc
      omega

/-! ### Loops -/

theorem fold_mem {μ : Type} {body : Nat → M μ Unit} {P : Nat → μ → Prop} (n : Nat) (m : μ) (h0 : P 0 m)
    (hs : ∀ j, j < n → ∀ m1, P j m1 → ∃ m2, body j m1 = .ok () m2 ∧ P (j + 1) m2) :
    ∃ m2, fold (fun j _ => body j) (List.range n) () m = .ok () m2 ∧ P n m2 := by
  induction n with
  | zero => exact ⟨m, rfl, h0⟩
  | succ n ih =>
    obtain ⟨m1, h1, h2⟩ := ih fun j hj => hs j (by omega)
    obtain ⟨m2, h3, h4⟩ := hs n (by omega) m1 h2
    refine ⟨m2, ?_, h4⟩
    rw [List.range_succ, fold_append, bind_ok h1, fold_cons, bind_ok h3]
    rfl

end PV.Simd
