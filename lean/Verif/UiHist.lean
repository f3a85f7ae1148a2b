import Verif.Ui
import Verif.FilterGrad
/-
  `DisplayHistogram`, src/tool/ui/tool_ui.h 26-54, for histograms of `uint32_t` (as made by
  `Histogram`).  `window.setImage` is modelled in Ui.lean.  That the pointer `dataY` finally
  points before the image (48, undefined in C++ also if not read) is ignored.
-/
namespace PV.Ui

open PV PV.Simd

/-- `*p = v` for a pointer that may lie before its block. src/tool/ui/tool_ui.h 49. -/
def writeI (b : Nat) (i : Int) (v : UInt8) : M BMem Unit := if 0 ≤ i then writeC b i.toNat v else ubE

/-- The number of white pixels of a column, src/tool/ui/tool_ui.h 46. -/
def histLimit (minValue range v : Nat) : Nat := u32 ((v - minValue) * 100) / range

/-- One column from the bottom to the top, src/tool/ui/tool_ui.h 47-49. -/
def histColumn (b rowSize limit : Nat) (dataX : Int) : M BMem Unit :=
  loop (fun s : Nat × Int => decide (s.1 < limit)) (fun s => (s.1 + 1, s.2 - rowSize))
    (fun s _ => writeI b s.2 255) fuelMax (0, dataX) ()

/-- src/tool/ui/tool_ui.h 45-50 -/
def histColumns (b rowSize minValue range : Nat) (hist : List Nat) (dataX : Nat) : M BMem Unit :=
  loop (fun s : Nat × Nat => decide (s.1 < hist.length)) (fun s => (s.1 + 1, s.2 + 1))
    (fun s _ => match hist[s.1]? with
      | none => ubE
      | some v => histColumn b rowSize (histLimit minValue range v) s.2) fuelMax (0, dataX) ()

/-- src/tool/ui/tool_ui.h 26-54: the image given to the window, `none` if the function returns
    before; `b` is the block which the allocation of the image returns. -/
def displayHistogram (b : Nat) (hist : List Nat) : M BMem (Option Image) :=
  match hist.min?, hist.max? with
  | some mn, some mx =>
    if mx ≤ mn then pure none
    else do
      let o ← ownResize b (u32 hist.length) 100 ⟨⟨0, 0, 0, 1, 0⟩, 1⟩
      memsetC o.img.data 0 0 (o.img.height * o.img.rowSize)
      histColumns o.img.data o.img.rowSize mn (mx - mn) hist (u32 ((o.img.height - 1) * o.img.rowSize))
      pure (some o.img)
  | _, _ => pure none

/-! ### Lemmas -/

/-- Memory `m1` is `m` with white at the cells `P` of block `b`. Not in the code: for statements and proofs. -/
structure Whitened (m m1 : BMem) (b : Nat) (P : Nat → Prop) : Prop where
  size : m1.size = m.size
  on : ∀ i, P i → m1.byte b i = 255
  off : ∀ c i, ¬ (c = b ∧ P i) → m1.byte c i = m.byte c i

theorem histColumn_ok {m : BMem} {b n x L : Nat} (hb : b ≠ 0) (hs : m.size b = 100 * n) (hx : x < n) (hL : L ≤ 100) :
    ∃ m', histColumn b n L ((99 * n + x : Nat) : Int) m = .ok () m' ∧
      Whitened m m' b fun i => ∃ y, y < L ∧ i = (99 - y) * n + x := by
  have e := loop_eq_fold (μ := BMem) (cond := fun s : Nat × Int => decide (s.1 < L)) (next := fun s => (s.1 + 1, s.2 - (n : Int)))
    (body := fun s (_ : Unit) => writeI b s.2 255) (fun k => (k, ((99 * n + x : Nat) : Int) - (k : Int) * (n : Int))) L fuelMax () (by
      unfold fuelMax; omega)
    (fun k hk => decide_eq_true hk) (decide_eq_false (Nat.lt_irrefl _)) (fun k _ => by
      rw [Prod.mk.injEq]
      refine ⟨rfl, ?_⟩
      have : ((k + 1 : Nat) : Int) * (n : Int) = k * n + n := by rw [Int.natCast_add, Int.add_mul]; omega
      rw [this]
      show _ - _ - _ = _
      omega)
  obtain ⟨m', h1, h2⟩ := fold_mem (μ := BMem) (body := fun k => writeI b (((99 * n + x : Nat) : Int) - (k : Int) * (n : Int)) 255)
    (P := fun j m1 => Whitened m m1 b fun i => ∃ y, y < j ∧ i = (99 - y) * n + x) L m
    ⟨rfl, fun i ⟨y, hy, _⟩ => absurd hy (Nat.not_lt_zero _), fun _ _ _ => rfl⟩ (by
      intro j hj m1 r
      have hpos : ((99 * n + x : Nat) : Int) - (j : Int) * (n : Int) = (((99 - j) * n + x : Nat) : Int) := by
        have : 99 * n = (99 - j) * n + j * n := by rw [← Nat.add_mul]; congr 1; omega
        rw [this]
        push_cast
        omega
      have hlt : (99 - j) * n + x < 100 * n := by
        have := Nat.mul_le_mul_right n (show 99 - j ≤ 99 by omega)
        omega
      refine ⟨m1.set b ((99 - j) * n + x) 255, ?_, ?_⟩
      · rw [hpos, writeI, if_pos (by omega), Int.toNat_natCast]
        exact writeC_ok _ ⟨hb, by rw [r.size, hs]; exact hlt⟩
      · refine ⟨r.size, ?_, ?_⟩
        · rintro i ⟨y, hy, rfl⟩
          by_cases he : (99 - y) * n + x = (99 - j) * n + x
          · rw [he]; exact Mem.set_same ..
          · rw [Mem.set_other _ _ (fun h => he h.2)]
            refine r.on _ ⟨y, ?_, rfl⟩
            have : y ≠ j := fun h => he (by rw [h])
            omega
        · intro c i hn
          rw [Mem.set_other _ _ (fun h => hn ⟨h.1, j, by omega, h.2⟩)]
          exact r.off c i fun ⟨h, y, hy, hi⟩ => hn ⟨h, y, by omega, hi⟩)
  refine ⟨m', ?_, h2⟩
  rw [← h1]
  have e0 : (0, ((99 * n + x : Nat) : Int)) = (0, ((99 * n + x : Nat) : Int) - ((0 : Nat) : Int) * (n : Int)) := by simp
  rw [histColumn, e0]
  exact congrFun e m

theorem histLimit_le {mn mx v : Nat} (h : mn < mx) (hv : v ≤ mx) : histLimit mn (mx - mn) v ≤ 100 := by
  refine Nat.le_trans (Nat.div_le_div_right (c := mx - mn) (u32_le _)) ?_
  refine Nat.div_le_of_le_mul ?_
  exact Nat.mul_le_mul_right 100 (by omega)

theorem histColumns_ok {m : BMem} {b mn mx : Nat} {hist : List Nat} (hb : b ≠ 0) (hs : m.size b = 100 * hist.length)
    (hsmall : hist.length * 100 < 4294967296) (h : mn < mx) (hmx : ∀ v ∈ hist, v ≤ mx) :
    ∃ m', histColumns b hist.length mn (mx - mn) hist (99 * hist.length) m = .ok () m' ∧
      Whitened m m' b fun i => ∃ x v y, hist[x]? = some v ∧ y < histLimit mn (mx - mn) v ∧ i = (99 - y) * hist.length + x := by
  have e := loop_eq_fold (μ := BMem) (cond := fun s : Nat × Nat => decide (s.1 < hist.length)) (next := fun s => (s.1 + 1, s.2 + 1))
    (body := fun s (_ : Unit) => match hist[s.1]? with
      | none => ubE
      | some v => histColumn b hist.length (histLimit mn (mx - mn) v) s.2) (fun k => (k, 99 * hist.length + k)) hist.length fuelMax () (by
      unfold fuelMax; omega)
    (fun k hk => decide_eq_true hk) (decide_eq_false (Nat.lt_irrefl _)) (fun k _ => rfl)
  obtain ⟨m', h1, h2⟩ := fold_mem (μ := BMem) (body := fun k => match hist[k]? with
      | none => ubE
      | some v => histColumn b hist.length (histLimit mn (mx - mn) v) ((99 * hist.length + k : Nat) : Int))
    (P := fun j m1 => Whitened m m1 b fun i => ∃ x v y, x < j ∧ hist[x]? = some v ∧ y < histLimit mn (mx - mn) v ∧
      i = (99 - y) * hist.length + x) hist.length m
    ⟨rfl, fun i ⟨x, _, _, hx, _⟩ => absurd hx (Nat.not_lt_zero _), fun _ _ _ => rfl⟩ (by
      intro j hj m1 r
      obtain ⟨v, hv⟩ : ∃ v, hist[j]? = some v := ⟨_, List.getElem?_eq_getElem hj⟩
      have hvm : v ∈ hist := List.mem_of_getElem? hv
      obtain ⟨m2, k1, k2⟩ := histColumn_ok (m := m1) (b := b) (n := hist.length) (x := j) hb (by rw [r.size, hs]) hj
        (histLimit_le h (hmx v hvm))
      refine ⟨m2, ?_, k2.size.trans r.size, ?_, ?_⟩
      · simp only [hv]
        exact k1
      · rintro i ⟨x, w, y, hx, hw, hy, hi⟩
        by_cases hc : ∃ y, y < histLimit mn (mx - mn) v ∧ i = (99 - y) * hist.length + j
        · exact k2.on i hc
        · rw [k2.off b i fun h => hc h.2]
          refine r.on i ⟨x, w, y, ?_, hw, hy, hi⟩
          have : x ≠ j := by
            rintro rfl
            rw [hv] at hw
            cases hw
            exact hc ⟨y, hy, hi⟩
          omega
      · intro c i hn
        rw [k2.off c i fun ⟨h1, y, hy, hi⟩ => hn ⟨h1, j, v, y, by omega, hv, hy, hi⟩]
        exact r.off c i fun ⟨h1, x, w, y, hx, hw⟩ => hn ⟨h1, x, w, y, by omega, hw⟩)
  refine ⟨m', ?_, h2.size, ?_, ?_⟩
  · rw [← h1]
    exact congrFun e m
  · rintro i ⟨x, v, y, hx, hy⟩
    exact h2.on i ⟨x, v, y, (List.getElem?_eq_some_iff.1 hx).1, hx, hy⟩
  · intro c i hn
    exact h2.off c i fun ⟨h1, x, v, y, _, hx⟩ => hn ⟨h1, x, v, y, hx⟩

end PV.Ui
