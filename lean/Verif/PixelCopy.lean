import Verif.PixelFn
/-
  Lemmas about the `memcpy`/`memset` row loops of `Copy` and `Fill`.
-/
namespace PV

variable {α : Type}

theorem memcpyC_eq {b i b' i' n : Nat} (h : ¬ (b = b' ∧ i < i' + n ∧ i' < i + n)) :
    (memcpyC b i b' i' n : M (Mem α) Unit) = fold (fun k _ => do
      let v ← readC b' (i' + k)
      writeC b (i + k) v) (List.range n) () := by
  funext m
  rw [memcpyC, if_neg h]

/-- Two ranges of one block that overlap have a common cell. -/
theorem overlap_common {i i' n : Nat} (h1 : i < i' + n) (h2 : i' < i + n) :
    ∃ k k', k < n ∧ k' < n ∧ i + k = i' + k' := by
  by_cases h : i ≤ i'
  · exact ⟨i' - i, 0, by omega, by omega, by omega⟩
  · exact ⟨0, i - i', by omega, by omega, by omega⟩

/-- A loop over rows calling `memcpy`, with arbitrary numbers of rows and cells. -/
theorem copyRows_eq {bo bi rowO rowI outY inY n height : Nat}
    (hr : 0 < rowO) (hfit : height * rowO < 4294967296)
    (hno : ∀ j, j < height → ¬ (bo = bi ∧ outY + j * rowO < inY + j * rowI + n ∧
      inY + j * rowI < outY + j * rowO + n)) :
    (loop (fun s : Nat × Nat => s.1 != outY + u32 (height * rowO))
      (fun s => (s.1 + rowO, s.2 + rowI))
      (fun s _ => memcpyC bo s.1 bi s.2 n) fuelMax (outY, inY) () : M (Mem α) Unit)
      = fold (fun p _ => do
          let v ← readC bi (inY + p.1 * rowI + p.2)
          writeC bo (outY + p.1 * rowO + p.2) v) (grid height n) () := by
  rw [fold_grid, u32_of_lt hfit]
  have := loop_eq_fold (μ := Mem α) (A := Unit)
    (cond := fun s : Nat × Nat => s.1 != outY + height * rowO)
    (next := fun s => (s.1 + rowO, s.2 + rowI))
    (body := fun s _ => memcpyC bo s.1 bi s.2 n)
    (fun k => (outY + k * rowO, inY + k * rowI)) height fuelMax () (count_lt_fuel hr hfit)
    (fun k hk => ptr_ne hk hr) (by simp)
    (fun k _ => by simp only [Nat.succ_mul, Prod.mk.injEq]; omega)
  simp only [Nat.zero_mul, Nat.add_zero] at this
  rw [this]
  refine fold_congr () fun j hj => ?_
  funext a
  rw [memcpyC_eq (hno j (List.mem_range.1 hj))]

/-- A loop over rows calling `memset`. -/
theorem fillRows_eq {b row pY n height : Nat} {v : α}
    (hr : 0 < row) (hfit : height * row < 4294967296) :
    (loop (fun s : Nat => s != pY + u32 (height * row)) (fun s => s + row)
      (fun s _ => memsetC b s v n) fuelMax pY () : M (Mem α) Unit)
      = fold (fun p _ => writeC b (pY + p.1 * row + p.2) v) (grid height n) () := by
  rw [fold_grid, u32_of_lt hfit]
  have := loop_eq_fold (μ := Mem α) (A := Unit)
    (cond := fun s : Nat => s != pY + height * row)
    (next := fun s => s + row)
    (body := fun s _ => memsetC b s v n)
    (fun k => pY + k * row) height fuelMax () (count_lt_fuel hr hfit)
    (fun k hk => ptr_ne hk hr) (by simp)
    (fun k _ => by simp only [Nat.succ_mul]; omega)
  simp only [Nat.zero_mul, Nat.add_zero] at this
  rw [this]
  rfl

/-- `CopyRoi` as a walk over all bytes. -/
theorem CopyRoi_fold {m : BMem} {inp out : View} {w h : Nat}
    (wfi : inp.img.WF m) (wfo : out.img.WF m) (fiti : inp.Fits w h) (fito : out.Fits w h)
    (co : out.img.cc = inp.img.cc) (hap : Apart inp w h out w h) :
    CopyRoi inp out w h m
      = fold (fun p _ => do
          let v ← readC inp.img.data (inp.cell p.1 p.2.1 p.2.2)
          writeC out.img.data (out.cell p.1 p.2.1 p.2.2) v) (bytesL w h inp.img.cc) () m := by
  obtain ⟨hcc, hr, _, _, _, hfit, _, _, hwcc, _⟩ := View.facts wfo fito
  rw [co] at hcc hwcc
  have hno : ∀ y k, y < h → k < w * inp.img.cc → ∀ y' k', y' < h → k' < w * inp.img.cc →
      inp.img.data = out.img.data →
      inp.start inp.img.cc + y * inp.img.rowSize + k ≠ out.start inp.img.cc + y' * out.img.rowSize + k' := by
    intro y k hy hk y' k' hy' hk' hd he
    have a1 : k / inp.img.cc < w := Nat.div_lt_of_lt_mul (by rw [Nat.mul_comm]; exact hk)
    have a2 : k' / inp.img.cc < w := Nat.div_lt_of_lt_mul (by rw [Nat.mul_comm]; exact hk')
    have b1 : k % inp.img.cc < inp.img.cc := Nat.mod_lt _ hcc
    have b2 : k' % inp.img.cc < inp.img.cc := Nat.mod_lt _ hcc
    have e1 := View.start_cell wfi fiti (k / inp.img.cc) y (k % inp.img.cc)
    have e2 := View.start_cell wfo fito (k' / inp.img.cc) y' (k' % inp.img.cc)
    rw [co] at e2
    rw [Nat.mul_comm _ inp.img.cc, Nat.div_add_mod] at e1 e2
    refine hap _ _ _ (k' / inp.img.cc) y' (k' % inp.img.cc) a1 hy b1 a2 hy' (by omega) hd ?_
    rw [← e1, ← e2]
    exact he
  have key : CopyRoi inp out w h m
      = fold (fun p _ => do
          let v ← readC inp.img.data (inp.start inp.img.cc + p.1 * inp.img.rowSize + p.2)
          writeC out.img.data (out.start inp.img.cc + p.1 * out.img.rowSize + p.2) v)
          (grid h (w * inp.img.cc)) () m := by
    rw [CopyRoi, bind_ok (validate_pre_ok (vs := [inp, out]) (by simp; exact ⟨⟨wfi, fiti⟩, wfo, fito⟩)),
      bind_ok (common_ok (by simp [co])), u32_of_lt hwcc]
    rcases optimiseRoi_cases (w * inp.img.cc) h [inp.img, out.img] fito.hpos with he | ⟨he, hrow, hlt⟩
    · simp only [he]
      rw [copyRows_eq hr hfit]
      rintro j hj ⟨hd, h1, h2⟩
      obtain ⟨k, k', hk, hk', hkk⟩ := overlap_common h1 h2
      exact hno j k' hj hk' j k hj hk hd.symm hkk.symm
    · simp only [he]
      have hrO : out.img.rowSize = w * inp.img.cc := hrow _ (by simp)
      have hrI : inp.img.rowSize = w * inp.img.cc := hrow _ (by simp)
      rw [copyRows_eq hr (by omega), fold_grid_one]
      · refine congrFun (fold_congr () fun p _ => ?_) m
        simp only [hrO, hrI, Nat.zero_mul, Nat.add_zero, Nat.add_assoc]
      · rintro j hj ⟨hd, h1, h2⟩
        obtain ⟨k, k', hk, hk', hkk⟩ := overlap_common h1 h2
        have hj0 : j = 0 := by omega
        subst hj0
        have hwpos : 0 < w * inp.img.cc := Nat.mul_pos fito.wpos hcc
        have q1 : k / (w * inp.img.cc) < h := Nat.div_lt_of_lt_mul (by rw [Nat.mul_comm]; exact hk)
        have q2 : k' / (w * inp.img.cc) < h := Nat.div_lt_of_lt_mul (by rw [Nat.mul_comm]; exact hk')
        refine hno (k' / (w * inp.img.cc)) (k' % (w * inp.img.cc)) q2 (Nat.mod_lt _ hwpos)
          (k / (w * inp.img.cc)) (k % (w * inp.img.cc)) q1 (Nat.mod_lt _ hwpos) hd.symm ?_
        have d1 := Nat.div_add_mod k (w * inp.img.cc)
        have d2 := Nat.div_add_mod k' (w * inp.img.cc)
        rw [hrO, hrI, Nat.mul_comm (k / _), Nat.mul_comm (k' / _)]
        omega
  rw [key, fold_bytesL]
  refine congrFun (fold_congr () fun p _ => ?_) m
  have e1 := View.start_cell wfi fiti p.1 p.2.1 p.2.2
  have eo := View.start_cell wfo fito p.1 p.2.1 p.2.2
  rw [co] at eo
  simp only [e1, eo]

theorem CopyRoi_rows {m : BMem} {inp out : View} {w h : Nat}
    (wfi : inp.img.WF m) (wfo : out.img.WF m) (fiti : inp.Fits w h) (fito : out.Fits w h)
    (co : out.img.cc = inp.img.cc) (hap : Apart inp w h out w h) :
    ∃ m', CopyRoi inp out w h m = .ok () m' ∧
      WritesRoi m m' out w h (fun x y c => inp.get m x y c) := by
  have hcc := (View.facts wfi fiti).1
  rw [CopyRoi_fold wfi wfo fiti fito co hap]
  refine roi_writes wfo fito nodup_bytesL (fun p => by rw [mem_bytesL hcc, co]) ?_
  intro x y c hx hy hc m' hoth
  have hc1 : c < inp.img.cc := by omega
  simp only
  rw [bind_ok (readC_get wfi fiti hoth.size_eq hx hy hc1),
    writeC_get wfo fito hoth.size_eq hx hy hc,
    hoth.get_apart hap hx hy hc1]

theorem Fill_rows {m : BMem} {v : View} {w h : Nat} (wf : v.img.WF m) (fit : v.Fits w h)
    (value : UInt8) :
    ∃ m', Fill v w h value m = .ok () m' ∧ WritesRoi m m' v w h (fun _ _ _ => value) := by
  obtain ⟨hcc, hr, _, _, _, hfit, _, _, hwcc, _⟩ := View.facts wf fit
  have key : Fill v w h value m
      = fold (fun p _ => writeC v.img.data (v.start v.img.cc + p.1 * v.img.rowSize + p.2) value)
          (grid h (w * v.img.cc)) () m := by
    rw [Fill, bind_ok (validate_pre_ok (vs := [v]) (by simp; exact ⟨wf, fit⟩)), u32_of_lt hwcc]
    rcases optimiseRoi_cases (w * v.img.cc) h [v.img] fit.hpos with he | ⟨he, hrow, hlt⟩
    · simp only [he]
      rw [fillRows_eq hr hfit]
    · simp only [he]
      have hrO : v.img.rowSize = w * v.img.cc := hrow _ (by simp)
      rw [fillRows_eq hr (by omega), fold_grid_one]
      refine congrFun (fold_congr () fun p _ => ?_) m
      simp only [hrO, Nat.zero_mul, Nat.add_zero, Nat.add_assoc]
  rw [key, fold_bytesL]
  refine roi_writes wf fit nodup_bytesL (fun p => by rw [mem_bytesL hcc]) ?_
  intro x y c hx hy hc m' hoth
  simp only [View.start_cell wf fit x y c]
  rw [writeC_get wf fit hoth.size_eq hx hy hc]

end PV
