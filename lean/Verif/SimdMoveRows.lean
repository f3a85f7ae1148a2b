import Verif.SimdMove
/-
  What the kernels of SimdMove write.
-/
namespace PV.Simd

variable {α β μ : Type}

theorem moveRows_eq {rowOut rowIn : Nat} {row : Nat → Nat → M μ Unit} {outY inY h : Nat} (hr : 0 < rowOut)
    (hh : h * rowOut < 4294967296) :
    moveRows rowOut rowIn row outY inY h
      = fold (fun y _ => row (inY + y * rowIn) (outY + y * rowOut)) (List.range h) () := by
  have e := loop_eq_fold (μ := μ) (cond := fun s : Nat × Nat => s.1 != outY + h * rowOut)
    (next := fun s => (s.1 + rowOut, s.2 + rowIn)) (body := fun s (_ : Unit) => row s.2 s.1)
    (fun k => (outY + k * rowOut, inY + k * rowIn)) h fuelMax () (count_lt_fuel hr hh)
    (fun k hk => ptr_ne hk hr) (by simp) (fun k _ => by simp only [Nat.succ_mul, Prod.mk.injEq]; omega)
  simp only [Nat.zero_mul, Nat.add_zero] at e
  rw [moveRows, u32_of_lt hh, e]

/-- A row which is written in groups of cells. -/
theorem moveRow_ok {m1 : Mem β} {bo : Nat} {val : Nat → β} {di do' ei eo sw cnt total totalOut non inY outY N : Nat}
    {reg one : Nat → Nat → M (Mem β) Unit} (htot : total = sw * di) (htotO : totalOut = sw * do')
    (hnon : non = cnt * ei) (hdi : 0 < di) (hei : 0 < ei) (hN : N = sw * do' + cnt * eo)
    (hsw : sw < 4294967296) (hcnt : cnt < 4294967296)
    (hreg : ∀ s, s < sw → ∀ m2, RowState m1 bo outY N val (· < s * do') m2 →
      ∃ m3, reg (inY + s * di) (outY + s * do') m2 = .ok () m3 ∧ RowState m1 bo outY N val (· < (s + 1) * do') m3)
    (hone : ∀ i, i < cnt → ∀ m2, RowState m1 bo outY N val (· < sw * do' + i * eo) m2 →
      ∃ m3, one (inY + sw * di + i * ei) (outY + sw * do' + i * eo) m2 = .ok () m3 ∧
        RowState m1 bo outY N val (· < sw * do' + (i + 1) * eo) m3) :
    moveRow di do' reg ei eo one total totalOut non inY outY m1 = .ok () (setRange m1 bo outY N val) := by
  subst htot htotO hnon
  have e1 := loop_eq_fold (μ := Mem β) (cond := fun s : Nat × Nat => s.1 != inY + sw * di)
    (next := fun s => (s.1 + di, s.2 + do')) (body := fun s (_ : Unit) => reg s.1 s.2)
    (fun k => (inY + k * di, outY + k * do')) sw fuelMax () (by rw [fuelMax]; omega)
    (fun k hk => ptr_ne hk hdi) (by simp) (fun k _ => by simp only [Nat.succ_mul, Prod.mk.injEq]; omega)
  simp only [Nat.zero_mul, Nat.add_zero] at e1
  have e2 : (if cnt * ei > 0 then
      loop (fun s : Nat × Nat => s.1 != inY + sw * di + cnt * ei) (fun s => (s.1 + ei, s.2 + eo))
        (fun s (_ : Unit) => one s.1 s.2) fuelMax (inY + sw * di, outY + sw * do') ()
      else pure ())
      = fold (fun i _ => one (inY + sw * di + i * ei) (outY + sw * do' + i * eo)) (List.range cnt) () := by
    have := loop_eq_fold (μ := Mem β) (cond := fun s : Nat × Nat => s.1 != inY + sw * di + cnt * ei)
      (next := fun s => (s.1 + ei, s.2 + eo)) (body := fun s (_ : Unit) => one s.1 s.2)
      (fun k => (inY + sw * di + k * ei, outY + sw * do' + k * eo)) cnt fuelMax () (by rw [fuelMax]; omega)
      (fun k hk => ptr_ne hk hei) (by simp) (fun k _ => by simp only [Nat.succ_mul, Prod.mk.injEq]; omega)
    simp only [Nat.zero_mul, Nat.add_zero] at this
    rw [this]
    by_cases h0 : cnt * ei > 0
    · rw [if_pos h0]
    · have : cnt = 0 := by
        rcases Nat.eq_zero_or_pos cnt with h | h
        · exact h
        · exact absurd (Nat.mul_pos h hei) h0
      subst this
      rw [if_neg h0]
      rfl
  obtain ⟨m2, h1, h2⟩ := fold_mem (body := fun s => reg (inY + s * di) (outY + s * do'))
    (P := fun s m2 => RowState m1 bo outY N val (· < s * do') m2) sw m1
    (RowState.start m1 bo outY N val _ (by simp)) hreg
  obtain ⟨m3, h3, h4⟩ := fold_mem (body := fun i => one (inY + sw * di + i * ei) (outY + sw * do' + i * eo))
    (P := fun i m2 => RowState m1 bo outY N val (· < sw * do' + i * eo) m2) cnt m2
    (h2.mono (by simp)) hone
  rw [moveRow, e1, bind_ok h1, e2, h3, h4.finish (fun t ht => by omega)]

theorem loadFrom_ok {src : Mem α} {n b p : Nat} {s : μ} (hn : 0 < n) (hv : ∀ i, i < n → src.Valid b (p + i)) :
    loadFrom src n b p s = .ok (fun i => src.byte b (p + i)) s := by
  have h0 := hv 0 hn
  have h1 := (hv (n - 1) (by omega)).2
  rw [loadFrom, if_pos ⟨h0.1, by omega⟩]

theorem setRange_append (m : Mem α) (b p n k : Nat) (v v' V : Nat → α) (h1 : ∀ t, t < n → v t = V t)
    (h2 : ∀ t, t < k → v' t = V (n + t)) :
    setRange (setRange m b p n v) b (p + n) k v' = setRange m b p (n + k) V := by
  have r0 := RowState.start m b p (n + k) V (fun _ => False) (by simp)
  have r1 := r0.store (v := v) (done' := (· < n)) 0 n (by omega)
    (fun t _ hd => Or.inl ⟨by omega, by omega, h1 t hd⟩)
  have r2 := r1.store (v := v') (done' := fun _ => True) n k (by omega) (fun t ht _ => by
    by_cases hc : t < n
    · exact Or.inr ⟨by omega, hc⟩
    · refine Or.inl ⟨by omega, by omega, ?_⟩
      rw [h2 _ (by omega)]
      congr 1
      omega)
  rw [Nat.add_zero] at r2
  exact r2.finish fun _ _ => trivial

theorem setRange_append3 (m : Mem α) (b p n : Nat) (v1 v2 v3 V : Nat → α) (h1 : ∀ t, t < n → v1 t = V t)
    (h2 : ∀ t, t < n → v2 t = V (n + t)) (h3 : ∀ t, t < n → v3 t = V (n + n + t)) :
    setRange (setRange (setRange m b p n v1) b (p + n) n v2) b (p + (n + n)) n v3 = setRange m b p (n + n + n) V := by
  rw [setRange_append m b p n n v1 v2 V h1 h2]
  exact setRange_append m b p (n + n) n V v3 V (fun _ _ => rfl) h3

/-! ### 16-bit conversion -/

/-- Which pixel of a group ConvertTo16Bit puts into place `j`. -/
def order16 (k : Kind) (j : Nat) : Nat :=
  if k = .neon then j else j % (size k / 2) / 8 * 16 + j % 8

/-- Which pixel of a group ConvertTo8Bit puts into place `j`. Not in the code: for statements and proofs. -/
def order8 (k : Kind) (j : Nat) : Nat :=
  if k = .neon then j else if j % 16 < 8 then j / 16 * 8 + j % 16 else size k / 2 + (j / 16 * 8 + (j % 16 - 8))

theorem words_unpacklo (d : Vec) (i : Nat) : words (unpacklo8 zero8 d) i = to16 (d (i / 8 * 16 + i % 8)) := by
  have e1 : unpacklo8 zero8 d (2 * i) = 0 := by
    rw [unpacklo8, if_pos (by omega)]
    rfl
  have e2 : unpacklo8 zero8 d (2 * i + 1) = d (i / 8 * 16 + i % 8) := by
    rw [unpacklo8, if_neg (by omega)]
    congr 1
    omega
  rw [words, e1, e2]
  apply UInt16.toNat_inj.1
  have ha := (d (i / 8 * 16 + i % 8)).toNat_lt
  rw [to16, UInt16.toNat_shiftLeft, UInt16.toNat_ofNat', UInt8.toNat_toUInt16]
  simp only [Nat.shiftLeft_eq]
  rw [show (0 : UInt8).toNat = 0 from rfl, Nat.zero_add, Nat.mul_comm]
  rfl

theorem to16Reg_ok {k : Kind} (hk : k ≠ .cpu) {src : BMem} {m : Mem UInt16} {bi bo inX outX : Nat}
    (hi : ∀ i, i < convStep k → src.Valid bi (inX + i)) (ho : ∀ i, i < convStep k → m.Valid bo (outX + i)) :
    to16Reg k src bi bo inX outX m
      = .ok () (setRange m bo outX (convStep k) fun i => to16 (src.byte bi (inX + order16 k i))) := by
  unfold to16Reg order16
  by_cases hn : k = .neon
  · subst hn
    simp only [if_true]
    exact (bind_ok (loadFrom_ok (by decide) hi)).trans ((storeV_ok (by decide) ho).trans rfl)
  · have hs : convStep k = size k := by cases k <;> first | rfl | exact absurd rfl hn
    have h2 : size k = size k / 2 + size k / 2 := by cases k <;> first | exact absurd rfl hk | decide
    have h8 : size k / 2 % 8 = 0 := by cases k <;> first | exact absurd rfl hk | decide
    have h0 : 0 < size k / 2 := by cases k <;> first | exact absurd rfl hk | decide
    simp only [if_neg hn]
    rw [hs] at hi ho ⊢
    generalize hq : size k / 2 = q at *
    rw [bind_ok (loadFrom_ok (by omega) hi),
      bind_ok (storeV_ok h0 fun i hi => ho i (by omega)),
      storeV_ok h0 (fun i hi => by
        have := ho (q + i) (by omega)
        rw [← Nat.add_assoc] at this
        exact this), h2]
    refine congrArg (Res.ok ()) (setRange_append _ _ _ _ _ _ _ _ ?_ ?_)
    · intro t ht
      rw [words_unpacklo, Nat.mod_eq_of_lt ht]
    · intro t ht
      rw [words_unpacklo, Nat.add_mod_left, Nat.mod_eq_of_lt ht, show (q + t) % 8 = t % 8 by omega]

theorem sat_srl (d : WVec) (i : Nat) : sat8 (srl8 d i) = to8 (d i) := by
  have h : (srl8 d i).toNat < 256 := by
    have := (d i).toNat_lt
    rw [srl8, UInt16.toNat_shiftRight]
    show (d i).toNat >>> 8 < 256
    rw [Nat.shiftRight_eq_div_pow]
    omega
  rw [sat8, if_neg (by omega), if_neg (by omega)]
  rfl

theorem to8Reg_ok {k : Kind} (hk : k ≠ .cpu) {src : Mem UInt16} {m : BMem} {bi bo inX outX : Nat}
    (hi : ∀ i, i < convStep k → src.Valid bi (inX + i)) (ho : ∀ i, i < convStep k → m.Valid bo (outX + i)) :
    to8Reg k src bi bo inX outX m
      = .ok () (setRange m bo outX (convStep k) fun i => to8 (src.byte bi (inX + order8 k i))) := by
  unfold to8Reg order8
  by_cases hn : k = .neon
  · subst hn
    simp only [if_true]
    exact (bind_ok (loadFrom_ok (by decide) hi)).trans ((storeV_ok (by decide) ho).trans rfl)
  · have hs : convStep k = size k := by cases k <;> first | rfl | exact absurd rfl hn
    have h2 : size k = size k / 2 + size k / 2 := by cases k <;> first | exact absurd rfl hk | decide
    have h0 : 0 < size k / 2 := by cases k <;> first | exact absurd rfl hk | decide
    simp only [if_neg hn]
    rw [hs] at hi ho ⊢
    rw [bind_ok (loadFrom_ok h0 fun i h => hi i (by omega)),
      bind_ok (loadFrom_ok h0 (fun i h => by
        have := hi (size k / 2 + i) (by omega)
        rw [← Nat.add_assoc] at this
        exact this)),
      storeV_ok (by omega) ho]
    refine congrArg (Res.ok ()) (setRange_congr fun i _ => ?_)
    rw [packus16]
    by_cases hc : i % 16 < 8
    · rw [if_pos hc, if_pos hc, sat_srl]
    · rw [if_neg hc, if_neg hc, sat_srl, Nat.add_assoc]

theorem order16_lt {k : Kind} (hk : k ≠ .cpu) {j : Nat} (hj : j < convStep k) : order16 k j < convStep k := by
  cases k <;> first | exact absurd rfl hk | (simp only [order16, convStep, size] at *; simp at *; omega)

theorem order8_lt {k : Kind} (hk : k ≠ .cpu) {j : Nat} (hj : j < convStep k) : order8 k j < convStep k := by
  cases k <;> first | exact absurd rfl hk | (simp only [order8, convStep, size] at *; simp at *; split <;> omega) | (simp only [order8, convStep, size] at *; simp at *; omega)

theorem size_convStep (k : Kind) : ∃ q, size k = q * convStep k := by
  cases k
  case neon => exact ⟨2, rfl⟩
  all_goals exact ⟨1, (Nat.one_mul _).symm⟩

theorem convPath_ok {k : Kind} (hk : k ≠ .cpu) {f : α → β} {src : Mem α} {m : Mem β} {inp out : View} {w h : Nat}
    {reg : Nat → Nat → Nat → Nat → M (Mem β) Unit} {pi : Nat → Nat} (hpi : ∀ j, j < convStep k → pi j < convStep k)
    (hreg : ∀ inX outX m2, (∀ i, i < convStep k → src.Valid inp.img.data (inX + i)) →
      (∀ i, i < convStep k → m2.Valid out.img.data (outX + i)) →
      reg inp.img.data out.img.data inX outX m2 = .ok () (setRange m2 out.img.data outX (convStep k)
        fun i => f (src.byte inp.img.data (inX + pi i))))
    (wfi : inp.img.WF src) (wfo : out.img.WF m) (fiti : inp.Fits w h) (fito : out.Fits w h)
    (co : out.img.cc = inp.img.cc) :
    ∃ m', convPath k f reg src inp out w h m = .ok () m' ∧ WritesRoi m m' out w h fun x y c =>
      f (src.byte inp.img.data ((inp.y + y) * inp.img.rowSize + (inp.x +
        source (convStep k) (w * inp.img.cc / size k * size k) pi (x * inp.img.cc + c)))) := by
  obtain ⟨hcc, hr, _, _, _, hfit, _, _, hwcc, _⟩ := View.facts wfo fito
  obtain ⟨_, _, _, hwi, hhi, _, hyi, _, _, _⟩ := View.facts wfi fiti
  obtain ⟨_, _, _, hwo, hho, _⟩ := View.facts wfo fito
  rw [co] at hcc hwcc
  have hle : w * inp.img.cc / size k * size k ≤ w * inp.img.cc := Nat.div_mul_le_self _ _
  obtain ⟨q, hq⟩ := size_convStep k
  have hn : 0 < convStep k := by cases k <;> decide
  have hsw : w * inp.img.cc / size k * size k = (w * inp.img.cc / size k * q) * convStep k := by
    rw [Nat.mul_assoc, ← hq]
  have e0 : convPath k f reg src inp out w h m = moveRows out.img.rowSize inp.img.rowSize
    (moveRow (convStep k) (convStep k) (reg inp.img.data out.img.data) 1 1
      (convOne f src inp.img.data out.img.data) (w * inp.img.cc / size k * size k)
      (w * inp.img.cc / size k * size k) (w * inp.img.cc - w * inp.img.cc / size k * size k))
    (out.start inp.img.cc) (u32 (inp.y * inp.img.rowSize) + inp.x) h m := by
    rw [convPath, bind_ok (validateRois_ok (vs := [inp]) m (by simp; exact ⟨fiti, hwi, hhi⟩)),
      bind_ok (validateRois_ok (vs := [out]) m (by simp; exact ⟨fito, hwo, hho⟩)),
      bind_ok (common_ok (by simp [co])), u32_of_lt hwcc,
      u32_of_lt (show w * inp.img.cc / size k * size k < 4294967296 by omega)]
  rw [e0, moveRows_eq hr hfit, ← co]
  generalize hsr : source (convStep k) (w * out.img.cc / size k * size k) pi = σ
  rw [← co] at hsw hle hwcc hcc
  generalize hT : w * out.img.cc / size k * size k = T at *
  generalize hSW : w * out.img.cc / size k * q = sw at *
  have hswlt : sw ≤ sw * convStep k := Nat.le_mul_of_pos_right _ hn
  have hrc : ∀ y t, y < h → t < w * out.img.cc →
      src.Valid inp.img.data (u32 (inp.y * inp.img.rowSize) + inp.x + y * inp.img.rowSize + t) := by
    intro y t hy ht
    have h1 := rawCell_valid wfi fiti (x := t / out.img.cc) (y := y) (c := t % out.img.cc)
      (Nat.div_lt_of_lt_mul (by rw [Nat.mul_comm]; exact ht)) hy (by rw [← co]; exact Nat.mod_lt _ hcc)
    rw [rawCell, ← co, Nat.mul_comm (t / _), Nat.div_add_mod, Nat.add_mul] at h1
    rw [u32_of_lt hyi]
    rwa [show inp.y * inp.img.rowSize + inp.x + y * inp.img.rowSize + t
      = inp.y * inp.img.rowSize + y * inp.img.rowSize + (inp.x + t) by omega]
  have hvo : ∀ y t, y < h → t < w * out.img.cc →
      m.Valid out.img.data (out.start out.img.cc + y * out.img.rowSize + t) := by
    intro y t hy ht
    have e := View.start_cell wfo fito (t / out.img.cc) y (t % out.img.cc)
    rw [Nat.mul_comm (t / _), Nat.div_add_mod] at e
    rw [e]
    exact View.cell_valid wfo fito (Nat.div_lt_of_lt_mul (by rw [Nat.mul_comm]; exact ht)) hy (Nat.mod_lt _ hcc)
  refine rows_writes wfo fito (ρ := id) (val := fun y t => f (src.byte inp.img.data
      ((inp.y + y) * inp.img.rowSize + (inp.x + σ t)))) (fun l hl => List.mem_range.1 hl)
    (fun y hy => ⟨y, List.mem_range.2 hy, rfl⟩) ?_
  intro y hy m1 ho
  have hy := List.mem_range.1 hy
  have hin : ∀ t, u32 (inp.y * inp.img.rowSize) + inp.x + y * inp.img.rowSize + t
      = (inp.y + y) * inp.img.rowSize + (inp.x + t) := by
    intro t
    rw [u32_of_lt hyi, Nat.add_mul]
    omega
  refine moveRow_ok (sw := sw) (cnt := w * out.img.cc - T) hsw hsw (Nat.mul_one _).symm hn (by decide)
    (show w * out.img.cc = _ by omega) (by omega) (by omega) ?_ ?_
  · intro s hs m2 r
    have hlt : ∀ i, i < convStep k → s * convStep k + i < T := fun i hi => by
      rw [hsw]
      exact mul_add_lt hs hi
    refine ⟨_, hreg _ _ m2 ?_ ?_, ?_⟩
    · intro i hi
      rw [Nat.add_assoc]
      exact hrc y _ hy (by have := hlt i hi; omega)
    · intro i hi
      rw [Nat.add_assoc]
      exact Mem.valid_of_size (r.size_eq.trans ho.size_eq) (hvo y _ hy (by have := hlt i hi; omega))
    · have h1 := hlt (convStep k - 1) (by omega)
      refine r.store _ _ (by omega) fun t ht hd => ?_
      rw [Nat.succ_mul] at hd
      by_cases hc : t < s * convStep k
      · exact Or.inr ⟨by omega, hc⟩
      · refine Or.inl ⟨by omega, by omega, ?_⟩
        have hdiv : t / convStep k = s := by
          rw [show t = convStep k * s + (t - s * convStep k) by rw [Nat.mul_comm]; omega, Nat.mul_add_div hn,
            Nat.div_eq_of_lt (by omega), Nat.add_zero]
        have hmod : t % convStep k = t - s * convStep k := by
          have := Nat.div_add_mod t (convStep k)
          rw [hdiv, Nat.mul_comm] at this
          omega
        have hlt' : t < T := by
          have := hlt (t - s * convStep k) (by omega)
          omega
        show f _ = f _
        congr 2
        show _ = (inp.y + y) * inp.img.rowSize + (inp.x + σ t)
        rw [← hsr, source, if_pos hlt', hdiv, hmod, ← hin]
        omega
  · intro i hi m2 r
    have hr1 : readFrom (μ := Mem β) src inp.img.data (u32 (inp.y * inp.img.rowSize) + inp.x + y * inp.img.rowSize
        + sw * convStep k + i * 1) m2 = .ok _ m2 := if_pos (by
      rw [Nat.mul_one, Nat.add_assoc]
      exact hrc y _ hy (by omega))
    refine ⟨_, (bind_ok hr1).trans (writeC_row (Mem.valid_of_size (r.size_eq.trans ho.size_eq) (by
      rw [Nat.mul_one, Nat.add_assoc]
      exact hvo y _ hy (by omega)))), ?_⟩
    rw [Nat.mul_one, Nat.add_assoc (out.start _ + _)]
    refine r.store _ 1 (by omega) fun t ht hd => ?_
    by_cases hc : t < sw * convStep k + i
    · exact Or.inr ⟨by omega, by omega⟩
    · have : t = sw * convStep k + i := by omega
      refine Or.inl ⟨by omega, by omega, ?_⟩
      show f _ = f _
      congr 2
      show _ = (inp.y + y) * inp.img.rowSize + (inp.x + σ t)
      rw [← hsr, source, if_neg (by omega), ← hin]
      omega

/-! ### Moves inside one memory -/

theorem in_valid {m : BMem} {v : View} {w h y t : Nat} (wf : v.img.WF m) (fit : v.Fits w h) (hy : y < h)
    (ht : t < w * v.img.cc) :
    m.Valid v.img.data (v.start v.img.cc + y * v.img.rowSize + t) ∧
    v.start v.img.cc + y * v.img.rowSize + t = v.cell (t / v.img.cc) y (t % v.img.cc) ∧
    t / v.img.cc < w ∧ t % v.img.cc < v.img.cc := by
  obtain ⟨hcc, _⟩ := View.facts wf fit
  have e := View.start_cell wf fit (t / v.img.cc) y (t % v.img.cc)
  rw [Nat.mul_comm (t / _), Nat.div_add_mod] at e
  have h1 : t / v.img.cc < w := Nat.div_lt_of_lt_mul (by rw [Nat.mul_comm]; exact ht)
  have h2 := Nat.mod_lt t hcc
  exact ⟨by rw [e]; exact View.cell_valid wf fit h1 hy h2, e, h1, h2⟩

/-- A pixel of the input is as at the start of the call as long as only the output was changed. -/
theorem in_read {m m2 : BMem} {inp out : View} {w h y t : Nat} (wfi : inp.img.WF m) (fiti : inp.Fits w h)
    (ha : Apart inp w h out w h) (ho : Off m m2 out w h) (hy : y < h) (ht : t < w * inp.img.cc) :
    m2.Valid inp.img.data (inp.start inp.img.cc + y * inp.img.rowSize + t) ∧
    m2.byte inp.img.data (inp.start inp.img.cc + y * inp.img.rowSize + t)
      = inp.get m (t / inp.img.cc) y (t % inp.img.cc) := by
  obtain ⟨hv, e, h1, h2⟩ := in_valid wfi fiti hy ht
  refine ⟨Mem.valid_of_size ho.size_eq hv, ?_⟩
  rw [ho.outside, e, View.get]
  rintro ⟨hb, x', y', c', hx', hy', hc', he⟩
  rw [e] at he
  exact ha _ y _ x' y' c' h1 hy h2 hx' hy' hc' hb he

theorem RowState.off_all {m m2 : Mem α} {out : View} {w h : Nat} {val : Nat → α} {done : Nat → Prop}
    (wf : out.img.WF m) (fit : out.Fits w h) (hrow : out.img.rowSize = w * out.img.cc)
    (r : RowState m out.img.data (out.start out.img.cc) (h * (w * out.img.cc)) val done m2) :
    Off m m2 out w h := by
  obtain ⟨hcc, _⟩ := View.facts wf fit
  refine ⟨r.size_eq, fun b i hi => r.outside b i fun hc => hi ⟨hc.1, ?_⟩⟩
  have hwc : 0 < w * out.img.cc := Nat.mul_pos fit.wpos hcc
  generalize hq : i - out.start out.img.cc = q
  have hdm := Nat.div_add_mod q (w * out.img.cc)
  rw [Nat.mul_comm] at hdm
  refine in_row wf fit (y := q / (w * out.img.cc)) (Nat.div_lt_of_lt_mul (by rw [Nat.mul_comm]; omega)) ?_ ?_
  · rw [hrow]
    omega
  · rw [hrow]
    have := Nat.mod_lt q hwc
    omega

/-! ### ConvertToRgb -/

theorem rgbReg_ok {k : Kind} (hk : k = .sse ∨ k = .neon) {m : BMem} {bi bo inX outX : Nat} {g : Nat → UInt8}
    (hi : ∀ i, i < moveSize k → m.Valid bi (inX + i) ∧ m.byte bi (inX + i) = g i)
    (ho : ∀ i, i < moveSize k * 3 → m.Valid bo (outX + i)) :
    rgbReg k bi bo inX outX m = .ok () (setRange m bo outX (moveSize k * 3) fun i => g (i / 3)) := by
  rcases hk with rfl | rfl
  · unfold rgbReg
    simp only [reduceCtorEq, if_false]
    have hi : ∀ i, i < 16 → m.Valid bi (inX + i) ∧ m.byte bi (inX + i) = g i := hi
    have ho : ∀ i, i < 48 → m.Valid bo (outX + i) := ho
    refine (bind_ok (loadV_ok (by decide) fun i h => (hi i h).1)).trans ?_
    refine (bind_ok (storeV_ok (by decide) fun i h => ho i (by omega))).trans ?_
    refine (bind_ok (storeV_ok (by decide) (fun i h => by
      rw [Nat.add_assoc]
      exact ho _ (by omega)))).trans ?_
    refine (storeV_ok (by decide) (fun i h => by
      rw [Nat.add_assoc]
      exact ho _ (by omega))).trans ?_
    refine congrArg (Res.ok ()) ?_
    have hs : ∀ (ctrl : List Nat) t, t < 16 → shuffle8 ctrl (fun i => m.byte bi (inX + i)) t = g (ctrl.getD t 0 % 16) := by
      intro ctrl t ht
      rw [shuffle8, Nat.div_eq_of_lt ht, Nat.zero_mul, Nat.zero_add]
      exact (hi _ (by omega)).2
    refine setRange_append3 m bo outX 16 _ _ _ _ (fun t ht => ?_) (fun t ht => ?_) (fun t ht => ?_)
    · rw [hs _ t ht]
      exact congrArg g ((by decide : ∀ t, t < 16 →
          [0, 0, 0, 1, 1, 1, 2, 2, 2, 3, 3, 3, 4, 4, 4, 5].getD t 0 % 16 = t / 3) t ht)
    · rw [hs _ t ht]
      exact congrArg g ((by decide : ∀ t, t < 16 →
          [5, 5, 6, 6, 6, 7, 7, 7, 8, 8, 8, 9, 9, 9, 10, 10].getD t 0 % 16 = (16 + t) / 3) t ht)
    · rw [hs _ t ht]
      exact congrArg g ((by decide : ∀ t, t < 16 →
          [10, 11, 11, 11, 12, 12, 12, 13, 13, 13, 14, 14, 14, 15, 15, 15].getD t 0 % 16 = (16 + 16 + t) / 3) t ht)
  · unfold rgbReg
    simp only [if_true]
    have hi : ∀ i, i < 8 → m.Valid bi (inX + i) ∧ m.byte bi (inX + i) = g i := hi
    have ho : ∀ i, i < 24 → m.Valid bo (outX + i) := ho
    refine (bind_ok (loadV_ok (by decide) fun i h => (hi i h).1)).trans ?_
    refine (bind_ok (storeV_ok (by decide) fun i h => ho i (by omega))).trans ?_
    refine (bind_ok (storeV_ok (by decide) (fun i h => by
      rw [Nat.add_assoc]
      exact ho _ (by omega)))).trans ?_
    refine (storeV_ok (by decide) (fun i h => by
      rw [Nat.add_assoc]
      exact ho _ (by omega))).trans ?_
    refine congrArg (Res.ok ()) ?_
    have hs : ∀ (ctrl : List Nat) t, ctrl.getD t 0 < 8 →
        tbl8 ctrl (fun i => m.byte bi (inX + i)) t = g (ctrl.getD t 0) := by
      intro ctrl t ht
      rw [tbl8, if_pos ht]
      exact (hi _ (by omega)).2
    refine setRange_append3 m bo outX 8 _ _ _ _ (fun t ht => ?_) (fun t ht => ?_) (fun t ht => ?_)
    · have h1 := (by decide : ∀ t, t < 8 → [0, 0, 0, 1, 1, 1, 2, 2].getD t 0 = t / 3) t ht
      rw [hs _ t (by omega)]
      exact congrArg g h1
    · have h1 := (by decide : ∀ t, t < 8 → [2, 3, 3, 3, 4, 4, 4, 5].getD t 0 = (8 + t) / 3) t ht
      rw [hs _ t (by omega)]
      exact congrArg g h1
    · have h1 := (by decide : ∀ t, t < 8 → [5, 5, 6, 6, 6, 7, 7, 7].getD t 0 = (8 + 8 + t) / 3) t ht
      rw [hs _ t (by omega)]
      exact congrArg g h1

theorem memset3_ok {m : BMem} {b p : Nat} {v : UInt8} (ho : ∀ i, i < 3 → m.Valid b (p + i)) :
    memsetC b p v 3 m = .ok () (setRange m b p 3 fun _ => v) := by
  have h0 := ho 0 (by decide)
  have h1 := ho 1 (by decide)
  have h2 := ho 2 (by decide)
  show (writeC b (p + 0) v >>= fun _ => writeC b (p + 1) v >>= fun _ => writeC b (p + 2) v >>= fun _ => pure ()) m = _
  rw [Nat.add_zero] at h0 ⊢
  refine (bind_ok (writeC_row h0)).trans ((bind_ok (writeC_row (m := setRange m b p 1 fun _ => v) h1)).trans
    ((bind_ok (writeC_row (m := setRange (setRange m b p 1 fun _ => v) b (p + 1) 1 fun _ => v) h2)).trans ?_))
  show Res.ok () _ = _
  refine congrArg (Res.ok ()) ?_
  exact setRange_append3 m b p 1 _ _ _ _ (fun _ _ => rfl) (fun _ _ => rfl) (fun _ _ => rfl)

theorem rgbKernel_ok {k : Kind} (hk : k = .sse ∨ k = .neon) {m : BMem} {inp out : View} {w h : Nat}
    (wfi : inp.img.WF m) (wfo : out.img.WF m) (fiti : inp.Fits w h) (fito : out.Fits w h)
    (ha : Apart inp w h out w h) (ci : inp.img.cc = 1) (co : out.img.cc = 3) :
    ∃ m', moveRows out.img.rowSize inp.img.rowSize
      (moveRow (moveSize k) (moveSize k * 3) (rgbReg k inp.img.data out.img.data) 1 3
        (rgbOne inp.img.data out.img.data) (u32 (w / moveSize k * moveSize k))
        (u32 (u32 (w / moveSize k * moveSize k) * 3)) (w - u32 (w / moveSize k * moveSize k)))
      (out.start 3) (inp.start 1) h m = .ok () m' ∧
      WritesRoi m m' out w h fun x y _ => inp.get m x y 0 := by
  obtain ⟨_, hr, _, _, _, hfit, _, _, hwcc, _⟩ := View.facts wfo fito
  have hle : w / moveSize k * moveSize k ≤ w := Nat.div_mul_le_self _ _
  have hn : 0 < moveSize k := by rcases hk with rfl | rfl <;> decide
  rw [co] at hwcc
  rw [u32_of_lt (show w / moveSize k * moveSize k < 4294967296 by omega),
    u32_of_lt (show w / moveSize k * moveSize k * 3 < 4294967296 by omega), moveRows_eq hr hfit]
  generalize hSW : w / moveSize k = sw at *
  have hswlt : sw ≤ sw * moveSize k := Nat.le_mul_of_pos_right _ hn
  obtain ⟨m', h1, h2⟩ := rows_writes wfo fito (ρ := id) (val := fun y t => inp.get m (t / 3) y 0)
    (L := List.range h) (fun l hl => List.mem_range.1 hl) (fun y hy => ⟨y, List.mem_range.2 hy, rfl⟩)
    (body := fun y => moveRow (moveSize k) (moveSize k * 3) (rgbReg k inp.img.data out.img.data) 1 3
        (rgbOne inp.img.data out.img.data) (sw * moveSize k) (sw * moveSize k * 3) (w - sw * moveSize k)
        (inp.start 1 + y * inp.img.rowSize) (out.start 3 + y * out.img.rowSize)) (by
    intro y hy m1 ho
    have hy := List.mem_range.1 hy
    have hin := fun {m2 t} (ho2 : Off m m2 out w h) (ht : t < w) =>
      in_read (t := t) wfi fiti ha ho2 hy (by rw [ci]; omega)
    simp only [ci, Nat.div_one, Nat.mod_one] at hin
    rw [co]
    have hvo := fun {m2 t} (ho2 : Off m m2 out w h) (ht : t < w * 3) =>
      Mem.valid_of_size ho2.size_eq (in_valid (t := t) wfo fito hy (by rw [co]; omega)).1
    rw [co] at hvo
    have hoff := fun {m2 val done} r => RowState.off (m2 := m2) (val := val) (done := done) wfo fito hy ho r
    rw [co] at hoff
    have heq : w * 3 = sw * (moveSize k * 3) + (w - sw * moveSize k) * 3 := by
      rw [← Nat.mul_assoc]
      omega
    refine moveRow_ok (sw := sw) (cnt := w - sw * moveSize k) rfl (Nat.mul_assoc _ _ _) (Nat.mul_one _).symm hn
      (by decide) heq (by omega) (by omega) ?_ ?_
    · intro s hs m2 r
      have ho2 := hoff r
      have hlt : ∀ i, i < moveSize k → s * moveSize k + i < w := fun i hi => by
        have := mul_add_lt hs hi
        omega
      have hlt3 : ∀ i, i < moveSize k * 3 → s * (moveSize k * 3) + i < w * 3 := fun i hi => by
        have := mul_add_lt hs hi
        omega
      refine ⟨_, rgbReg_ok hk (g := fun i => inp.get m (s * moveSize k + i) y 0) ?_ ?_, ?_⟩
      · intro i hi
        rw [Nat.add_assoc _ (s * moveSize k)]
        exact hin ho2 (hlt i hi)
      · intro i hi
        rw [Nat.add_assoc _ (s * (moveSize k * 3))]
        exact hvo ho2 (hlt3 i hi)
      · have h1 := hlt3 (moveSize k * 3 - 1) (by omega)
        refine r.store _ _ (by omega) fun t ht hd => ?_
        rw [Nat.succ_mul] at hd
        by_cases hc : t < s * (moveSize k * 3)
        · exact Or.inr ⟨by omega, hc⟩
        · refine Or.inl ⟨by omega, by omega, ?_⟩
          show inp.get m _ _ _ = inp.get m _ _ _
          congr 1
          rw [← Nat.mul_assoc] at *
          omega
    · intro i hi m2 r
      have ho2 := hoff r
      obtain ⟨hv, hb⟩ := hin ho2 (t := sw * moveSize k + i) (by omega)
      rw [← Nat.add_assoc] at hv hb
      refine ⟨_, (bind_ok (readC_ok (m := m2) (by rw [Nat.mul_one]; exact hv))).trans (memset3_ok fun j hj => ?_), ?_⟩
      · rw [Nat.add_assoc _ (sw * (moveSize k * 3)), Nat.add_assoc]
        exact hvo ho2 (by omega)
      · rw [Nat.add_assoc _ (sw * (moveSize k * 3))]
        refine r.store _ 3 (by omega) fun t ht hd => ?_
        by_cases hc : t < sw * (moveSize k * 3) + i * 3
        · exact Or.inr ⟨by omega, hc⟩
        · refine Or.inl ⟨by omega, by omega, ?_⟩
          rw [Nat.mul_one, hb]
          show inp.get m _ _ _ = inp.get m _ _ _
          congr 1
          rw [← Nat.mul_assoc] at *
          omega)
  refine ⟨m', h1, h2.congr fun x y c hx hy hc => ?_⟩
  rw [co] at hc ⊢
  congr 1
  omega

/-! ### Flip -/

theorem flipRows_eq {dy : Int} {n rowIn : Nat} {row : Nat → Int → Int → M μ Unit} {outEnd : Int} {inY h : Nat}
    (hr : 0 < rowIn) (hh : h * rowIn < 4294967296) :
    flipRows dy n rowIn row outEnd inY h
      = fold (fun (y : Nat) _ => row (inY + y * rowIn) (outEnd + y * dy - n) (outEnd + y * dy - 1)) (List.range h) () := by
  have e := loop_eq_fold (μ := μ) (cond := fun s : Nat × Int => s.1 != inY + h * rowIn)
    (next := fun s => (s.1 + rowIn, s.2 + dy)) (body := fun s (_ : Unit) => row s.1 (s.2 - n) (s.2 - 1))
    (fun k => (inY + k * rowIn, outEnd + k * dy)) h fuelMax () (count_lt_fuel hr hh)
    (fun k hk => ptr_ne hk hr) (by simp) (fun k _ => by
      simp only [Nat.succ_mul, Prod.mk.injEq, Int.natCast_add, Int.add_mul, Int.natCast_one, Int.one_mul]
      omega)
  simp only [Nat.zero_mul, Nat.add_zero, Int.natCast_zero, Int.zero_mul, Int.add_zero] at e
  rw [flipRows, u32_of_lt hh, e]

theorem toI_nat {f : Nat → M μ Unit} {o : Int} {p : Nat} (h : o = p) : toI f o = f p := by
  subst h
  rw [toI, if_pos (by omega), Int.toNat_natCast]

theorem flipRow_ok {m1 : Mem β} {bo : Nat} {val : Nat → β} {n sw cnt inY po w : Nat} {oe os : Int}
    {reg one : Nat → Nat → M (Mem β) Unit} (hn : 0 < n) (hw : w = sw * n + cnt) (hw2 : w < 4294967296)
    (hos : os = (po + w : Nat) - (n : Int)) (hoe : oe = (po + w : Nat) - 1)
    (hreg : ∀ s, s < sw → ∀ m2, RowState m1 bo po w val (fun t => w - s * n ≤ t) m2 →
      ∃ m3, reg (inY + s * n) (po + (w - (s + 1) * n)) m2 = .ok () m3 ∧
        RowState m1 bo po w val (fun t => w - (s + 1) * n ≤ t) m3)
    (hone : ∀ i, i < cnt → ∀ m2, RowState m1 bo po w val (fun t => cnt - i ≤ t) m2 →
      ∃ m3, one (inY + sw * n + i) (po + (cnt - i - 1)) m2 = .ok () m3 ∧
        RowState m1 bo po w val (fun t => cnt - (i + 1) ≤ t) m3) :
    flipRow n reg one sw (sw * n) cnt inY os oe m1 = .ok () (setRange m1 bo po w val) := by
  have hswlt : sw ≤ sw * n := Nat.le_mul_of_pos_right _ hn
  have e1 := loop_eq_fold (μ := Mem β) (cond := fun s : Nat × Int => s.1 != inY + sw * n)
    (next := fun s => (s.1 + n, s.2 - n)) (body := fun s (_ : Unit) => toI (reg s.1) s.2)
    (fun k => (inY + k * n, os - k * n)) sw fuelMax () (by rw [fuelMax]; omega)
    (fun k hk => ptr_ne hk hn) (by simp) (fun k _ => by
      simp only [Nat.succ_mul, Prod.mk.injEq, Int.natCast_add, Int.add_mul, Int.natCast_one, Int.one_mul]
      omega)
  simp only [Nat.zero_mul, Nat.add_zero, Int.natCast_zero, Int.zero_mul, Int.sub_zero] at e1
  have e1' : fold (fun (k : Nat) (_ : Unit) => toI (reg (inY + k * n)) (os - k * n)) (List.range sw) ()
      = fold (fun k _ => reg (inY + k * n) (po + (w - (k + 1) * n))) (List.range sw) () := by
    refine fold_congr () fun k hk => ?_
    funext _
    refine toI_nat ?_
    have hk := List.mem_range.1 hk
    have : (k + 1) * n ≤ sw * n := Nat.mul_le_mul_right _ hk
    have e : ((k * n : Nat) : Int) = (k : Int) * n := by rw [Int.natCast_mul]
    rw [Nat.succ_mul] at this ⊢
    omega
  have e2 : (if cnt > 0 then
      loop (fun s : Nat × Int => s.1 != inY + sw * n + cnt) (fun s => (s.1 + 1, s.2 - 1))
        (fun s (_ : Unit) => toI (one s.1) s.2) fuelMax (inY + sw * n, oe - (sw * n : Nat)) ()
      else pure ())
      = fold (fun i _ => one (inY + sw * n + i) (po + (cnt - i - 1))) (List.range cnt) () := by
    have := loop_eq_fold (μ := Mem β) (cond := fun s : Nat × Int => s.1 != inY + sw * n + cnt)
      (next := fun s => (s.1 + 1, s.2 - 1)) (body := fun s (_ : Unit) => toI (one s.1) s.2)
      (fun k => (inY + sw * n + k, oe - (sw * n : Nat) - k)) cnt fuelMax () (by rw [fuelMax]; omega)
      (fun k hk => by simp; omega) (by simp) (fun k _ => by
        simp only [Prod.mk.injEq, Int.natCast_add, Int.natCast_one]
        omega)
    simp only [Nat.add_zero, Int.natCast_zero, Int.sub_zero] at this
    by_cases h0 : cnt > 0
    · rw [if_pos h0, this]
      refine fold_congr () fun k hk => ?_
      have hk := List.mem_range.1 hk
      funext _
      exact toI_nat (by omega)
    · have : cnt = 0 := by omega
      subst this
      rfl
  obtain ⟨m2, h1, h2⟩ := fold_mem (body := fun s => reg (inY + s * n) (po + (w - (s + 1) * n)))
    (P := fun s m2 => RowState m1 bo po w val (fun t => w - s * n ≤ t) m2) sw m1
    (RowState.start m1 bo po w val _ (by simp)) hreg
  obtain ⟨m3, h3, h4⟩ := fold_mem (body := fun i => one (inY + sw * n + i) (po + (cnt - i - 1)))
    (P := fun i m2 => RowState m1 bo po w val (fun t => cnt - i ≤ t) m2) cnt m2
    (h2.mono (by omega)) hone
  rw [flipRow, e1, e1', bind_ok h1, e2, h3, h4.finish (fun t ht => by omega)]

theorem flipReg_ok {k : Kind} (hk : k = .sse ∨ k = .neon) {m : BMem} {bi bo inX outX : Nat} {g : Nat → UInt8}
    (hi : ∀ i, i < moveSize k → m.Valid bi (inX + i) ∧ m.byte bi (inX + i) = g i)
    (ho : ∀ i, i < moveSize k → m.Valid bo (outX + i)) :
    flipReg k bi bo inX outX m = .ok () (setRange m bo outX (moveSize k) fun i => g (moveSize k - 1 - i)) := by
  rcases hk with rfl | rfl
  · unfold flipReg
    simp only [reduceCtorEq, if_false]
    have hi : ∀ i, i < 16 → m.Valid bi (inX + i) ∧ m.byte bi (inX + i) = g i := hi
    refine (bind_ok (loadV_ok (by decide) fun i h => (hi i h).1)).trans ((storeV_ok (by decide) ho).trans ?_)
    refine congrArg (Res.ok ()) (setRange_congr fun t ht => ?_)
    have h1 := (by decide : ∀ t, t < 16 →
      t / 16 * 16 + [15, 14, 13, 12, 11, 10, 9, 8, 7, 6, 5, 4, 3, 2, 1, 0].getD t 0 % 16 = 16 - 1 - t) t ht
    rw [shuffle8, h1]
    exact (hi _ (by omega)).2
  · unfold flipReg
    simp only [if_true]
    have hi : ∀ i, i < 8 → m.Valid bi (inX + i) ∧ m.byte bi (inX + i) = g i := hi
    refine (bind_ok (loadV_ok (by decide) fun i h => (hi i h).1)).trans ((storeV_ok (by decide) ho).trans ?_)
    refine congrArg (Res.ok ()) (setRange_congr fun t ht => ?_)
    exact (hi _ (by omega)).2

theorem flipKernel_ok {k : Kind} (hk : k = .sse ∨ k = .neon) {m : BMem} {inp out : View} {w h : Nat} (ver : Bool)
    (wfi : inp.img.WF m) (wfo : out.img.WF m) (fiti : inp.Fits w h) (fito : out.Fits w h)
    (ha : Apart inp w h out w h) (ci : inp.img.cc = 1) (co : out.img.cc = 1) {dy outEnd : Int}
    (hd : ∀ y : Nat, y < h → outEnd + y * dy = (out.start 1 + (if ver then h - 1 - y else y) * out.img.rowSize + w : Nat)) :
    ∃ m', flipRows dy (moveSize k) inp.img.rowSize
      (flipRow (moveSize k) (flipReg k inp.img.data out.img.data)
        (fun inX outX => copyC out.img.data outX inp.img.data inX) (w / moveSize k) (u32 (w / moveSize k * moveSize k))
          (w - u32 (w / moveSize k * moveSize k)))
      outEnd (inp.start 1) h m = .ok () m' ∧
      WritesRoi m m' out w h fun x y _ => inp.get m (w - 1 - x) (if ver then h - 1 - y else y) 0 := by
  obtain ⟨_, hri, _, _, _, hfiti, _⟩ := View.facts wfi fiti
  obtain ⟨_, hr, _, _, _, hfit, _, _, hwcc, _⟩ := View.facts wfo fito
  have hle : w / moveSize k * moveSize k ≤ w := Nat.div_mul_le_self _ _
  have hn : 0 < moveSize k := by rcases hk with rfl | rfl <;> decide
  rw [co, Nat.mul_one] at hwcc
  rw [u32_of_lt (show w / moveSize k * moveSize k < 4294967296 by omega), flipRows_eq hri hfiti]
  generalize hSW : w / moveSize k = sw at *
  obtain ⟨m', h1, h2⟩ := rows_writes wfo fito (ρ := fun y => if ver then h - 1 - y else y)
    (val := fun y t => inp.get m (w - 1 - t) (if ver then h - 1 - y else y) 0)
    (L := List.range h) (fun l hl => by have := List.mem_range.1 hl; split <;> omega)
    (fun y hy => ⟨if ver then h - 1 - y else y, List.mem_range.2 (by split <;> omega), by
      cases ver <;> simp <;> omega⟩)
    (body := fun y => flipRow (moveSize k) (flipReg k inp.img.data out.img.data)
        (fun inX outX => copyC out.img.data outX inp.img.data inX) sw (sw * moveSize k) (w - sw * moveSize k)
        (inp.start 1 + y * inp.img.rowSize) (outEnd + y * dy - moveSize k) (outEnd + y * dy - 1)) (by
    intro y hy m1 ho
    have hy := List.mem_range.1 hy
    show flipRow _ _ _ _ _ _ _ _ _ _ = .ok () (setRange m1 out.img.data (out.start out.img.cc +
      (if ver then h - 1 - y else y) * out.img.rowSize) (w * out.img.cc)
      (fun t => inp.get m (w - 1 - t) (if ver then h - 1 - (if ver then h - 1 - y else y) else
        (if ver then h - 1 - y else y)) 0))
    have hyy : (if ver then h - 1 - (if ver then h - 1 - y else y) else (if ver then h - 1 - y else y)) = y := by
      cases ver <;> simp <;> omega
    rw [hyy, hd y hy]
    have hin := fun {m2 t} (ho2 : Off m m2 out w h) (ht : t < w) =>
      in_read (t := t) wfi fiti ha ho2 hy (by rw [ci]; omega)
    simp only [ci, Nat.div_one, Nat.mod_one] at hin
    have hy2 : (if ver then h - 1 - y else y) < h := by split <;> omega
    generalize hY : (if ver then h - 1 - y else y) = Y at *
    have hvo := fun {m2 t} (ho2 : Off m m2 out w h) (ht : t < w) =>
      Mem.valid_of_size ho2.size_eq (in_valid (t := t) wfo fito hy2 (by rw [co]; omega)).1
    rw [co] at hvo
    have hoff := fun {m2 val done} r => RowState.off (m2 := m2) (val := val) (done := done) wfo fito hy2 ho r
    rw [co, Nat.mul_one] at hoff
    rw [co, Nat.mul_one]
    refine flipRow_ok hn (by omega) (by omega) rfl rfl ?_ ?_
    · intro s hs m2 r
      have ho2 := hoff r
      have hle2 : (s + 1) * moveSize k ≤ sw * moveSize k := Nat.mul_le_mul_right _ hs
      rw [Nat.succ_mul] at hle2 ⊢
      refine ⟨_, flipReg_ok hk (g := fun i => inp.get m (s * moveSize k + i) y 0) ?_ ?_, ?_⟩
      · intro i hi
        rw [Nat.add_assoc _ (s * moveSize k)]
        exact hin ho2 (by omega)
      · intro i hi
        rw [Nat.add_assoc _ (w - _)]
        exact hvo ho2 (by omega)
      · refine r.store _ _ (by omega) fun t ht hd => ?_
        by_cases hc : w - s * moveSize k ≤ t
        · exact Or.inr ⟨by omega, hc⟩
        · refine Or.inl ⟨by omega, by omega, ?_⟩
          show inp.get m _ _ _ = inp.get m _ _ _
          congr 1
          omega
    · intro i hi m2 r
      have ho2 := hoff r
      obtain ⟨hv, hb⟩ := hin ho2 (t := sw * moveSize k + i) (by omega)
      rw [← Nat.add_assoc] at hv hb
      refine ⟨_, (bind_ok (readC_ok hv)).trans (writeC_row (hvo ho2 (by omega))), ?_⟩
      refine r.store _ 1 (by omega) fun t ht hd => ?_
      by_cases hc : w - sw * moveSize k - i ≤ t
      · exact Or.inr ⟨by omega, hc⟩
      · refine Or.inl ⟨by omega, by omega, ?_⟩
        rw [hb]
        show inp.get m _ _ _ = inp.get m _ _ _
        congr 1
        omega)
  refine ⟨m', h1, h2.congr fun x y c hx hy hc => ?_⟩
  rw [co] at hc ⊢
  congr 1
  omega

/-! ### RgbToBgr -/

/-- The byte of the other order of channels. Not in the code: for statements and proofs. -/
def bgr (t : Nat) : Nat := t / 3 * 3 + (2 - t % 3)

/-- One step, inside a row of `N` bytes whose bytes before `p` are done; the bytes of the input do
    not change while the row is written. -/
theorem bgrReg_ok {k : Kind} (hk : k = .sse ∨ k = .neon ∨ k = .avx) {m1 m2 : BMem} {bi bo inX po N p : Nat}
    {g : Nat → UInt8} (hi : ∀ m2 done, RowState m1 bo po N (fun t => g (bgr t)) done m2 → ∀ i, i < moveSize k →
      m2.Valid bi (inX + i) ∧ m2.byte bi (inX + i) = g (p + i))
    (hN : p + moveSize k ≤ N) (hp : p % 3 = 0)
    (ho : ∀ t, t < N → m1.Valid bo (po + t)) (r : RowState m1 bo po N (fun t => g (bgr t)) (· < p) m2) :
    ∃ m3, bgrReg k bi bo inX (po + p) m2 = .ok () m3 ∧
      RowState m1 bo po N (fun t => g (bgr t)) (· < p + moveSize k / 3 * 3) m3 := by
  have ho2 : ∀ m2 done, RowState m1 bo po N (fun t => g (bgr t)) done m2 → ∀ i, i < moveSize k → m2.Valid bo (po + p + i) :=
    fun m2 done r i h => by
      rw [Nat.add_assoc]
      exact Mem.valid_of_size r.size_eq (ho _ (by omega))
  rcases hk with rfl | rfl | rfl
  · unfold bgrReg
    simp only [reduceCtorEq, if_false]
    have hi : ∀ i, i < 16 → m2.Valid bi (inX + i) ∧ m2.byte bi (inX + i) = g (p + i) := hi m2 _ r
    have hN : p + 16 ≤ N := hN
    refine ⟨_, (bind_ok (loadV_ok (by decide) fun i h => (hi i h).1)).trans (storeV_ok (by decide) (ho2 m2 _ r)), ?_⟩
    refine r.store p 16 hN fun t ht hd => ?_
    have hd : t < p + 15 := hd
    by_cases hc : t < p
    · exact Or.inr ⟨by omega, hc⟩
    · refine Or.inl ⟨by omega, by omega, ?_⟩
      generalize hu : t - p = u
      have h1 := (by decide : ∀ u, u < 15 → u / 16 * 16 +
        [2, 1, 0, 5, 4, 3, 8, 7, 6, 11, 10, 9, 14, 13, 12, 15].getD u 0 % 16 = u / 3 * 3 + (2 - u % 3)) u (by omega)
      rw [shuffle8, h1, (hi _ (by omega)).2, bgr]
      congr 1
      omega
  · unfold bgrReg
    simp only [if_true]
    have hi : ∀ i, i < 8 → m2.Valid bi (inX + i) ∧ m2.byte bi (inX + i) = g (p + i) := hi m2 _ r
    have hN : p + 8 ≤ N := hN
    refine ⟨_, (bind_ok (loadV_ok (by decide) fun i h => (hi i h).1)).trans (storeV_ok (by decide) (ho2 m2 _ r)), ?_⟩
    refine r.store p 8 hN fun t ht hd => ?_
    have hd : t < p + 6 := hd
    by_cases hc : t < p
    · exact Or.inr ⟨by omega, hc⟩
    · refine Or.inl ⟨by omega, by omega, ?_⟩
      generalize hu : t - p = u
      have h1 := (by decide : ∀ u, u < 6 → [2, 1, 0, 5, 4, 3, 6, 7].getD u 0 = u / 3 * 3 + (2 - u % 3)) u (by omega)
      rw [tbl8, h1, if_pos (by omega), (hi _ (by omega)).2, bgr]
      congr 1
      omega
  · unfold bgrReg
    simp only [reduceCtorEq, if_false, if_true]
    have hi : ∀ m2 done, RowState m1 bo po N (fun t => g (bgr t)) done m2 → ∀ i, i < 32 →
      m2.Valid bi (inX + i) ∧ m2.byte bi (inX + i) = g (p + i) := hi
    have ho2 : ∀ m2 done, RowState m1 bo po N (fun t => g (bgr t)) done m2 → ∀ i, i < 32 → m2.Valid bo (po + p + i) := ho2
    have hN : p + 32 ≤ N := hN
    have r1 := r.store (v := shuffle8 [2, 1, 0, 5, 4, 3, 8, 7, 6, 11, 10, 9, 14, 13, 12, 15, 16, 17, 20, 19, 18, 23, 22, 21,
      26, 25, 24, 29, 28, 27, 30, 31] fun i => m2.byte bi (inX + i))
      (done' := fun t => t < p + 30 ∧ t ≠ p + 15 ∧ t ≠ p + 17) p 32 hN (fun t ht hd => by
        by_cases hc : t < p
        · exact Or.inr ⟨by omega, hc⟩
        · refine Or.inl ⟨by omega, by omega, ?_⟩
          generalize hu : t - p = u
          have h1 := (by decide : ∀ u, u < 30 → u ≠ 15 ∧ u ≠ 17 → u / 16 * 16 +
            [2, 1, 0, 5, 4, 3, 8, 7, 6, 11, 10, 9, 14, 13, 12, 15, 16, 17, 20, 19, 18, 23, 22, 21,
              26, 25, 24, 29, 28, 27, 30, 31].getD u 0 % 16 = u / 3 * 3 + (2 - u % 3)) u (by omega) (by omega)
          rw [shuffle8, h1, (hi _ _ r _ (by omega)).2, bgr]
          congr 1
          omega)
    have c1 := hi _ _ r1 17 (by decide)
    have r2 := r1.store (v := fun _ => g (p + 17)) (done' := fun t => t < p + 30 ∧ t ≠ p + 17) (p + 15) 1 (by omega)
      (fun t ht hd => by
        by_cases hc : t = p + 15
        · refine Or.inl ⟨by omega, by omega, ?_⟩
          rw [bgr]
          congr 1
          omega
        · exact Or.inr ⟨by omega, by omega, by omega, by omega⟩)
    have c2 := hi _ _ r2 15 (by decide)
    have r3 := r2.store (v := fun _ => g (p + 15)) (done' := fun t => t < p + 30) (p + 17) 1 (by omega)
      (fun t ht hd => by
        by_cases hc : t = p + 17
        · refine Or.inl ⟨by omega, by omega, ?_⟩
          rw [bgr]
          congr 1
          omega
        · exact Or.inr ⟨by omega, by omega, by omega⟩)
    refine ⟨_, ?_, r3⟩
    refine (bind_ok (loadV_ok (by decide) fun i h => (hi _ _ r i h).1)).trans ?_
    refine (bind_ok (storeV_ok (by decide) (ho2 _ _ r))).trans ?_
    refine (bind_ok ((bind_ok (readC_ok c1.1)).trans (writeC_row (ho2 _ _ r1 15 (by decide))))).trans ?_
    rw [c1.2, Nat.add_assoc po p 15]
    refine ((bind_ok (readC_ok c2.1)).trans (writeC_row (ho2 _ _ r2 17 (by decide)))).trans ?_
    rw [c2.2, Nat.add_assoc po p 17]

theorem bgrOne_ok {m1 m2 : BMem} {bi bo inX po N p : Nat}
    {g : Nat → UInt8} (hi : ∀ m2 done, RowState m1 bo po N (fun t => g (bgr t)) done m2 → ∀ i, i < 3 →
      m2.Valid bi (inX + i) ∧ m2.byte bi (inX + i) = g (p + i))
    (hN : p + 3 ≤ N) (hp : p % 3 = 0)
    (ho : ∀ t, t < N → m1.Valid bo (po + t)) (r : RowState m1 bo po N (fun t => g (bgr t)) (· < p) m2) :
    ∃ m3, bgrOne bi bo inX (po + p) m2 = .ok () m3 ∧ RowState m1 bo po N (fun t => g (bgr t)) (· < p + 3) m3 := by
  have ho2 : ∀ m2 done, RowState m1 bo po N (fun t => g (bgr t)) done m2 → ∀ i, i < 3 → m2.Valid bo (po + p + i) :=
    fun m2 done r i h => by
      rw [Nat.add_assoc]
      exact Mem.valid_of_size r.size_eq (ho _ (by omega))
  have c1 := hi _ _ r 0 (by decide)
  have r1 := r.store (v := fun _ => g p) (done' := fun t => t < p ∨ t = p + 2) (p + 2) 1 (by omega) (fun t ht hd => by
    by_cases hc : t = p + 2
    · refine Or.inl ⟨by omega, by omega, ?_⟩
      rw [bgr]
      congr 1
      omega
    · exact Or.inr ⟨by omega, by omega⟩)
  have c2 := hi _ _ r1 1 (by decide)
  have r2 := r1.store (v := fun _ => g (p + 1)) (done' := fun t => t < p ∨ t = p + 2 ∨ t = p + 1) (p + 1) 1 (by omega)
    (fun t ht hd => by
      by_cases hc : t = p + 1
      · refine Or.inl ⟨by omega, by omega, ?_⟩
        rw [bgr]
        congr 1
        omega
      · exact Or.inr ⟨by omega, by omega⟩)
  have c3 := hi _ _ r2 2 (by decide)
  have r3 := r2.store (v := fun _ => g (p + 2)) (done' := fun t => t < p + 3) p 1 (by omega)
    (fun t ht hd => by
      by_cases hc : t = p
      · refine Or.inl ⟨by omega, by omega, ?_⟩
        rw [bgr]
        congr 1
        omega
      · exact Or.inr ⟨by omega, by omega⟩)
  refine ⟨_, ?_, r3⟩
  rw [Nat.add_zero, Nat.add_zero] at c1
  have o3 := ho2 _ _ r2 0 (by decide)
  rw [Nat.add_zero] at o3
  refine (bind_ok ((bind_ok (readC_ok c1.1)).trans (writeC_row (ho2 _ _ r 2 (by decide))))).trans ?_
  rw [c1.2, Nat.add_assoc po p 2]
  refine (bind_ok ((bind_ok (readC_ok c2.1)).trans (writeC_row (ho2 _ _ r1 1 (by decide))))).trans ?_
  rw [c2.2, Nat.add_assoc po p 1]
  refine ((bind_ok (readC_ok c3.1)).trans (writeC_row o3)).trans ?_
  rw [c3.2]
  rfl

/-- The whole row of `W` bytes. -/
theorem bgrRow_ok {k : Kind} (hk : k = .sse ∨ k = .neon ∨ k = .avx) {m1 : BMem} {bi bo pin po W total non : Nat}
    {g : Nat → UInt8} (hW : moveSize k ≤ W) (hW3 : W % 3 = 0) (hW2 : W < 4294967296)
    (htot : total = if W - W / (moveSize k / 3 * 3) * (moveSize k / 3 * 3) < moveSize k % 3 then
      W / (moveSize k / 3 * 3) * (moveSize k / 3 * 3) - moveSize k / 3 * 3 else W / (moveSize k / 3 * 3) * (moveSize k / 3 * 3))
    (hnon : non = W - total)
    (hi : ∀ m2 done, RowState m1 bo po W (fun t => g (bgr t)) done m2 → ∀ i, i < W →
      m2.Valid bi (pin + i) ∧ m2.byte bi (pin + i) = g i)
    (ho : ∀ t, t < W → m1.Valid bo (po + t)) :
    moveRow (moveSize k / 3 * 3) (moveSize k / 3 * 3) (bgrReg k bi bo) 3 3 (bgrOne bi bo) total total non pin po m1
      = .ok () (setRange m1 bo po W fun t => g (bgr t)) := by
  generalize hR : moveSize k / 3 * 3 = R at *
  have hR0 : 0 < R := by rw [← hR]; rcases hk with rfl | rfl | rfl <;> decide
  have hR2 : moveSize k % 3 ≤ R := by rw [← hR]; rcases hk with rfl | rfl | rfl <;> decide
  have hRs : moveSize k = R + moveSize k % 3 := by omega
  have hR3 : R % 3 = 0 := by omega
  have hdm := Nat.div_add_mod W R
  have hml := Nat.mod_lt W hR0
  rw [Nat.mul_comm] at hdm
  obtain ⟨sw, hsw, hnon2⟩ : ∃ sw, total = sw * R ∧ sw * R + moveSize k % 3 ≤ W := by
    by_cases hc : W - W / R * R < moveSize k % 3
    · rw [if_pos hc] at htot
      refine ⟨W / R - 1, by rw [Nat.sub_mul, Nat.one_mul, htot], ?_⟩
      rw [Nat.sub_mul, Nat.one_mul]
      omega
    · rw [if_neg hc] at htot
      exact ⟨W / R, htot, by omega⟩
  have h3 : ∀ s, s * R % 3 = 0 := fun s => by rw [Nat.mul_mod, hR3, Nat.mul_zero, Nat.zero_mod]
  have hswlt : sw ≤ sw * R := Nat.le_mul_of_pos_right _ hR0
  have h3' := h3 sw
  refine moveRow_ok (sw := sw) (cnt := non / 3) hsw hsw (by omega) hR0 (by decide) (by omega) (by omega) (by omega) ?_ ?_
  · intro s hs m2 r
    have hle : (s + 1) * R ≤ sw * R := Nat.mul_le_mul_right _ hs
    rw [Nat.succ_mul] at hle ⊢
    rw [← hR] at *
    refine bgrReg_ok hk (fun m2 done r i h => ?_) (by omega) (h3 s) ho r
    rw [Nat.add_assoc]
    exact hi m2 done r _ (by omega)
  · intro i hi' m2 r
    rw [Nat.add_assoc po]
    have := bgrOne_ok (bi := bi) (inX := pin + sw * R + i * 3) (p := sw * R + i * 3) (m2 := m2)
      (fun m2 done r j h => by
        rw [show pin + sw * R + i * 3 + j = pin + (sw * R + i * 3 + j) by omega]
        exact hi m2 done r _ (by omega)) (by omega) (by omega) ho r
    rwa [Nat.add_assoc (sw * R), ← Nat.succ_mul] at this

theorem bgrPath_ok {k : Kind} (hk : k = .sse ∨ k = .neon ∨ k = .avx) {m : BMem} {inp out : View} {w h : Nat}
    (hw : moveSize k ≤ w * 3)
    (wfi : inp.img.WF m) (wfo : out.img.WF m) (fiti : inp.Fits w h) (fito : out.Fits w h)
    (ha : Apart inp w h out w h) (ci : inp.img.cc = 3) (co : out.img.cc = 3) :
    ∃ m', bgrPath k inp out w h m = .ok () m' ∧
      WritesRoi m m' out w h fun x y c => inp.get m x y (2 - c) := by
  obtain ⟨_, hri, _, hwi, hhi, hfiti, _, _, hwcci, _⟩ := View.facts wfi fiti
  obtain ⟨_, hr, _, hwo, hho, hfit, _, _, hwcc, _⟩ := View.facts wfo fito
  rw [co] at hwcc
  have e0 : bgrPath k inp out w h m =
    (let r := optimiseRoi (w * 3) h [inp.img, out.img]
     let rgbSimdSize := moveSize k / 3 * 3
     let total := u32 (r.1 / rgbSimdSize * rgbSimdSize)
     let non := r.1 - total
     let short := decide (non < moveSize k % 3)
     let total' := if short then u32 (total + 4294967296 - rgbSimdSize) else total
     let non' := if short then u32 (non + rgbSimdSize) else non
     moveRows out.img.rowSize inp.img.rowSize
      (moveRow rgbSimdSize rgbSimdSize (bgrReg k inp.img.data out.img.data) 3 3
        (bgrOne inp.img.data out.img.data) total' total' non')
      (out.start 3) (inp.start 3) r.2) m := by
    rw [bgrPath, bind_ok (validateRois_ok (vs := [inp, out]) m (by simp; exact ⟨⟨fiti, hwi, hhi⟩, fito, hwo, hho⟩)),
      bind_ok (rgb_ok (by simp [ci, co])), u32_of_lt hwcc]
  rw [e0]
  have hdiv : moveSize k / 3 * 3 ≤ moveSize k := Nat.div_mul_le_self _ _
  have hR0 : 0 < moveSize k / 3 * 3 := by rcases hk with rfl | rfl | rfl <;> decide
  -- the widths of the loops for a row of `W` bytes
  have hwidth : ∀ W, moveSize k ≤ W → W < 4294967296 → ∀ T, T = W / (moveSize k / 3 * 3) * (moveSize k / 3 * 3) →
      u32 T = T ∧
      (if decide (W - T < moveSize k % 3) = true then u32 (T + 4294967296 - moveSize k / 3 * 3) else T)
        = (if W - T < moveSize k % 3 then T - moveSize k / 3 * 3 else T) ∧
      (if decide (W - T < moveSize k % 3) = true then u32 (W - T + moveSize k / 3 * 3) else W - T)
        = W - (if W - T < moveSize k % 3 then T - moveSize k / 3 * 3 else T) := by
    intro W h1 h2 T hT
    have hle : T ≤ W := by rw [hT]; exact Nat.div_mul_le_self _ _
    have hge : moveSize k / 3 * 3 ≤ T := by
      rw [hT]
      exact Nat.le_mul_of_pos_left _ (Nat.div_pos (by omega) hR0)
    refine ⟨u32_of_lt (by omega), ?_, ?_⟩
    · by_cases hc : W - T < moveSize k % 3
      · rw [if_pos (by simpa using hc), if_pos hc, u32]
        omega
      · rw [if_neg (by simpa using hc), if_neg hc]
    · by_cases hc : W - T < moveSize k % 3
      · rw [if_pos (by simpa using hc), if_pos hc, u32_of_lt (by omega)]
        omega
      · rw [if_neg (by simpa using hc), if_neg hc]
  rcases optimiseRoi_cases (w * 3) h [inp.img, out.img] fito.hpos with he | ⟨he, hrow, hlt⟩
  · simp only [he]
    obtain ⟨w1, w2, w3⟩ := hwidth (w * 3) hw hwcc _ rfl
    simp only [w1]
    rw [w2, w3, moveRows_eq hr hfit]
    obtain ⟨m', h1, h2⟩ := rows_writes wfo fito (ρ := id)
      (val := fun y t => inp.get m (bgr t / 3) y (bgr t % 3))
      (L := List.range h) (fun l hl => List.mem_range.1 hl) (fun y hy => ⟨y, List.mem_range.2 hy, rfl⟩)
      (body := fun y => moveRow (moveSize k / 3 * 3) (moveSize k / 3 * 3) (bgrReg k inp.img.data out.img.data) 3 3
        (bgrOne inp.img.data out.img.data) _ _ _
        (inp.start 3 + y * inp.img.rowSize) (out.start 3 + y * out.img.rowSize)) (by
      intro y hy m1 ho1
      have hy := List.mem_range.1 hy
      rw [co]
      have hoff := fun {m2 val done} r => RowState.off (m2 := m2) (val := val) (done := done) wfo fito hy ho1 r
      rw [co] at hoff
      refine bgrRow_ok (g := fun t => inp.get m (t / 3) y (t % 3)) hk hw (by omega) hwcc rfl rfl ?_ ?_
      · intro m2 done r i hi
        have := in_read (t := i) wfi fiti ha (hoff r) hy (by rw [ci]; exact hi)
        rwa [ci] at this
      · intro t ht
        have := in_valid (t := t) wfo fito hy (by rw [co]; exact ht)
        rw [co] at this
        exact Mem.valid_of_size ho1.size_eq this.1)
    refine ⟨m', h1, h2.congr fun x y c hx hy hc => ?_⟩
    rw [co] at hc ⊢
    have e1 : bgr (x * 3 + c) / 3 = x := by rw [bgr]; omega
    have e2 : bgr (x * 3 + c) % 3 = 2 - c := by rw [bgr]; omega
    rw [e1, e2]
  · simp only [he]
    have hrO : out.img.rowSize = w * 3 := hrow _ (by simp)
    have hrI : inp.img.rowSize = w * 3 := hrow _ (by simp)
    have hpos := fito.hpos
    have hWle : w * 3 ≤ h * (w * 3) := Nat.le_mul_of_pos_left _ hpos
    have hcomm : w * 3 * h = h * (w * 3) := Nat.mul_comm _ _
    obtain ⟨w1, w2, w3⟩ := hwidth (h * (w * 3)) (by omega) (by omega) _ rfl
    simp only [w1]
    rw [w2, w3, moveRows_eq hr (by omega)]
    have hoff := fun {m2 val done} r => RowState.off_all (m := m) (m2 := m2) (val := val) (done := done) wfo fito
      (by rw [co]; exact hrO) r
    rw [co] at hoff
    have key := bgrRow_ok (m1 := m) (bi := inp.img.data) (bo := out.img.data) (pin := inp.start 3) (po := out.start 3)
      (g := fun t => inp.get m (t % (w * 3) / 3) (t / (w * 3)) (t % (w * 3) % 3)) hk
      (W := h * (w * 3)) (by omega) (by rw [← Nat.mul_assoc]; omega) (by omega) rfl rfl (fun m2 done r i hi => by
        have h1 : i / (w * 3) < h := Nat.div_lt_of_lt_mul (by omega)
        have h2 : i % (w * 3) < w * 3 := Nat.mod_lt _ (by omega)
        have := in_read (t := i % (w * 3)) wfi fiti ha (hoff r) h1 (by rw [ci]; exact h2)
        rw [ci, hrI, Nat.add_assoc, Nat.mul_comm (i / _), Nat.div_add_mod] at this
        exact this) (fun t ht => by
        have h1 : t / (w * 3) < h := Nat.div_lt_of_lt_mul (by omega)
        have h2 : t % (w * 3) < w * 3 := Nat.mod_lt _ (by omega)
        have := in_valid (t := t % (w * 3)) wfo fito h1 (by rw [co]; exact h2)
        rw [co, hrO, Nat.add_assoc, Nat.mul_comm (t / _), Nat.div_add_mod] at this
        exact this.1)
    have hW := range_writes wfo fito (by rw [co]; exact hrO)
      (fun t => inp.get m (bgr t % (w * 3) / 3) (bgr t / (w * 3)) (bgr t % (w * 3) % 3))
    refine ⟨_, ?_, hW.congr fun x y c hx hy hc => ?_⟩
    · rw [show List.range 1 = [0] from rfl, fold_cons, bind_ok, co]
      · rfl
      · rw [Nat.zero_mul, Nat.add_zero, Nat.zero_mul, Nat.add_zero]
        exact key
    · rw [co] at hc ⊢
      have hb : bgr (y * (w * 3) + (x * 3 + c)) = y * (w * 3) + (x * 3 + (2 - c)) := by
        rw [bgr, ← Nat.mul_assoc]
        omega
      have hx3 : x * 3 + (2 - c) < w * 3 := by omega
      rw [hb, Nat.mul_comm y, Nat.mul_add_mod, Nat.mod_eq_of_lt hx3, Nat.mul_add_div (by omega), Nat.div_eq_of_lt hx3]
      congr 1 <;> omega

end PV.Simd
