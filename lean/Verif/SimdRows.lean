import Verif.Simd
/-
  Register-wise kernels visit the same bytes as the scalar loops.
-/
namespace PV.Simd

variable {μ A ι : Type}

/-- Two sequences of steps that agree on the states that can occur. -/
theorem fold_congr_inv {P : μ → Prop} {body body' : ι → A → M μ A} {L : List ι}
    (h : ∀ p ∈ L, ∀ a m, P m → body p a m = body' p a m)
    (hP : ∀ p ∈ L, ∀ a m a' m', P m → body' p a m = .ok a' m' → P m') :
    ∀ a m, P m → fold body L a m = fold body' L a m := by
  induction L with
  | nil => intro a m _; rfl
  | cons p ps ih =>
    intro a m hm
    rw [fold_cons, fold_cons, bind_run, bind_run, h p (List.mem_cons_self ..) a m hm]
    cases he : body' p a m with
    | ok a' m' =>
      exact ih (fun q hq => h q (List.mem_cons_of_mem _ hq))
        (fun q hq => hP q (List.mem_cons_of_mem _ hq)) a' m'
        (hP p (List.mem_cons_self ..) a m a' m' hm he)
    | throw m' => rfl
    | ub => rfl

theorem fold_inv {P : μ → Prop} {body : ι → A → M μ A} {L : List ι}
    (hP : ∀ p ∈ L, ∀ a m a' m', P m → body p a m = .ok a' m' → P m') :
    ∀ a m a' m', P m → fold body L a m = .ok a' m' → P m' := by
  induction L with
  | nil =>
    intro a m a' m' hm he
    cases he
    exact hm
  | cons p ps ih =>
    intro a m a' m' hm he
    rw [fold_cons] at he
    obtain ⟨a1, m1, h1, h2⟩ := bind_eq_ok.1 he
    exact ih (fun q hq => hP q (List.mem_cons_of_mem _ hq)) a1 m1 a' m'
      (hP p (List.mem_cons_self ..) a m a1 m1 hm h1) h2

/-- A row of registers followed by single steps, when a register step does the work of
    `n` single steps. -/
theorem rowVec_eq {P : μ → Prop} {n sw non : Nat} {V S : Nat → M μ Unit}
    (hV : ∀ s, s < sw → ∀ m, P m → V s m = fold (fun i _ => S (s * n + i)) (List.range n) () m)
    (hS : ∀ t, t < sw * n + non → ∀ m m', P m → S t m = .ok () m' → P m') {m : μ} (hm : P m) :
    (fold (fun s _ => V s) (List.range sw) () >>= fun _ =>
      fold (fun i _ => S (sw * n + i)) (List.range non) ()) m
      = fold (fun t _ => S t) (List.range (sw * n + non)) () m := by
  have e1 : fold (fun s _ => V s) (List.range sw) () m
      = fold (fun t _ => S t) (List.range (sw * n)) () m := by
    rw [range_mul_eq_grid, fold_map, fold_grid]
    refine fold_congr_inv (P := P) ?_ ?_ () m hm
    · intro s hs _ m1 hm1
      exact hV s (List.mem_range.1 hs) m1 hm1
    · intro s hs a m1 a' m2 hm1 he
      refine fold_inv (P := P) ?_ a m1 a' m2 hm1 he
      intro i hi _ m3 _ m4 hm3 he3
      refine hS (s * n + i) ?_ m3 m4 hm3 he3
      have := mul_add_lt (List.mem_range.1 hs) (List.mem_range.1 hi)
      omega
  rw [List.range_add, fold_append, bind_run, bind_run, e1]
  cases fold (fun t _ => S t) (List.range (sw * n)) () m with
  | ok a m' =>
    simp only [fold_map]
  | throw m' => rfl
  | ub => rfl

/-! ### A register write is a sequence of byte writes -/

theorem setRange_zero {α : Type} (m : Mem α) (b p : Nat) (v : Nat → α) : setRange m b p 0 v = m := by
  cases m with
  | mk sz by' =>
    simp only [setRange, Mem.mk.injEq, true_and]
    funext b' i
    rw [if_neg (by omega)]

theorem setRange_succ {α : Type} (m : Mem α) (b p n : Nat) (v : Nat → α) :
    setRange m b p (n + 1) v = (setRange m b p n v).set b (p + n) (v n) := by
  simp only [setRange, Mem.set, Mem.mk.injEq, true_and]
  funext b' i
  by_cases hb : b' = b
  · by_cases hi : i = p + n
    · subst hi
      rw [if_pos ⟨hb, by omega, by omega⟩, if_pos ⟨hb, rfl⟩, Nat.add_sub_cancel_left]
    · by_cases hr : p ≤ i ∧ i < p + n
      · rw [if_pos ⟨hb, hr.1, by omega⟩, if_neg (fun h => hi h.2), if_pos ⟨hb, hr⟩]
      · rw [if_neg (fun h => hr ⟨h.2.1, by omega⟩), if_neg (fun h => hi h.2), if_neg (fun h => hr h.2)]
  · rw [if_neg (fun h => hb h.1), if_neg (fun h => hb h.1), if_neg (fun h => hb h.1)]

theorem setRange_byte_other {α : Type} {m : Mem α} {b p n : Nat} {v : Nat → α} {b' i : Nat}
    (h : ¬ (b' = b ∧ p ≤ i ∧ i < p + n)) : (setRange m b p n v).byte b' i = m.byte b' i := by
  simp only [setRange, if_neg h]

theorem setRange_congr {α : Type} {m : Mem α} {b p n : Nat} {v v' : Nat → α} (h : ∀ i, i < n → v i = v' i) :
    setRange m b p n v = setRange m b p n v' := by
  simp only [setRange, Mem.mk.injEq, true_and]
  funext b' i
  by_cases hc : b' = b ∧ p ≤ i ∧ i < p + n
  · rw [if_pos hc, if_pos hc, h _ (by omega)]
  · rw [if_neg hc, if_neg hc]

/-- `n` byte steps of a two-input function. -/
theorem bytes2_eq {m : BMem} {sop : UInt8 → UInt8 → UInt8} {b1 b2 bo p1 p2 po : Nat} {N : Nat}
    (v1 : ∀ i, i < N → m.Valid b1 (p1 + i)) (v2 : ∀ i, i < N → m.Valid b2 (p2 + i))
    (vo : ∀ i, i < N → m.Valid bo (po + i))
    (n1 : ∀ i j, i < N → j < N → b1 = bo → p1 + i = po + j → i = j)
    (n2 : ∀ i j, i < N → j < N → b2 = bo → p2 + i = po + j → i = j) (n : Nat) (hn : n ≤ N) :
    fold (fun i _ => do
        let a ← readC b1 (p1 + i)
        let b ← readC b2 (p2 + i)
        writeC bo (po + i) (sop a b)) (List.range n) () m
      = .ok () (setRange m bo po n fun i => sop (m.byte b1 (p1 + i)) (m.byte b2 (p2 + i))) := by
  induction n with
  | zero => rw [setRange_zero]; rfl
  | succ n ih =>
    rw [List.range_succ, fold_append, bind_ok (ih (by omega)), fold_cons]
    generalize hw : (setRange m bo po n fun i => sop (m.byte b1 (p1 + i)) (m.byte b2 (p2 + i))) = m1
    have hs : m1.size = m.size := by rw [← hw]; rfl
    have r1 : m1.byte b1 (p1 + n) = m.byte b1 (p1 + n) := by
      rw [← hw]
      refine setRange_byte_other fun h => ?_
      have := n1 n (p1 + n - po) (by omega) (by omega) h.1 (by omega)
      omega
    have r2 : m1.byte b2 (p2 + n) = m.byte b2 (p2 + n) := by
      rw [← hw]
      refine setRange_byte_other fun h => ?_
      have := n2 n (p2 + n - po) (by omega) (by omega) h.1 (by omega)
      omega
    rw [bind_assoc', bind_ok (readC_ok (Mem.valid_of_size hs (v1 n (by omega)))), bind_assoc',
      bind_ok (readC_ok (Mem.valid_of_size hs (v2 n (by omega)))),
      bind_ok (writeC_ok _ (Mem.valid_of_size hs (vo n (by omega)))), r1, r2, setRange_succ, ← hw]
    rfl

/-- `n` byte steps of a one-input function. -/
theorem bytes1_eq {m : BMem} {sop : UInt8 → UInt8} {b1 bo p1 po : Nat} {N : Nat}
    (v1 : ∀ i, i < N → m.Valid b1 (p1 + i))
    (vo : ∀ i, i < N → m.Valid bo (po + i))
    (n1 : ∀ i j, i < N → j < N → b1 = bo → p1 + i = po + j → i = j) (n : Nat) (hn : n ≤ N) :
    fold (fun i _ => do
        let a ← readC b1 (p1 + i)
        writeC bo (po + i) (sop a)) (List.range n) () m
      = .ok () (setRange m bo po n fun i => sop (m.byte b1 (p1 + i))) := by
  induction n with
  | zero => rw [setRange_zero]; rfl
  | succ n ih =>
    rw [List.range_succ, fold_append, bind_ok (ih (by omega)), fold_cons]
    generalize hw : (setRange m bo po n fun i => sop (m.byte b1 (p1 + i))) = m1
    have hs : m1.size = m.size := by rw [← hw]; rfl
    have r1 : m1.byte b1 (p1 + n) = m.byte b1 (p1 + n) := by
      rw [← hw]
      refine setRange_byte_other fun h => ?_
      have := n1 n (p1 + n - po) (by omega) (by omega) h.1 (by omega)
      omega
    rw [bind_assoc', bind_ok (readC_ok (Mem.valid_of_size hs (v1 n (by omega)))),
      bind_ok (writeC_ok _ (Mem.valid_of_size hs (vo n (by omega)))), r1, setRange_succ, ← hw]
    rfl

theorem loadV_ok {m : BMem} {b p n : Nat} (hn : 0 < n) (hv : ∀ i, i < n → m.Valid b (p + i)) :
    loadV n b p m = .ok (fun i => m.byte b (p + i)) m := by
  have h0 := hv 0 hn
  have h1 := (hv (n - 1) (by omega)).2
  rw [loadV, if_pos ⟨h0.1, by omega⟩]

theorem storeV_ok {α : Type} {m : Mem α} {b p n : Nat} {v : Nat → α} (hn : 0 < n)
    (hv : ∀ i, i < n → m.Valid b (p + i)) :
    storeV n b p v m = .ok () (setRange m b p n v) := by
  have h0 := hv 0 hn
  have h1 := (hv (n - 1) (by omega)).2
  rw [storeV, if_pos ⟨h0.1, by omega⟩]

/-- The register operation computes the byte operation in every byte of the register. Not in the code: for statements and proofs. -/
def Lanes2 (n : Nat) (vop : Vec → Vec → Vec) (sop : UInt8 → UInt8 → UInt8) : Prop :=
  ∀ a b i, i < n → vop a b i = sop (a i) (b i)

/-- The same for one operand. Not in the code: for statements and proofs. -/
def Lanes1 (n : Nat) (vop : Vec → Vec) (sop : UInt8 → UInt8) : Prop :=
  ∀ a i, i < n → vop a i = sop (a i)

theorem step2_size {m m' : BMem} {sop : UInt8 → UInt8 → UInt8} {b1 b2 bo p1 p2 po : Nat}
    (h : (do let a ← readC b1 p1
             let b ← readC b2 p2
             writeC bo po (sop a b) : M BMem Unit) m = .ok () m') : m'.size = m.size := by
  obtain ⟨a, m1, h1, h2⟩ := bind_eq_ok.1 h
  obtain ⟨b, m2, h3, h4⟩ := bind_eq_ok.1 h2
  unfold readC at h1 h3
  unfold writeC at h4
  split at h1 <;> cases h1
  split at h3 <;> cases h3
  split at h4 <;> cases h4
  rfl

theorem step1_size {m m' : BMem} {sop : UInt8 → UInt8} {b1 bo p1 po : Nat}
    (h : (do let a ← readC b1 p1
             writeC bo po (sop a) : M BMem Unit) m = .ok () m') : m'.size = m.size := by
  obtain ⟨a, m1, h1, h2⟩ := bind_eq_ok.1 h
  unfold readC at h1
  unfold writeC at h2
  split at h1 <;> cases h1
  split at h2 <;> cases h2
  rfl

/-- A row of the two-input kernel is the row of the scalar loop. -/
theorem binaryRow_eq {m m0 : BMem} {n : Nat} (hn : 0 < n) {vop : Vec → Vec → Vec}
    {sop : UInt8 → UInt8 → UInt8} (hl : Lanes2 n vop sop) {b1 b2 bo p1 p2 po W : Nat}
    (hW : W < 4294967296)
    (hsz : m0.size = m.size)
    (v1 : ∀ t, t < W → m.Valid b1 (p1 + t)) (v2 : ∀ t, t < W → m.Valid b2 (p2 + t))
    (vo : ∀ t, t < W → m.Valid bo (po + t))
    (n1 : ∀ t t', t < W → t' < W → b1 = bo → p1 + t = po + t' → t = t')
    (n2 : ∀ t t', t < W → t' < W → b2 = bo → p2 + t = po + t' → t = t') :
    binaryRow n vop sop b1 b2 bo p1 p2 po (W / n) (W / n * n) (W - W / n * n) m0
      = fold (fun t _ => do
          let a ← readC b1 (p1 + t)
          let b ← readC b2 (p2 + t)
          writeC bo (po + t) (sop a b)) (List.range W) () m0 := by
  have hle : W / n * n ≤ W := Nat.div_mul_le_self W n
  have hq : W / n ≤ W := Nat.div_le_self W n
  generalize hsw : W / n = sw at hle hq ⊢
  generalize hnon : W - sw * n = non
  have hWe : W = sw * n + non := by omega
  have h1 : loop (fun s : Nat × Nat × Nat => s.1 != p1 + sw * n)
        (fun s => (s.1 + n, s.2.1 + n, s.2.2 + n))
        (fun s (_ : Unit) => (do
          let data1 ← loadV n b1 s.1
          let data2 ← loadV n b2 s.2.1
          storeV n bo s.2.2 (vop data1 data2) : M BMem Unit)) fuelMax (p1, p2, po) ()
      = fold (fun s _ => (do
          let data1 ← loadV n b1 (p1 + s * n)
          let data2 ← loadV n b2 (p2 + s * n)
          storeV n bo (po + s * n) (vop data1 data2) : M BMem Unit)) (List.range sw) () := by
    have := loop_eq_fold (cond := fun s : Nat × Nat × Nat => s.1 != p1 + sw * n)
      (next := fun s => (s.1 + n, s.2.1 + n, s.2.2 + n))
      (body := fun s (_ : Unit) => (do
          let data1 ← loadV n b1 s.1
          let data2 ← loadV n b2 s.2.1
          storeV n bo s.2.2 (vop data1 data2) : M BMem Unit))
      (fun k => (p1 + k * n, p2 + k * n, po + k * n)) sw fuelMax ()
      (by rw [fuelMax]; omega) (fun k hk => ptr_ne hk hn) (by simp)
      (fun k _ => by simp only [Nat.succ_mul, Prod.mk.injEq]; omega)
    simpa only [Nat.zero_mul, Nat.add_zero] using this
  have h2 : (if non > 0 then
      loop (fun s : Nat × Nat × Nat => s.1 != po + sw * n + non)
        (fun s => (s.1 + 1, s.2.1 + 1, s.2.2 + 1))
        (fun s (_ : Unit) => (do
          let a ← readC b1 s.2.1
          let b ← readC b2 s.2.2
          writeC bo s.1 (sop a b) : M BMem Unit)) fuelMax (po + sw * n, p1 + sw * n, p2 + sw * n) ()
      else pure ())
      = fold (fun i _ => (do
          let a ← readC b1 (p1 + (sw * n + i))
          let b ← readC b2 (p2 + (sw * n + i))
          writeC bo (po + (sw * n + i)) (sop a b) : M BMem Unit)) (List.range non) () := by
    have := loop_eq_fold (cond := fun s : Nat × Nat × Nat => s.1 != po + sw * n + non)
      (next := fun s => (s.1 + 1, s.2.1 + 1, s.2.2 + 1))
      (body := fun s (_ : Unit) => (do
          let a ← readC b1 s.2.1
          let b ← readC b2 s.2.2
          writeC bo s.1 (sop a b) : M BMem Unit))
      (fun k => (po + sw * n + k, p1 + sw * n + k, p2 + sw * n + k)) non fuelMax ()
      (by rw [fuelMax]; omega) (fun k hk => by simp only [bne_iff_ne, ne_eq]; omega) (by simp)
      (fun k _ => rfl)
    by_cases h0 : non > 0
    · rw [if_pos h0]
      simpa only [Nat.add_zero, Nat.add_assoc] using this
    · have : non = 0 := by omega
      subst this
      rfl
  rw [binaryRow, h1, h2]
  subst hWe
  refine rowVec_eq (P := fun m1 : BMem => m1.size = m.size)
    (S := fun t => (do
          let a ← readC b1 (p1 + t)
          let b ← readC b2 (p2 + t)
          writeC bo (po + t) (sop a b) : M BMem Unit)) ?_ ?_ hsz
  · intro s hs m1 hm1
    have hlt : ∀ i, i < n → s * n + i < sw * n + non := fun i hi => by
      have := mul_add_lt hs hi
      omega
    have V1 : ∀ i, i < n → m1.Valid b1 (p1 + s * n + i) := fun i hi => by
      rw [Nat.add_assoc]; exact Mem.valid_of_size hm1 (v1 _ (hlt i hi))
    have V2 : ∀ i, i < n → m1.Valid b2 (p2 + s * n + i) := fun i hi => by
      rw [Nat.add_assoc]; exact Mem.valid_of_size hm1 (v2 _ (hlt i hi))
    have VO : ∀ i, i < n → m1.Valid bo (po + s * n + i) := fun i hi => by
      rw [Nat.add_assoc]; exact Mem.valid_of_size hm1 (vo _ (hlt i hi))
    have := bytes2_eq (m := m1) (sop := sop) V1 V2 VO
      (fun i j hi hj hb he => by
        have := n1 _ _ (hlt i hi) (hlt j hj) hb (by omega)
        omega)
      (fun i j hi hj hb he => by
        have := n2 _ _ (hlt i hi) (hlt j hj) hb (by omega)
        omega) n (Nat.le_refl _)
    simp only [Nat.add_assoc] at this
    rw [this, bind_ok (loadV_ok hn V1), bind_ok (loadV_ok hn V2), storeV_ok hn VO]
    congr 1
    refine setRange_congr fun i hi => ?_
    rw [hl _ _ i hi]
    simp only [Nat.add_assoc]
  · intro t _ m1 m2 hm1 he
    rw [step2_size he, hm1]

/-- A row of the one-input kernel is the row of the scalar loop. -/
theorem unaryRow_eq {m m0 : BMem} {n : Nat} (hn : 0 < n) {vop : Vec → Vec}
    {sop sop' : UInt8 → UInt8} (hl : Lanes1 n vop sop) (hs : ∀ a, sop' a = sop a) {b1 bo p1 po W : Nat}
    (hW : W < 4294967296)
    (hsz : m0.size = m.size)
    (v1 : ∀ t, t < W → m.Valid b1 (p1 + t))
    (vo : ∀ t, t < W → m.Valid bo (po + t))
    (n1 : ∀ t t', t < W → t' < W → b1 = bo → p1 + t = po + t' → t = t') :
    unaryRow n vop sop' b1 bo p1 po (W / n) (W / n * n) (W - W / n * n) m0
      = fold (fun t _ => do
          let a ← readC b1 (p1 + t)
          writeC bo (po + t) (sop a)) (List.range W) () m0 := by
  have hle : W / n * n ≤ W := Nat.div_mul_le_self W n
  have hq : W / n ≤ W := Nat.div_le_self W n
  obtain rfl : sop' = sop := funext hs
  generalize hsw : W / n = sw at hle hq ⊢
  generalize hnon : W - sw * n = non
  have hWe : W = sw * n + non := by omega
  have h1 : loop (fun s : Nat × Nat => s.1 != p1 + sw * n) (fun s => (s.1 + n, s.2 + n))
        (fun s (_ : Unit) => (do
          let data ← loadV n b1 s.1
          storeV n bo s.2 (vop data) : M BMem Unit)) fuelMax (p1, po) ()
      = fold (fun s _ => (do
          let data ← loadV n b1 (p1 + s * n)
          storeV n bo (po + s * n) (vop data) : M BMem Unit)) (List.range sw) () := by
    have := loop_eq_fold (cond := fun s : Nat × Nat => s.1 != p1 + sw * n)
      (next := fun s => (s.1 + n, s.2 + n))
      (body := fun s (_ : Unit) => (do
          let data ← loadV n b1 s.1
          storeV n bo s.2 (vop data) : M BMem Unit))
      (fun k => (p1 + k * n, po + k * n)) sw fuelMax ()
      (by rw [fuelMax]; omega) (fun k hk => ptr_ne hk hn) (by simp)
      (fun k _ => by simp only [Nat.succ_mul, Prod.mk.injEq]; omega)
    simpa only [Nat.zero_mul, Nat.add_zero] using this
  have h2 : (if non > 0 then
      loop (fun s : Nat × Nat => s.1 != po + sw * n + non) (fun s => (s.1 + 1, s.2 + 1))
        (fun s (_ : Unit) => (do
          let a ← readC b1 s.2
          writeC bo s.1 (sop' a) : M BMem Unit)) fuelMax (po + sw * n, p1 + sw * n) ()
      else pure ())
      = fold (fun i _ => (do
          let a ← readC b1 (p1 + (sw * n + i))
          writeC bo (po + (sw * n + i)) (sop' a) : M BMem Unit)) (List.range non) () := by
    have := loop_eq_fold (cond := fun s : Nat × Nat => s.1 != po + sw * n + non)
      (next := fun s => (s.1 + 1, s.2 + 1))
      (body := fun s (_ : Unit) => (do
          let a ← readC b1 s.2
          writeC bo s.1 (sop' a) : M BMem Unit))
      (fun k => (po + sw * n + k, p1 + sw * n + k)) non fuelMax ()
      (by rw [fuelMax]; omega) (fun k hk => by simp only [bne_iff_ne, ne_eq]; omega) (by simp)
      (fun k _ => rfl)
    by_cases h0 : non > 0
    · rw [if_pos h0]
      simpa only [Nat.add_zero, Nat.add_assoc] using this
    · have : non = 0 := by omega
      subst this
      rfl
  rw [unaryRow, h1, h2]
  subst hWe
  refine rowVec_eq (P := fun m1 : BMem => m1.size = m.size)
    (S := fun t => (do
          let a ← readC b1 (p1 + t)
          writeC bo (po + t) (sop' a) : M BMem Unit)) ?_ ?_ hsz
  · intro s hs m1 hm1
    have hlt : ∀ i, i < n → s * n + i < sw * n + non := fun i hi => by
      have := mul_add_lt hs hi
      omega
    have V1 : ∀ i, i < n → m1.Valid b1 (p1 + s * n + i) := fun i hi => by
      rw [Nat.add_assoc]; exact Mem.valid_of_size hm1 (v1 _ (hlt i hi))
    have VO : ∀ i, i < n → m1.Valid bo (po + s * n + i) := fun i hi => by
      rw [Nat.add_assoc]; exact Mem.valid_of_size hm1 (vo _ (hlt i hi))
    have := bytes1_eq (m := m1) (sop := sop') V1 VO
      (fun i j hi hj hb he => by
        have := n1 _ _ (hlt i hi) (hlt j hj) hb (by omega)
        omega) n (Nat.le_refl _)
    simp only [Nat.add_assoc] at this
    rw [this, bind_ok (loadV_ok hn V1), storeV_ok hn VO]
    congr 1
    refine setRange_congr fun i hi => ?_
    rw [hl _ i hi]
    simp only [Nat.add_assoc]
  · intro t _ m1 m2 hm1 he
    rw [step1_size he, hm1]

/-! ### Geometry of merged rows -/

/-- Byte `t` of row `j` after row merging, as a position of the rectangle: the same for
    every image that takes part. -/
theorem opt_pos {m : BMem} {v : View} {w h : Nat} (wf : v.img.WF m) (fit : v.Fits w h)
    {imgs : List Image} (hv : v.img ∈ imgs) {j t : Nat}
    (hj : j < (optimiseRoi (w * v.img.cc) h imgs).2) (ht : t < (optimiseRoi (w * v.img.cc) h imgs).1) :
    ∃ q, q = j * (optimiseRoi (w * v.img.cc) h imgs).1 + t ∧ q < h * (w * v.img.cc) ∧
      v.start v.img.cc + j * v.img.rowSize + t
        = v.cell (q % (w * v.img.cc) / v.img.cc) (q / (w * v.img.cc)) (q % (w * v.img.cc) % v.img.cc) := by
  obtain ⟨hcc, hr, _⟩ := View.facts wf fit
  have hwc : 0 < w * v.img.cc := Nat.mul_pos fit.wpos hcc
  refine ⟨_, rfl, ?_⟩
  rcases optimiseRoi_cases (w * v.img.cc) h imgs fit.hpos with he | ⟨he, hrow, _⟩
  · rw [he] at hj ht ⊢
    simp only at hj ht ⊢
    refine ⟨mul_add_lt hj ht, ?_⟩
    have e1 : (j * (w * v.img.cc) + t) / (w * v.img.cc) = j := by
      rw [Nat.mul_comm, Nat.mul_add_div hwc, Nat.div_eq_of_lt ht, Nat.add_zero]
    have e2 : (j * (w * v.img.cc) + t) % (w * v.img.cc) = t := by
      rw [Nat.mul_comm, Nat.mul_add_mod, Nat.mod_eq_of_lt ht]
    rw [e1, e2, ← View.start_cell wf fit, Nat.mul_comm (t / _), Nat.div_add_mod]
  · rw [he] at hj ht ⊢
    simp only at hj ht ⊢
    obtain rfl : j = 0 := by omega
    refine ⟨by omega, ?_⟩
    rw [Nat.zero_mul, Nat.zero_mul, Nat.zero_add, ← View.start_cell wf fit, hrow _ hv,
      Nat.mul_comm (t % _ / _), Nat.div_add_mod, Nat.mul_comm (t / _)]
    have := Nat.div_add_mod t (w * v.img.cc)
    omega

theorem pos_lt {w h cc q : Nat} (hcc : 0 < cc) (hw : 0 < w) (hq : q < h * (w * cc)) :
    q % (w * cc) / cc < w ∧ q / (w * cc) < h ∧ q % (w * cc) % cc < cc := by
  have hwc : 0 < w * cc := Nat.mul_pos hw hcc
  refine ⟨Nat.div_lt_of_lt_mul ?_, ?_, Nat.mod_lt _ hcc⟩
  · rw [Nat.mul_comm cc]; exact Nat.mod_lt _ hwc
  · exact Nat.div_lt_of_lt_mul (by rw [Nat.mul_comm]; exact hq)

theorem pos_inj {w cc q q' : Nat} (h1 : q % (w * cc) / cc = q' % (w * cc) / cc)
    (h2 : q / (w * cc) = q' / (w * cc)) (h3 : q % (w * cc) % cc = q' % (w * cc) % cc) : q = q' := by
  have a := Nat.div_add_mod (q % (w * cc)) cc
  have b := Nat.div_add_mod (q' % (w * cc)) cc
  rw [h1, h3] at a
  have c := Nat.div_add_mod q (w * cc)
  have d := Nat.div_add_mod q' (w * cc)
  rw [h2] at c
  omega

/-- Bounds of the merged size. -/
theorem opt_bounds {m : BMem} {v : View} {w h : Nat} (wf : v.img.WF m) (fit : v.Fits w h)
    {imgs : List Image} :
    (optimiseRoi (w * v.img.cc) h imgs).2 * v.img.rowSize < 4294967296 ∧
      (optimiseRoi (w * v.img.cc) h imgs).1 < 4294967296 := by
  obtain ⟨hcc, hr, h3, _, _, h6, _, _, h9, _⟩ := View.facts wf fit
  rcases optimiseRoi_cases (w * v.img.cc) h imgs fit.hpos with he | ⟨he, hrow, h0⟩
  · rw [he]; exact ⟨h6, h9⟩
  · rw [he]; exact ⟨by simpa using h3, h0⟩

/-- Cells of one merged row are valid. -/
theorem opt_valid {m : BMem} {v : View} {w h : Nat} (wf : v.img.WF m) (fit : v.Fits w h)
    {imgs : List Image} (hv : v.img ∈ imgs) {j t : Nat}
    (hj : j < (optimiseRoi (w * v.img.cc) h imgs).2) (ht : t < (optimiseRoi (w * v.img.cc) h imgs).1) :
    m.Valid v.img.data (v.start v.img.cc + j * v.img.rowSize + t) := by
  obtain ⟨hcc, _⟩ := View.facts wf fit
  obtain ⟨q, _, hq, he⟩ := opt_pos wf fit hv hj ht
  obtain ⟨a, b, c⟩ := pos_lt hcc fit.wpos hq
  rw [he]
  exact View.cell_valid wf fit a b c

/-- Cells of merged rows coincide only at the same place. -/
theorem opt_noClash {m : BMem} {vi vo : View} {w h : Nat} (wfi : vi.img.WF m) (wfo : vo.img.WF m)
    (fiti : vi.Fits w h) (fito : vo.Fits w h) (hc : vi.img.cc = vo.img.cc)
    {imgs : List Image} (hi : vi.img ∈ imgs) (ho : vo.img ∈ imgs) (hn : NoClash vi vo w h)
    {j t t' : Nat} (hj : j < (optimiseRoi (w * vo.img.cc) h imgs).2)
    (ht : t < (optimiseRoi (w * vo.img.cc) h imgs).1)
    (ht' : t' < (optimiseRoi (w * vo.img.cc) h imgs).1) (hd : vi.img.data = vo.img.data)
    (he : vi.start vo.img.cc + j * vi.img.rowSize + t = vo.start vo.img.cc + j * vo.img.rowSize + t') :
    t = t' := by
  obtain ⟨hcc, _⟩ := View.facts wfo fito
  obtain ⟨q', hq'e, hq', he'⟩ := opt_pos wfo fito ho hj ht'
  rw [← hc] at hj ht he
  obtain ⟨q, hqe, hq, heq⟩ := opt_pos wfi fiti hi hj ht
  obtain ⟨a, b, c⟩ := pos_lt (by omega) fiti.wpos hq
  obtain ⟨a', b', c'⟩ := pos_lt hcc fito.wpos hq'
  rw [heq, hc, he'] at he
  rw [hc] at a b c hqe
  obtain ⟨x1, x2, x3⟩ := hn _ _ _ _ _ _ a b (by rw [hc]; exact c) a' b' c' hd he
  have := pos_inj x1 x2 x3
  omega

/-! ### Kernels are the scalar loops -/

theorem binaryKernel_eq {m : BMem} {n : Nat} (hn : 0 < n) {vop : Vec → Vec → Vec}
    {sop : UInt8 → UInt8 → UInt8} (hl : Lanes2 n vop sop) {in1 in2 out : View} {w h : Nat}
    (wf1 : in1.img.WF m) (wf2 : in2.img.WF m) (wfo : out.img.WF m)
    (fit1 : in1.Fits w h) (fit2 : in2.Fits w h) (fito : out.Fits w h)
    (c2 : in2.img.cc = in1.img.cc) (co : out.img.cc = in1.img.cc)
    (n1 : NoClash in1 out w h) (n2 : NoClash in2 out w h)
    {imgs : List Image} (i1 : in1.img ∈ imgs) (i2 : in2.img ∈ imgs) (io : out.img ∈ imgs) :
    binaryKernel n vop sop in1 in2 out in1.img.cc (optimiseRoi (w * in1.img.cc) h imgs).1
        (optimiseRoi (w * in1.img.cc) h imgs).2 m
      = binaryRows sop in1 in2 out in1.img.cc (optimiseRoi (w * in1.img.cc) h imgs).1
        (optimiseRoi (w * in1.img.cc) h imgs).2 m := by
  have V1 := fun j t => opt_valid wf1 fit1 i1 (j := j) (t := t)
  have V2 := fun j t => opt_valid wf2 fit2 i2 (j := j) (t := t)
  have VO := fun j t => opt_valid wfo fito io (j := j) (t := t)
  have N1 := fun j t t' => opt_noClash wf1 wfo fit1 fito co.symm i1 io n1 (j := j) (t := t) (t' := t')
  have N2 := fun j t t' => opt_noClash wf2 wfo fit2 fito (c2.trans co.symm) i2 io n2 (j := j) (t := t) (t' := t')
  have hb := opt_bounds wfo fito (imgs := imgs)
  obtain ⟨hcc, hr, _⟩ := View.facts wfo fito
  rw [c2] at V2
  rw [co] at VO N1 N2 hb
  generalize optimiseRoi (w * in1.img.cc) h imgs = r at *
  obtain ⟨W, H⟩ := r
  simp only at *
  have hle : W / n * n ≤ W := Nat.div_mul_le_self W n
  rw [binaryKernel, u32_of_lt hb.1, u32_of_lt (Nat.lt_of_le_of_lt hle hb.2)]
  have e := loop_eq_fold (μ := BMem) (cond := fun s : Nat × Nat × Nat => s.1 != out.start in1.img.cc + H * out.img.rowSize)
    (next := fun s => (s.1 + out.img.rowSize, s.2.1 + in1.img.rowSize, s.2.2 + in2.img.rowSize))
    (body := fun s (_ : Unit) => binaryRow n vop sop in1.img.data in2.img.data out.img.data s.2.1 s.2.2 s.1
      (W / n) (W / n * n) (W - W / n * n))
    (fun k => (out.start in1.img.cc + k * out.img.rowSize, in1.start in1.img.cc + k * in1.img.rowSize,
      in2.start in1.img.cc + k * in2.img.rowSize)) H fuelMax () (count_lt_fuel hr hb.1)
    (fun k hk => ptr_ne hk hr) (by simp)
    (fun k _ => by simp only [Nat.succ_mul, Prod.mk.injEq]; omega)
  simp only [Nat.zero_mul, Nat.add_zero] at e
  have er := rowLoop3_eq (μ := BMem) (row := out.img.rowSize) (step := 1) (row₁ := in1.img.rowSize) (step₁ := 1)
    (row₂ := in2.img.rowSize) (step₂ := 1) (body := fun outX in1X in2X (_ : Unit) => (do
      let a ← readC in1.img.data in1X
      let b ← readC in2.img.data in2X
      writeC out.img.data outX (sop a b) : M BMem Unit))
    (pY := out.start in1.img.cc) (qY := in1.start in1.img.cc) (rY := in2.start in1.img.cc)
    (n := W) (height := H) () hr (by decide) hb.1 (by omega)
  rw [Nat.mul_one] at er
  rw [e, binaryRows, er, fold_grid]
  refine fold_congr_inv (P := fun m1 : BMem => m1.size = m.size) ?_ ?_ () m rfl
  · intro j hj _ m1 hm1
    have hj' := List.mem_range.1 hj
    rw [binaryRow_eq (m := m) hn hl hb.2 hm1 (fun t ht => V1 j t hj' ht) (fun t ht => V2 j t hj' ht)
      (fun t ht => VO j t hj' ht) (fun t t' ht ht' => N1 j t t' hj' ht ht')
      (fun t t' ht ht' => N2 j t t' hj' ht ht')]
    simp only [Nat.mul_one]
  · intro j hj a m1 a' m2 hm1 he
    refine fold_inv (P := fun m1 : BMem => m1.size = m.size) ?_ a m1 a' m2 hm1 he
    intro i _ _ m3 _ m4 hm3 he3
    rw [step2_size he3, hm3]

theorem unaryKernel_eq {m : BMem} {n : Nat} (hn : 0 < n) {vop : Vec → Vec}
    {sop sop' : UInt8 → UInt8} (hl : Lanes1 n vop sop) (hs : ∀ a, sop' a = sop a) {inp out : View} {w h : Nat}
    (wfi : inp.img.WF m) (wfo : out.img.WF m) (fiti : inp.Fits w h) (fito : out.Fits w h)
    (co : out.img.cc = inp.img.cc) (n1 : NoClash inp out w h)
    {imgs : List Image} (i1 : inp.img ∈ imgs) (io : out.img ∈ imgs) :
    unaryKernel n vop sop' inp out inp.img.cc (optimiseRoi (w * inp.img.cc) h imgs).1
        (optimiseRoi (w * inp.img.cc) h imgs).2 m
      = unaryRows sop inp out inp.img.cc (optimiseRoi (w * inp.img.cc) h imgs).1
        (optimiseRoi (w * inp.img.cc) h imgs).2 m := by
  have V1 := fun j t => opt_valid wfi fiti i1 (j := j) (t := t)
  have VO := fun j t => opt_valid wfo fito io (j := j) (t := t)
  have N1 := fun j t t' => opt_noClash wfi wfo fiti fito co.symm i1 io n1 (j := j) (t := t) (t' := t')
  have hb := opt_bounds wfo fito (imgs := imgs)
  obtain ⟨hcc, hr, _⟩ := View.facts wfo fito
  rw [co] at VO N1 hb
  generalize optimiseRoi (w * inp.img.cc) h imgs = r at *
  obtain ⟨W, H⟩ := r
  simp only at *
  have hle : W / n * n ≤ W := Nat.div_mul_le_self W n
  rw [unaryKernel, u32_of_lt hb.1, u32_of_lt (Nat.lt_of_le_of_lt hle hb.2)]
  have e := loop_eq_fold (μ := BMem) (cond := fun s : Nat × Nat => s.1 != out.start inp.img.cc + H * out.img.rowSize)
    (next := fun s => (s.1 + out.img.rowSize, s.2 + inp.img.rowSize))
    (body := fun s (_ : Unit) => unaryRow n vop sop' inp.img.data out.img.data s.2 s.1
      (W / n) (W / n * n) (W - W / n * n))
    (fun k => (out.start inp.img.cc + k * out.img.rowSize, inp.start inp.img.cc + k * inp.img.rowSize))
    H fuelMax () (count_lt_fuel hr hb.1)
    (fun k hk => ptr_ne hk hr) (by simp)
    (fun k _ => by simp only [Nat.succ_mul, Prod.mk.injEq]; omega)
  simp only [Nat.zero_mul, Nat.add_zero] at e
  have er := rowLoop2_eq (μ := BMem) (row := out.img.rowSize) (step := 1) (row₁ := inp.img.rowSize) (step₁ := 1)
    (body := fun outX inX (_ : Unit) => (do
      let a ← readC inp.img.data inX
      writeC out.img.data outX (sop a) : M BMem Unit))
    (pY := out.start inp.img.cc) (qY := inp.start inp.img.cc)
    (n := W) (height := H) () hr (by decide) hb.1 (by omega)
  rw [Nat.mul_one] at er
  rw [e, unaryRows, er, fold_grid]
  refine fold_congr_inv (P := fun m1 : BMem => m1.size = m.size) ?_ ?_ () m rfl
  · intro j hj _ m1 hm1
    have hj' := List.mem_range.1 hj
    rw [unaryRow_eq (m := m) hn hl hs hb.2 hm1 (fun t ht => V1 j t hj' ht)
      (fun t ht => VO j t hj' ht) (fun t t' ht ht' => N1 j t t' hj' ht ht')]
    simp only [Nat.mul_one]
  · intro j hj a m1 a' m2 hm1 he
    refine fold_inv (P := fun m1 : BMem => m1.size = m.size) ?_ a m1 a' m2 hm1 he
    intro i _ _ m3 _ m4 hm3 he3
    rw [step1_size he3, hm3]

/-- `n` writes of a constant. -/
theorem memset_eq {m : BMem} {b p : Nat} {v : UInt8} {N : Nat} (hv : ∀ i, i < N → m.Valid b (p + i))
    (n : Nat) (hn : n ≤ N) : memsetC b p v n m = .ok () (setRange m b p n fun _ => v) := by
  unfold memsetC
  induction n with
  | zero => rw [setRange_zero]; rfl
  | succ n ih =>
    rw [List.range_succ, fold_append, bind_ok (ih (by omega)), fold_cons,
      bind_ok (writeC_ok (m := setRange m b p n fun _ => v) _
        (Mem.valid_of_size (m := m) rfl (hv n (by omega)))), setRange_succ]
    rfl

/-- Filling rows is the scalar threshold loop with threshold 0. -/
theorem fillKernel_eq {m : BMem} {inp out : View} {w h : Nat}
    (wfi : inp.img.WF m) (wfo : out.img.WF m) (fiti : inp.Fits w h) (fito : out.Fits w h)
    (ci : inp.img.cc = 1) (co : out.img.cc = 1) (n1 : NoClash inp out w h)
    {imgs : List Image} (i1 : inp.img ∈ imgs) (io : out.img ∈ imgs) :
    fillKernel out (optimiseRoi w h imgs).1 (optimiseRoi w h imgs).2 m
      = unaryRows (thrE 0) inp out 1 (optimiseRoi w h imgs).1 (optimiseRoi w h imgs).2 m := by
  have V1 := fun j t => opt_valid wfi fiti i1 (j := j) (t := t)
  have VO := fun j t => opt_valid wfo fito io (j := j) (t := t)
  have N1 := fun j t t' => opt_noClash wfi wfo fiti fito (ci.trans co.symm) i1 io n1 (j := j) (t := t) (t' := t')
  have hb := opt_bounds wfo fito (imgs := imgs)
  obtain ⟨hcc, hr, _⟩ := View.facts wfo fito
  simp only [ci, co, Nat.mul_one] at V1 VO N1 hb
  generalize optimiseRoi w h imgs = r at *
  obtain ⟨W, H⟩ := r
  simp only at *
  rw [fillKernel, u32_of_lt hb.1]
  have e := loop_eq_fold (μ := BMem) (cond := fun s : Nat => s != out.start 1 + H * out.img.rowSize)
    (next := fun s => s + out.img.rowSize)
    (body := fun s (_ : Unit) => memsetC out.img.data s 255 W)
    (fun k => out.start 1 + k * out.img.rowSize) H fuelMax () (count_lt_fuel hr hb.1)
    (fun k hk => ptr_ne hk hr) (by simp)
    (fun k _ => by simp only [Nat.succ_mul]; omega)
  simp only [Nat.zero_mul, Nat.add_zero] at e
  have er := rowLoop2_eq (μ := BMem) (row := out.img.rowSize) (step := 1) (row₁ := inp.img.rowSize) (step₁ := 1)
    (body := fun outX inX (_ : Unit) => (do
      let a ← readC inp.img.data inX
      writeC out.img.data outX (thrE 0 a) : M BMem Unit))
    (pY := out.start 1) (qY := inp.start 1)
    (n := W) (height := H) () hr (by decide) hb.1 (by omega)
  rw [Nat.mul_one] at er
  rw [e, unaryRows, er, fold_grid]
  refine fold_congr_inv (P := fun m1 : BMem => m1.size = m.size) ?_ ?_ () m rfl
  · intro j hj _ m1 hm1
    have hj' := List.mem_range.1 hj
    have VI' : ∀ i, i < W → m1.Valid inp.img.data (inp.start 1 + j * inp.img.rowSize + i) :=
      fun t ht => Mem.valid_of_size hm1 (V1 j t hj' ht)
    have VO' : ∀ i, i < W → m1.Valid out.img.data (out.start 1 + j * out.img.rowSize + i) :=
      fun t ht => Mem.valid_of_size hm1 (VO j t hj' ht)
    simp only [Nat.mul_one]
    rw [memset_eq VO' W (Nat.le_refl _),
      bytes1_eq VI' VO' (fun t t' ht ht' => N1 j t t' hj' ht ht') W (Nat.le_refl _)]
    congr 1
  · intro j hj a m1 a' m2 hm1 he
    refine fold_inv (P := fun m1 : BMem => m1.size = m.size) ?_ a m1 a' m2 hm1 he
    intro i _ _ m3 _ m4 hm3 he3
    rw [step1_size he3, hm3]

end PV.Simd
