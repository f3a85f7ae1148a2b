import Verif.SimdAdd
/-
  The kernels of `Sum`, `ProjectionProfile` and `Accumulate` as sums over bytes.
-/
namespace PV.Simd

variable {μ A : Type}

/-- A fold that does not change the memory, with a relation between the steps done and the
    value carried. -/
theorem fold_state {m : μ} {body : Nat → A → M μ A} {P : Nat → A → Prop} (n : Nat) (a : A) (h0 : P 0 a)
    (hs : ∀ j, j < n → ∀ a, P j a → ∃ a', body j a m = .ok a' m ∧ P (j + 1) a') :
    ∃ a', fold body (List.range n) a m = .ok a' m ∧ P n a' := by
  induction n with
  | zero => exact ⟨a, rfl, h0⟩
  | succ n ih =>
    obtain ⟨a1, h1, h2⟩ := ih fun j hj => hs j (by omega)
    obtain ⟨a2, h3, h4⟩ := hs n (by omega) a1 h2
    refine ⟨a2, ?_, h4⟩
    rw [List.range_succ, fold_append, bind_ok h1, fold_cons, bind_ok h3]
    rfl

/-- The byte at a place as a number. Not in the code: for statements and proofs. -/
abbrev num (m : BMem) (b : Nat) : Nat → Nat := fun p => (m.byte b p).toNat

theorem sumRegs_ok {m : BMem} {n b p sw : Nat} {step : DVec → Vec → DVec} (hn : 0 < n) (hst : SumsUp n step)
    (hsw : sw < 4294967296) (hv : ∀ t, t < sw * n → m.Valid b (p + t)) (acc : DVec) :
    ∃ acc', sumRegs n step b p sw acc m = .ok acc' m ∧
      usum acc' (n / 4) = usum acc (n / 4) + UInt32.ofNat (nsum (fun t => num m b (p + t)) (sw * n)) := by
  have e := loop_eq_fold (cond := fun s => s != p + sw * n) (next := fun s => s + n)
    (body := fun s acc => (do
      let data ← loadV n b s
      pure (step acc data) : M BMem DVec)) (fun k => p + k * n) sw fuelMax acc
    (by rw [fuelMax]; omega) (fun k hk => ptr_ne hk hn) (by simp)
    (fun k _ => by simp only [Nat.succ_mul]; omega)
  rw [Nat.zero_mul, Nat.add_zero] at e
  rw [sumRegs, e]
  refine fold_state (P := fun j a => usum a (n / 4)
    = usum acc (n / 4) + UInt32.ofNat (nsum (fun t => num m b (p + t)) (j * n))) sw acc ?_ ?_
  · rw [Nat.zero_mul]
    exact (UInt32.add_zero _).symm
  · intro j hj a ha
    have hv' : ∀ i, i < n → m.Valid b (p + j * n + i) := fun i hi => by
      rw [Nat.add_assoc]
      exact hv _ (mul_add_lt hj hi)
    refine ⟨_, (bind_ok (loadV_ok hn hv')).trans rfl, ?_⟩
    rw [hst, ha, Nat.succ_mul, nsum_add, UInt32.ofNat_add, ← UInt32.add_assoc]
    simp only [Nat.add_assoc]

theorem sumTail_ok {m : BMem} {b p non : Nat} (hnon : non < 4294967296)
    (hv : ∀ t, t < non → m.Valid b (p + t)) (sum : UInt32) :
    sumTail b p non sum m = .ok (sum + UInt32.ofNat (nsum (fun t => num m b (p + t)) non)) m := by
  have e := loop_eq_fold (cond := fun s => s != p + non) (next := fun s => s + 1)
    (body := fun s sum => (do
        let a ← readC b s
        pure (sum + UInt32.ofNat a.toNat) : M BMem UInt32)) (fun k => p + k) non fuelMax sum
    (by rw [fuelMax]; omega) (fun k hk => by simp only [bne_iff_ne, ne_eq]; omega) (by simp)
    (fun k _ => by omega)
  rw [Nat.add_zero] at e
  rw [sumTail]
  by_cases h0 : non > 0
  · rw [if_pos h0, e]
    obtain ⟨a', h1, h2⟩ := fold_state (m := m) (body := fun k sum => (do
        let a ← readC b (p + k)
        pure (sum + UInt32.ofNat a.toNat) : M BMem UInt32))
      (P := fun j a => a = sum + UInt32.ofNat (nsum (fun t => num m b (p + t)) j)) non sum
      (UInt32.add_zero _).symm (by
        intro j hj a ha
        refine ⟨_, (bind_ok (readC_ok (hv j hj))).trans rfl, ?_⟩
        rw [ha, nsum_succ, UInt32.ofNat_add, UInt32.add_assoc])
    rw [h1, h2]
  · have : non = 0 := by omega
    subst this
    rw [if_neg h0]
    exact congrArg (fun x => Res.ok x m) (UInt32.add_zero _).symm

/-- The kernel of `Sum`: the sum of all bytes of the rows. -/
theorem sumKernel_ok {m : BMem} {n : Nat} {step : DVec → Vec → DVec} (hn : 0 < n) (hst : SumsUp n step)
    {image : View} {W H : Nat} (hr : 0 < image.img.rowSize) (hH : H * image.img.rowSize < 4294967296)
    (hW : W < 4294967296)
    (hv : ∀ j t, j < H → t < W → m.Valid image.img.data (image.start 1 + j * image.img.rowSize + t)) :
    sumKernel n step image W H m = .ok (UInt32.ofNat (nsum (fun j => nsum (fun t =>
      num m image.img.data (image.start 1 + j * image.img.rowSize + t)) W) H)) m := by
  have hle : W / n * n ≤ W := Nat.div_mul_le_self W n
  have hq : W / n ≤ W := Nat.div_le_self W n
  have e := loop_eq_fold (cond := fun s => s != image.start 1 + H * image.img.rowSize)
    (next := fun s => s + image.img.rowSize)
    (body := fun s st => (do
      let simdSum ← sumRegs n step image.img.data s (W / n) st.2
      let sum ← sumTail image.img.data (s + W / n * n) (W - W / n * n) st.1
      pure (sum, simdSum) : M BMem (UInt32 × DVec))) (fun k => image.start 1 + k * image.img.rowSize) H fuelMax
    ((0 : UInt32), zero32)
    (count_lt_fuel hr hH) (fun k hk => ptr_ne hk hr) (by simp) (fun k _ => by simp only [Nat.succ_mul]; omega)
  rw [Nat.zero_mul, Nat.add_zero] at e
  have e0 : sumKernel n step image W H = (do
      let r ← loop (fun s => s != image.start 1 + u32 (H * image.img.rowSize)) (fun s => s + image.img.rowSize)
        (fun s st => (do
          let simdSum ← sumRegs n step image.img.data s (W / n) st.2
          let sum ← sumTail image.img.data (s + u32 (W / n * n)) (W - u32 (W / n * n)) st.1
          pure (sum, simdSum) : M BMem (UInt32 × DVec)))
        fuelMax (image.start 1) ((0 : UInt32), zero32)
      pure (r.1 + hsum n r.2)) := rfl
  rw [e0, u32_of_lt hH, u32_of_lt (show W / n * n < 4294967296 by omega), e]
  obtain ⟨r, h1, h2⟩ := fold_state (m := m) (body := fun k st => (do
      let simdSum ← sumRegs n step image.img.data (image.start 1 + k * image.img.rowSize) (W / n) st.2
      let sum ← sumTail image.img.data (image.start 1 + k * image.img.rowSize + W / n * n) (W - W / n * n) st.1
      pure (sum, simdSum) : M BMem (UInt32 × DVec)))
    (P := fun j st => st.1 + usum st.2 (n / 4) = UInt32.ofNat (nsum (fun j => nsum (fun t =>
      num m image.img.data (image.start 1 + j * image.img.rowSize + t)) W) j)) H ((0 : UInt32), zero32)
    (by rw [usum_zero32]; rfl) (by
      intro j hj st hst'
      obtain ⟨acc', h1, h2⟩ := sumRegs_ok hn hst (show W / n < 4294967296 by omega)
        (fun t ht => hv j t hj (by omega)) st.2
      have h3 := sumTail_ok (m := m) (b := image.img.data) (p := image.start 1 + j * image.img.rowSize + W / n * n)
        (non := W - W / n * n) (by omega)
        (fun t ht => by rw [Nat.add_assoc]; exact hv j _ hj (by omega)) st.1
      refine ⟨(_, acc'), (bind_ok h1).trans ((bind_ok h3).trans rfl), ?_⟩
      · have eW : nsum (fun t => num m image.img.data (image.start 1 + j * image.img.rowSize + t)) W
            = nsum (fun t => num m image.img.data (image.start 1 + j * image.img.rowSize + t)) (W / n * n)
              + nsum (fun t => num m image.img.data
                  (image.start 1 + j * image.img.rowSize + W / n * n + t)) (W - W / n * n) := by
          conv => lhs; rw [show W = W / n * n + (W - W / n * n) from by omega]
          rw [nsum_add]
          simp only [Nat.add_assoc]
        simp only
        rw [h2, nsum_succ, UInt32.ofNat_add, ← hst', eW, UInt32.ofNat_add]
        generalize UInt32.ofNat _ = x
        generalize UInt32.ofNat _ = y
        generalize st.1 = a
        generalize usum st.2 (n / 4) = c
        apply UInt32.toNat_inj.1
        simp only [UInt32.toNat_add]
        omega)
  rw [bind_ok h1]
  exact congrArg (fun x => Res.ok x m) h2

/-! ### Vertical profile -/

theorem block_one (i : Nat) (x : UInt32) : (fun k => if i = k then x else 0) = block i 1 fun _ => x := by
  funext k
  unfold block
  by_cases h : i = k
  · rw [if_pos h, if_pos (by omega)]
  · rw [if_neg h, if_neg (by omega)]

theorem block_add (b n : Nat) (f g : Nat → UInt32) (k : Nat) :
    block b n f k + block b n g k = block b n (fun k => f k + g k) k := by
  unfold block
  by_cases h : b ≤ k ∧ k < b + n
  · rw [if_pos h, if_pos h, if_pos h]
  · rw [if_neg h, if_neg h, if_neg h]
    rfl

theorem vecAdd_adds {m : BMem} {u : List UInt32} {i : Nat} (x : UInt32) (h : i < u.length) :
    vecAdd i x (m, u) = .ok () (m, adds u (block i 1 fun _ => x)) := by
  rw [vecAdd_ok x h, bump_adds, block_one]

/-- Adding a sequence of bytes to one entry. -/
theorem addOne_fold {m : BMem} {b out N : Nat} {ad : Nat → Nat} (u : List UInt32) (hout : out < u.length)
    (hv : ∀ t, t < N → m.Valid b (ad t)) :
    fold (fun t _ => (do
        let a ← onImg (readC b (ad t))
        vecAdd out (UInt32.ofNat a.toNat) : M VMem Unit)) (List.range N) () (m, u)
      = .ok () (m, adds u (block out 1 fun _ => UInt32.ofNat (nsum (fun t => num m b (ad t)) N))) := by
  induction N with
  | zero =>
    have : adds u (block out 1 fun _ => UInt32.ofNat (nsum (fun t => num m b (ad t)) 0)) = u := by
      refine Eq.trans (adds_congr fun k _ => ?_) (adds_zero u)
      unfold block
      split <;> rfl
    rw [this]
    rfl
  | succ N ih =>
    rw [List.range_succ, fold_append, bind_ok (ih fun t ht => hv t (by omega)), fold_cons,
      bind_assoc', bind_ok (onImg_ok (readC_ok (hv N (by omega)))),
      bind_ok (vecAdd_adds _ (by rw [adds_length]; exact hout)), adds_adds]
    simp only [block_add, nsum_succ, UInt32.ofNat_add]
    rfl

theorem verticalTail_ok {m : BMem} {b p out non : Nat} (u : List UInt32) (hout : out < u.length)
    (hnon : non < 4294967296) (hv : ∀ t, t < non → m.Valid b (p + t)) :
    verticalTail b p out non (m, u)
      = .ok () (m, adds u (block out 1 fun _ => UInt32.ofNat (nsum (fun t => num m b (p + t)) non))) := by
  have e := loop_eq_fold (cond := fun s => s != p + non) (next := fun s => s + 1)
    (body := fun s (_ : Unit) => (do
        let a ← onImg (readC b s)
        vecAdd out (UInt32.ofNat a.toNat) : M VMem Unit)) (fun k => p + k) non fuelMax ()
    (by rw [fuelMax]; omega) (fun k hk => by simp only [bne_iff_ne, ne_eq]; omega) (by simp)
    (fun k _ => by omega)
  rw [Nat.add_zero] at e
  rw [verticalTail]
  by_cases h0 : non > 0
  · rw [if_pos h0, e]
    exact addOne_fold u hout hv
  · have : non = 0 := by omega
    subst this
    rw [if_neg h0]
    exact addOne_fold (N := 0) (b := b) (ad := fun t => p + t) u hout (by intro t ht; omega)

theorem verticalKernel_ok {m : BMem} {n : Nat} {step : DVec → Vec → DVec} (hn : 0 < n) (hst : SumsUp n step)
    {b p row W H : Nat} (hr : 0 < row) (hH : H * row < 4294967296) (hW : W < 4294967296)
    (hv : ∀ j t, j < H → t < W → m.Valid b (p + j * row + t)) (v : List UInt32) (hlen : v.length = H) :
    verticalKernel n step b p row H (W / n) (W / n * n) (W - W / n * n) (m, v)
      = .ok () (m, adds v (block 0 H fun j => UInt32.ofNat (nsum (fun t => num m b (p + j * row + t)) W))) := by
  have hle : W / n * n ≤ W := Nat.div_mul_le_self W n
  have hq : W / n ≤ W := Nat.div_le_self W n
  have e := loop_eq_fold (cond := fun s : Nat × Nat => s.1 != p + H * row) (next := fun s => (s.1 + row, s.2 + 1))
    (body := fun s (_ : Unit) => (do
      let simdSum ← onImg (sumRegs n step b s.1 (W / n) zero32)
      verticalTail b (s.1 + W / n * n) s.2 (W - W / n * n)
      vecAdd s.2 (hsum n simdSum) : M VMem Unit)) (fun k => (p + k * row, k)) H fuelMax ()
    (count_lt_fuel hr hH) (fun k hk => ptr_ne hk hr) (by simp)
    (fun k _ => by simp only [Nat.succ_mul, Nat.add_assoc])
  rw [Nat.zero_mul, Nat.add_zero] at e
  rw [verticalKernel, u32_of_lt hH, e]
  have e1 := fold_blocks (m := m) (b := 0) (n := 1) (s := H)
    (g := fun j => UInt32.ofNat (nsum (fun t => num m b (p + j * row + t)) W)) (body := fun k (_ : Unit) => (do
      let simdSum ← onImg (sumRegs n step b (p + k * row) (W / n) zero32)
      verticalTail b (p + k * row + W / n * n) k (W - W / n * n)
      vecAdd k (hsum n simdSum) : M VMem Unit)) v (by
    intro j hj u hu
    obtain ⟨acc', h1, h2⟩ := sumRegs_ok (m := m) (b := b) (p := p + j * row) hn hst
      (show W / n < 4294967296 by omega) (fun t ht => hv j t hj (by omega)) zero32
    have h3 := verticalTail_ok (m := m) (b := b) (p := p + j * row + W / n * n) (out := j)
      (non := W - W / n * n) u (by omega) (by omega)
      (fun t ht => by rw [Nat.add_assoc]; exact hv j _ hj (by omega))
    rw [bind_ok (onImg_ok h1), bind_ok h3, vecAdd_adds _ (by rw [adds_length]; omega), adds_adds]
    congr 2
    refine adds_congr fun k _ => ?_
    rw [block_add, hsum_eq, h2, usum_zero32, UInt32.zero_add, Nat.zero_add, Nat.mul_one]
    unfold block
    by_cases hk : j ≤ k ∧ k < j + 1
    · rw [if_pos hk, if_pos hk]
      obtain rfl : k = j := by omega
      have eW : nsum (fun t => num m b (p + k * row + t)) W
          = nsum (fun t => num m b (p + k * row + t)) (W / n * n)
            + nsum (fun t => num m b (p + k * row + W / n * n + t)) (W - W / n * n) := by
        conv => lhs; rw [show W = W / n * n + (W - W / n * n) from by omega]
        rw [nsum_add]
        simp only [Nat.add_assoc]
      show UInt32.ofNat _ + UInt32.ofNat _ = UInt32.ofNat (nsum (fun t => num m b (p + k * row + t)) W)
      rw [eW, ← UInt32.ofNat_add, Nat.add_comm]
    · rw [if_neg hk, if_neg hk])
  rw [Nat.mul_one] at e1
  exact e1

/-! ### Horizontal profile -/

theorem profileRegs_ok {m : BMem} {n : Nat} {wd : Vec → Nat → DVec} {pi : Nat → Nat} (hn : 0 < n)
    (hwd : Widens n wd pi) {b p row H : Nat} (hr : 0 < row) (hH : H * row < 4294967296)
    (hv : ∀ j t, j < H → t < n → m.Valid b (p + j * row + t)) (v : List UInt32) :
    ∃ acc, profileRegs n wd b p row H (m, v) = .ok acc (m, v) ∧
      ∀ q i, q < 4 → i < n / 4 → acc q i
        = UInt32.ofNat (nsum (fun j => num m b (p + j * row + pi (q * (n / 4) + i))) H) := by
  have e := loop_eq_fold (cond := fun s => s != p + H * row) (next := fun s => s + row)
    (body := fun s acc => (do
      let data ← onImg (loadV n b s)
      pure fun q => add32 (wd data q) (acc q) : M VMem (Nat → DVec))) (fun k => p + k * row) H fuelMax
    (fun _ => zero32) (count_lt_fuel hr hH) (fun k hk => ptr_ne hk hr) (by simp)
    (fun k _ => by simp only [Nat.succ_mul]; omega)
  rw [Nat.zero_mul, Nat.add_zero] at e
  rw [profileRegs, u32_of_lt hH, e]
  refine fold_state (P := fun j (acc : Nat → DVec) => ∀ q i, q < 4 → i < n / 4 → acc q i
        = UInt32.ofNat (nsum (fun j => num m b (p + j * row + pi (q * (n / 4) + i))) j)) H _ ?_ ?_
  · intro q i _ _
    rfl
  · intro j hj acc hacc
    refine ⟨_, (bind_ok (onImg_ok (loadV_ok hn fun i hi => hv j i hj hi))).trans rfl, ?_⟩
    intro q i hq hi
    show wd _ q i + acc q i = _
    rw [hwd _ q i hq hi, hacc q i hq hi, ← UInt32.ofNat_add, nsum_succ]
    exact congrArg UInt32.ofNat (Nat.add_comm _ _)

/-- Where the column that ends up in entry `k` comes from. Not in the code: for statements and proofs. -/
def source (n total : Nat) (pi : Nat → Nat) (k : Nat) : Nat := if k < total then k / n * n + pi (k % n) else k

theorem horizontalRegs_ok {m : BMem} {n : Nat} {wd : Vec → Nat → DVec} {pi : Nat → Nat} (hn : 0 < n)
    (h4 : n = 4 * (n / 4)) {b p row H sw : Nat}
    (hwd : sw ≠ 0 → Widens n wd pi) (hr : 0 < row) (hH : H * row < 4294967296)
    (hW : sw * n < 4294967296) (hv : ∀ j t, j < H → t < sw * n → m.Valid b (p + j * row + t))
    (v : List UInt32) (hlen : sw * n ≤ v.length) :
    horizontalRegs n wd b p (sw * n) row H (m, v)
      = .ok () (m, adds v (block 0 (sw * n) fun k =>
          UInt32.ofNat (nsum (fun j => num m b (p + j * row + source n (sw * n) pi k)) H))) := by
  have e := loop_eq_fold (cond := fun s : Nat × Nat => s.1 != p + sw * n) (next := fun s => (s.1 + n, s.2 + n))
    (body := fun s (_ : Unit) => (do
      let acc ← profileRegs n wd b s.1 row H
      addStore4 n s.2 acc : M VMem Unit)) (fun k => (p + k * n, k * n)) sw fuelMax ()
    (count_lt_fuel hn hW) (fun k hk => ptr_ne hk hn) (by simp)
    (fun k _ => by simp only [Nat.succ_mul, Nat.add_assoc])
  rw [Nat.zero_mul, Nat.add_zero] at e
  rw [horizontalRegs, e]
  refine fold_blocks (b := 0) (n := n) (s := sw) v ?_
  intro c hc u hu
  have hcn : ∀ t, t < n → c * n + t < sw * n := fun t ht => mul_add_lt hc ht
  obtain ⟨acc, h1, h2⟩ := profileRegs_ok (m := m) (b := b) (p := p + c * n) (row := row) (H := H) hn
    (hwd (by omega)) hr hH (fun j t hj ht => by
      have := hv j _ hj (hcn t ht)
      rwa [show p + j * row + (c * n + t) = p + c * n + j * row + t from by omega] at this) u
  rw [bind_ok h1, Nat.zero_add]
  refine addStore4_ok h4 (by have := hcn (n - 1) (by omega); omega) ?_
  intro q j hq hj
  have hx : q * (n / 4) + j < n := by
    have : q * (n / 4) ≤ 3 * (n / 4) := Nat.mul_le_mul_right _ (by omega)
    omega
  rw [h2 q j hq hj, source, if_pos (hcn _ hx)]
  have e1 : (c * n + (q * (n / 4) + j)) / n = c := by
    rw [Nat.mul_comm, Nat.mul_add_div hn, Nat.div_eq_of_lt hx, Nat.add_zero]
  have e2 : (c * n + (q * (n / 4) + j)) % n = q * (n / 4) + j := by
    rw [Nat.mul_comm, Nat.mul_add_mod, Nat.mod_eq_of_lt hx]
  rw [e1, e2]
  exact congrArg UInt32.ofNat (nsum_congr fun j' _ => congrArg (num m b) (by omega))

theorem horizontalTail_ok {m : BMem} {b p out non row H : Nat} (hr : 0 < row) (hH : H * row < 4294967296)
    (hnon : non < 4294967296) (hv : ∀ j t, j < H → t < non → m.Valid b (p + j * row + t))
    (v : List UInt32) (hlen : out + non ≤ v.length) :
    horizontalTail b p out non row H (m, v)
      = .ok () (m, adds v (block out non fun k =>
          UInt32.ofNat (nsum (fun j => num m b (p + j * row + (k - out))) H))) := by
  have e := loop_eq_fold (cond := fun s : Nat × Nat => s.1 != p + non) (next := fun s => (s.1 + 1, s.2 + 1))
    (body := fun s (_ : Unit) => loop (fun t => t != s.1 + H * row) (fun t => t + row)
        (fun t (_ : Unit) => (do
          let a ← onImg (readC b t)
          vecAdd s.2 (UInt32.ofNat a.toNat) : M VMem Unit)) fuelMax s.1 ())
    (fun k => (p + k, out + k)) non fuelMax ()
    (by rw [fuelMax]; omega) (fun k hk => by simp only [bne_iff_ne, ne_eq]; omega) (by simp)
    (fun k _ => by simp only [Prod.mk.injEq]; omega)
  rw [Nat.add_zero, Nat.add_zero] at e
  have main := fold_blocks (m := m) (b := out) (n := 1) (s := non)
    (g := fun k => UInt32.ofNat (nsum (fun j => num m b (p + j * row + (k - out))) H))
    (body := fun k (_ : Unit) => loop (fun t => t != p + k + H * row) (fun t => t + row)
        (fun t (_ : Unit) => (do
          let a ← onImg (readC b t)
          vecAdd (out + k) (UInt32.ofNat a.toNat) : M VMem Unit)) fuelMax (p + k) ()) v (by
    intro c hc u hu
    have e2 := loop_eq_fold (cond := fun t => t != p + c + H * row) (next := fun t => t + row)
      (body := fun t (_ : Unit) => (do
          let a ← onImg (readC b t)
          vecAdd (out + c) (UInt32.ofNat a.toNat) : M VMem Unit)) (fun k => p + c + k * row) H fuelMax ()
      (count_lt_fuel hr hH) (fun k hk => ptr_ne hk hr) (by simp)
      (fun k _ => by simp only [Nat.succ_mul]; omega)
    rw [Nat.zero_mul, Nat.add_zero] at e2
    rw [e2, addOne_fold (ad := fun k => p + c + k * row) u (by omega) (fun j hj => by
      have := hv j c hj hc
      rwa [show p + j * row + c = p + c + j * row from by omega] at this)]
    congr 2
    refine adds_congr fun k _ => ?_
    rw [Nat.mul_one]
    unfold block
    by_cases hk : out + c ≤ k ∧ k < out + c + 1
    · rw [if_pos hk, if_pos hk]
      obtain rfl : k = out + c := by omega
      exact congrArg UInt32.ofNat (nsum_congr fun j _ => congrArg (num m b) (by omega))
    · rw [if_neg hk, if_neg hk])
  rw [Nat.mul_one] at main
  rw [horizontalTail, u32_of_lt hH]
  by_cases h0 : non > 0
  · rw [if_pos h0, e]
    exact main
  · have : non = 0 := by omega
    subst this
    rw [if_neg h0]
    exact main

/-! ### Accumulate -/

theorem accRegs_ok {m : BMem} {n : Nat} {wd : Vec → Nat → DVec} {pi : Nat → Nat} (hn : 0 < n)
    (h4 : n = 4 * (n / 4)) {b p out sw : Nat} (hwd : sw ≠ 0 → Widens n wd pi) (hsw : sw < 4294967296)
    (hv : ∀ t, t < sw * n → m.Valid b (p + t)) (v : List UInt32) (hlen : out + sw * n ≤ v.length) :
    accRegs n wd b p out sw (m, v)
      = .ok () (m, adds v (block out (sw * n) fun k =>
          UInt32.ofNat (num m b (p + source n (sw * n) pi (k - out))))) := by
  have e := loop_eq_fold (cond := fun s : Nat × Nat => s.1 != p + sw * n) (next := fun s => (s.1 + n, s.2 + n))
    (body := fun s (_ : Unit) => (do
      let data ← onImg (loadV n b s.1)
      addStore4 n s.2 (wd data) : M VMem Unit)) (fun k => (p + k * n, out + k * n)) sw fuelMax ()
    (by rw [fuelMax]; omega) (fun k hk => ptr_ne hk hn) (by simp)
    (fun k _ => by simp only [Nat.succ_mul, Prod.mk.injEq]; omega)
  rw [Nat.zero_mul, Nat.add_zero, Nat.add_zero] at e
  rw [accRegs, e]
  refine fold_blocks v ?_
  intro c hc u hu
  have hcn : ∀ t, t < n → c * n + t < sw * n := fun t ht => mul_add_lt hc ht
  rw [bind_ok (onImg_ok (loadV_ok hn fun i hi => by
    rw [Nat.add_assoc]
    exact hv _ (hcn i hi)))]
  refine addStore4_ok h4 (by have := hcn (n - 1) (by omega); omega) ?_
  intro q j hq hj
  have hx : q * (n / 4) + j < n := by
    have : q * (n / 4) ≤ 3 * (n / 4) := Nat.mul_le_mul_right _ (by omega)
    omega
  rw [hwd (by omega) _ q j hq hj]
  have e0 : out + c * n + (q * (n / 4) + j) - out = c * n + (q * (n / 4) + j) := by omega
  rw [e0, source, if_pos (hcn _ hx)]
  have e1 : (c * n + (q * (n / 4) + j)) / n = c := by
    rw [Nat.mul_comm, Nat.mul_add_div hn, Nat.div_eq_of_lt hx, Nat.add_zero]
  have e2 : (c * n + (q * (n / 4) + j)) % n = q * (n / 4) + j := by
    rw [Nat.mul_comm, Nat.mul_add_mod, Nat.mod_eq_of_lt hx]
  rw [e1, e2, Nat.add_assoc]

theorem accTail_ok {m : BMem} {b p out non : Nat} (hnon : non < 4294967296)
    (hv : ∀ t, t < non → m.Valid b (p + t)) (v : List UInt32) (hlen : out + non ≤ v.length) :
    accTail b p out non (m, v)
      = .ok () (m, adds v (block out non fun k => UInt32.ofNat (num m b (p + (k - out))))) := by
  have e := loop_eq_fold (cond := fun s : Nat × Nat => s.1 != p + non) (next := fun s => (s.1 + 1, s.2 + 1))
    (body := fun s (_ : Unit) => (do
        let a ← onImg (readC b s.1)
        vecAdd s.2 (UInt32.ofNat a.toNat) : M VMem Unit)) (fun k => (p + k, out + k)) non fuelMax ()
    (by rw [fuelMax]; omega) (fun k hk => by simp only [bne_iff_ne, ne_eq]; omega) (by simp)
    (fun k _ => by simp only [Prod.mk.injEq]; omega)
  rw [Nat.add_zero, Nat.add_zero] at e
  have main := fold_blocks (m := m) (b := out) (n := 1) (s := non)
    (g := fun k => UInt32.ofNat (num m b (p + (k - out))))
    (body := fun k (_ : Unit) => (do
        let a ← onImg (readC b (p + k))
        vecAdd (out + k) (UInt32.ofNat a.toNat) : M VMem Unit)) v (by
    intro c hc u hu
    rw [bind_ok (onImg_ok (readC_ok (hv c hc))), vecAdd_adds _ (by omega)]
    congr 2
    refine adds_congr fun k _ => ?_
    rw [Nat.mul_one]
    unfold block
    by_cases hk : out + c ≤ k ∧ k < out + c + 1
    · rw [if_pos hk, if_pos hk]
      obtain rfl : k = out + c := by omega
      show _ = UInt32.ofNat (num m b (p + (out + c - out)))
      rw [show out + c - out = c from by omega]
    · rw [if_neg hk, if_neg hk])
  rw [Nat.mul_one] at main
  rw [accTail]
  by_cases h0 : non > 0
  · rw [if_pos h0, e]
    exact main
  · have : non = 0 := by omega
    subst this
    rw [if_neg h0]
    exact main

theorem accKernel_ok {m : BMem} {n : Nat} {wd : Vec → Nat → DVec} {pi : Nat → Nat} (hn : 0 < n)
    (h4 : n = 4 * (n / 4)) {image : View} {cc W H : Nat} (hwd : W / n ≠ 0 → Widens n wd pi)
    (hr : 0 < image.img.rowSize) (hH : H * image.img.rowSize < 4294967296) (hW : W < 4294967296) (hW0 : 0 < W)
    (hv : ∀ j t, j < H → t < W → m.Valid image.img.data (image.start cc + j * image.img.rowSize + t))
    (v : List UInt32) (hlen : v.length = H * W) :
    accKernel n wd image cc W H (m, v)
      = .ok () (m, adds v (block 0 (H * W) fun k => UInt32.ofNat (num m image.img.data
          (image.start cc + k / W * image.img.rowSize + source n (W / n * n) pi (k % W))))) := by
  have hle : W / n * n ≤ W := Nat.div_mul_le_self W n
  have hq : W / n ≤ W := Nat.div_le_self W n
  generalize hb : image.img.data = b at hv ⊢
  generalize hp : image.start cc = p at hv ⊢
  generalize hrow : image.img.rowSize = row at hr hH hv ⊢
  have e := loop_eq_fold (cond := fun s : Nat × Nat => s.1 != p + H * row)
    (next := fun s => (s.1 + row, s.2 + W))
    (body := fun s (_ : Unit) => (do
      accRegs n wd b s.1 s.2 (W / n)
      accTail b (s.1 + W / n * n) (s.2 + W / n * n) (W - W / n * n) : M VMem Unit))
    (fun k => (p + k * row, k * W)) H fuelMax ()
    (count_lt_fuel hr hH) (fun k hk => ptr_ne hk hr) (by simp)
    (fun k _ => by simp only [Nat.succ_mul, Nat.add_assoc])
  rw [Nat.zero_mul, Nat.zero_mul, Nat.add_zero] at e
  have e0 : accKernel n wd image cc W H = loop (fun s : Nat × Nat => s.1 != image.start cc + u32 (H * image.img.rowSize))
    (fun s => (s.1 + image.img.rowSize, s.2 + u32 (u32 (W / n * n) + (W - u32 (W / n * n)))))
    (fun s (_ : Unit) => (do
      accRegs n wd image.img.data s.1 s.2 (W / n)
      accTail image.img.data (s.1 + u32 (W / n * n)) (s.2 + u32 (W / n * n)) (W - u32 (W / n * n)) : M VMem Unit))
    fuelMax (image.start cc, 0) () := rfl
  rw [e0, hb, hp, hrow, u32_of_lt hH, u32_of_lt (show W / n * n < 4294967296 by omega),
    show W / n * n + (W - W / n * n) = W from by omega, u32_of_lt hW, e]
  refine fold_blocks v ?_
  intro j hj u hu
  have hjW : j * W + W ≤ v.length := by
    rw [hlen, ← Nat.succ_mul]
    exact Nat.mul_le_mul_right _ hj
  rw [bind_ok (accRegs_ok hn h4 hwd (by omega) (fun t ht => hv j t hj (by omega)) u (by omega)),
    accTail_ok (by omega) (fun t ht => by rw [Nat.add_assoc]; exact hv j _ hj (by omega)) _
      (by rw [adds_length]; omega), adds_adds, Nat.zero_add]
  congr 2
  refine adds_congr fun k _ => ?_
  have hmod : ∀ x, x < W → (j * W + x) / W = j ∧ (j * W + x) % W = x := by
    intro x hx
    constructor
    · rw [Nat.mul_comm, Nat.mul_add_div hW0, Nat.div_eq_of_lt hx, Nat.add_zero]
    · rw [Nat.mul_comm, Nat.mul_add_mod, Nat.mod_eq_of_lt hx]
  unfold block
  by_cases h1 : j * W ≤ k ∧ k < j * W + W / n * n
  · rw [if_pos h1, if_neg (by omega), if_pos (by omega), UInt32.add_zero]
    obtain ⟨ha, hb'⟩ := hmod (k - j * W) (by omega)
    rw [show j * W + (k - j * W) = k from by omega] at ha hb'
    show _ = UInt32.ofNat (num m b (p + k / W * row + source n (W / n * n) pi (k % W)))
    rw [ha, hb']
  · rw [if_neg h1]
    by_cases h2 : j * W + W / n * n ≤ k ∧ k < j * W + W / n * n + (W - W / n * n)
    · rw [if_pos h2, if_pos (by omega), UInt32.zero_add]
      obtain ⟨ha, hb'⟩ := hmod (k - j * W) (by omega)
      rw [show j * W + (k - j * W) = k from by omega] at ha hb'
      show UInt32.ofNat (num m b (p + j * row + W / n * n + (k - (j * W + W / n * n))))
        = UInt32.ofNat (num m b (p + k / W * row + source n (W / n * n) pi (k % W)))
      rw [ha, hb', source, if_neg (by omega)]
      exact congrArg (fun x => UInt32.ofNat (num m b x)) (by omega)
    · rw [if_neg h2, if_neg (by omega)]
      rfl

end PV.Simd
