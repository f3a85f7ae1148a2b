import Verif.SimdSum
/-
  What the register sums and widenings compute.
-/
namespace PV.Simd

variable {ι : Type}

/-- f 0 + ... + f (n-1). Not in the code: for statements and proofs. -/
def nsum (f : Nat → Nat) (n : Nat) : Nat := ((List.range n).map f).sum

theorem nsum_zero (f : Nat → Nat) : nsum f 0 = 0 := rfl
theorem nsum_succ (f : Nat → Nat) (n : Nat) : nsum f (n + 1) = nsum f n + f n := by
  simp [nsum, List.range_succ]

theorem nsum_add (f : Nat → Nat) (n k : Nat) : nsum f (n + k) = nsum f n + nsum (fun i => f (n + i)) k := by
  induction k with
  | zero => rfl
  | succ k ih => rw [← Nat.add_assoc, nsum_succ, nsum_succ, ih]; omega

theorem nsum_congr {f g : Nat → Nat} {n : Nat} (h : ∀ i, i < n → f i = g i) : nsum f n = nsum g n := by
  induction n with
  | zero => rfl
  | succ n ih => rw [nsum_succ, nsum_succ, ih fun i hi => h i (by omega), h n (by omega)]

/-- Blocks of `n` terms. -/
theorem nsum_blocks (f : Nat → Nat) (n s : Nat) :
    nsum f (s * n) = nsum (fun c => nsum (fun i => f (c * n + i)) n) s := by
  induction s with
  | zero => rw [Nat.zero_mul]; rfl
  | succ s ih => rw [nsum_succ, Nat.succ_mul, nsum_add, ih]

/-- Sum of the first `n` numbers of a register. Not in the code: for statements and proofs. -/
def usum (v : DVec) (n : Nat) : UInt32 := (List.range n).foldl (fun s i => s + v i) 0

theorem usum_succ (v : DVec) (n : Nat) : usum v (n + 1) = usum v n + v n := by
  simp [usum, List.range_succ]

theorem usum_add (a : DVec) (c : Nat → Nat) (n : Nat) :
    usum (fun i => a i + UInt32.ofNat (c i)) n = usum a n + UInt32.ofNat (nsum c n) := by
  induction n with
  | zero =>
    simp [usum, nsum]
  | succ n ih =>
    rw [usum_succ, usum_succ, nsum_succ, ih, UInt32.ofNat_add]
    simp only [UInt32.add_assoc]
    congr 1
    rw [← UInt32.add_assoc, ← UInt32.add_assoc, UInt32.add_comm (UInt32.ofNat _) (a n)]

theorem hsum_eq (n : Nat) (v : DVec) : hsum n v = usum v (n / 4) := rfl

theorem usum_zero32 (n : Nat) : usum zero32 n = 0 := by
  induction n with
  | zero => rfl
  | succ n ih => rw [usum_succ, ih]; rfl

/-! ### Widening on x86 -/

theorem words_lo (d : Vec) (l k : Nat) (hk : k < 8) :
    words (unpacklo8 d zero8) (8 * l + k) = UInt16.ofNat (d (16 * l + k)).toNat := by
  have e1 : unpacklo8 d zero8 (2 * (8 * l + k)) = d (16 * l + k) := by
    rw [unpacklo8, if_pos (by omega)]
    congr 1
    omega
  have e2 : unpacklo8 d zero8 (2 * (8 * l + k) + 1) = 0 := by
    rw [unpacklo8, if_neg (by omega)]
    rfl
  rw [words, e1, e2]
  rfl

theorem words_hi (d : Vec) (l k : Nat) (hk : k < 8) :
    words (unpackhi8 d zero8) (8 * l + k) = UInt16.ofNat (d (16 * l + 8 + k)).toNat := by
  have e1 : unpackhi8 d zero8 (2 * (8 * l + k)) = d (16 * l + 8 + k) := by
    rw [unpackhi8, if_pos (by omega)]
    congr 1
    omega
  have e2 : unpackhi8 d zero8 (2 * (8 * l + k) + 1) = 0 := by
    rw [unpackhi8, if_neg (by omega)]
    rfl
  rw [words, e1, e2]
  rfl

theorem dwords_lo (s : WVec) (l k : Nat) (hk : k < 4) :
    dwords (unpacklo16 s zero16) (4 * l + k) = UInt32.ofNat (s (8 * l + k)).toNat := by
  have e1 : unpacklo16 s zero16 (2 * (4 * l + k)) = s (8 * l + k) := by
    rw [unpacklo16, if_pos (by omega)]
    congr 1
    omega
  have e2 : unpacklo16 s zero16 (2 * (4 * l + k) + 1) = 0 := by
    rw [unpacklo16, if_neg (by omega)]
    rfl
  rw [dwords, e1, e2]
  rfl

theorem dwords_hi (s : WVec) (l k : Nat) (hk : k < 4) :
    dwords (unpackhi16 s zero16) (4 * l + k) = UInt32.ofNat (s (8 * l + 4 + k)).toNat := by
  have e1 : unpackhi16 s zero16 (2 * (4 * l + k)) = s (8 * l + 4 + k) := by
    rw [unpackhi16, if_pos (by omega)]
    congr 1
    omega
  have e2 : unpackhi16 s zero16 (2 * (4 * l + k) + 1) = 0 := by
    rw [unpackhi16, if_neg (by omega)]
    rfl
  rw [dwords, e1, e2]
  rfl

theorem toNat16 (a : UInt8) : (UInt16.ofNat a.toNat).toNat = a.toNat := by
  rw [UInt16.toNat_ofNat']
  exact Nat.mod_eq_of_lt (by have := a.toNat_lt; omega)

theorem toNat16_add (a b : UInt8) :
    (UInt16.ofNat a.toNat + UInt16.ofNat b.toNat).toNat = a.toNat + b.toNat := by
  rw [UInt16.toNat_add, toNat16, toNat16]
  exact Nat.mod_eq_of_lt (by have := a.toNat_lt; have := b.toNat_lt; omega)

/-- Number `4 l + k` of the register added in one step of the sum. Not in the code: for statements and proofs. -/
def quad (d : Vec) (j : Nat) : Nat :=
  (d (16 * (j / 4) + j % 4)).toNat + (d (16 * (j / 4) + 4 + j % 4)).toNat
    + (d (16 * (j / 4) + 8 + j % 4)).toNat + (d (16 * (j / 4) + 12 + j % 4)).toNat

theorem sumX86_eq (acc : DVec) (d : Vec) (j : Nat) :
    sumX86 acc d j = acc j + UInt32.ofNat (quad d j) := by
  have hj : j = 4 * (j / 4) + j % 4 := by omega
  have hk : j % 4 < 4 := Nat.mod_lt _ (by decide)
  generalize hl : j / 4 = l at hj
  generalize hkk : j % 4 = k at hj hk
  subst hj
  have hq : quad d (4 * l + k) = (d (16 * l + k)).toNat + (d (16 * l + 4 + k)).toNat
      + (d (16 * l + 8 + k)).toNat + (d (16 * l + 12 + k)).toNat := by
    rw [quad, hl, hkk]
  have e1 := dwords_lo (add16 (words (unpacklo8 d zero8)) (words (unpackhi8 d zero8))) l k hk
  have e2 := dwords_hi (add16 (words (unpacklo8 d zero8)) (words (unpackhi8 d zero8))) l k hk
  rw [show 8 * l + 4 + k = 8 * l + (4 + k) from by omega] at e2
  rw [add16, words_lo d l k (by omega), words_hi d l k (by omega), toNat16_add] at e1
  rw [add16, words_lo d l (4 + k) (by omega), words_hi d l (4 + k) (by omega), toNat16_add] at e2
  have : sumX86 acc d (4 * l + k) = acc (4 * l + k) +
      (dwords (unpacklo16 (add16 (words (unpacklo8 d zero8)) (words (unpackhi8 d zero8))) zero16) (4 * l + k) +
       dwords (unpackhi16 (add16 (words (unpacklo8 d zero8)) (words (unpackhi8 d zero8))) zero16) (4 * l + k)) := rfl
  rw [this, e1, e2, ← UInt32.ofNat_add, hq]
  congr 2
  have h1 : 16 * l + (4 + k) = 16 * l + 4 + k := by omega
  have h2 : 16 * l + 8 + (4 + k) = 16 * l + 12 + k := by omega
  rw [h1, h2]
  omega

theorem sumNeon_eq (acc : DVec) (d : Vec) (j : Nat) (hj : j < 4) :
    sumNeon acc d j = acc j + UInt32.ofNat (quad d j) := by
  have h0 : j / 4 = 0 := by omega
  have h1 : j % 4 = j := by omega
  have : sumNeon acc d j = acc j +
    (UInt32.ofNat (UInt16.ofNat (d (8 + (4 + j))).toNat + UInt16.ofNat (d (4 + j)).toNat).toNat
      + UInt32.ofNat (UInt16.ofNat (d (8 + j)).toNat + UInt16.ofNat (d j).toNat).toNat) := rfl
  rw [this, toNat16_add, toNat16_add, ← UInt32.ofNat_add, quad, h0, h1]
  congr 2
  have e1 : 16 * 0 + j = j := by omega
  have e2 : 16 * 0 + 4 + j = 4 + j := by omega
  have e3 : 16 * 0 + 8 + j = 8 + j := by omega
  have e4 : 16 * 0 + 12 + j = 8 + (4 + j) := by omega
  rw [e1, e2, e3, e4]
  omega

theorem sumNeonProfile_eq (acc : DVec) (d : Vec) (j : Nat) (hj : j < 4) :
    sumNeonProfile acc d j = acc j + UInt32.ofNat (quad d j) := by
  have h0 : j / 4 = 0 := by omega
  have h1 : j % 4 = j := by omega
  have z : ∀ a : UInt16, a + UInt16.ofNat (0 : UInt8).toNat = a := fun a => UInt16.add_zero a
  have z2 : ∀ a : UInt32, a + UInt32.ofNat (0 : UInt16).toNat = a := fun a => UInt32.add_zero a
  have : sumNeonProfile acc d j = acc j +
    (UInt32.ofNat (((UInt16.ofNat (d (8 + j)).toNat + UInt16.ofNat (0 : UInt8).toNat)
        + (UInt16.ofNat (d j).toNat + UInt16.ofNat (0 : UInt8).toNat))
      + ((UInt16.ofNat (d (8 + (4 + j))).toNat + UInt16.ofNat (0 : UInt8).toNat)
        + (UInt16.ofNat (d (4 + j)).toNat + UInt16.ofNat (0 : UInt8).toNat))).toNat
      + UInt32.ofNat (0 : UInt16).toNat) := rfl
  rw [this, z2]
  simp only [z]
  rw [UInt16.toNat_add, toNat16_add, toNat16_add, quad, h0, h1,
    Nat.mod_eq_of_lt (by
      have := (d (8 + j)).toNat_lt
      have := (d j).toNat_lt
      have := (d (8 + (4 + j))).toNat_lt
      have := (d (4 + j)).toNat_lt
      omega)]
  congr 2
  have e1 : 16 * 0 + j = j := by omega
  have e2 : 16 * 0 + 4 + j = 4 + j := by omega
  have e3 : 16 * 0 + 8 + j = 8 + j := by omega
  have e4 : 16 * 0 + 12 + j = 8 + (4 + j) := by omega
  rw [e1, e2, e3, e4]
  omega

/-- The numbers of one step add up to the sum of the bytes. -/
theorem quad_sum (d : Vec) (L : Nat) : nsum (quad d) (4 * L) = nsum (fun i => (d i).toNat) (16 * L) := by
  induction L with
  | zero => rfl
  | succ L ih =>
    have e1 : 4 * (L + 1) = 4 * L + 1 + 1 + 1 + 1 := by omega
    have e2 : 16 * (L + 1) = 16 * L + 16 := by omega
    rw [e1, e2, nsum_add, nsum_succ, nsum_succ, nsum_succ, nsum_succ, ih]
    have q : ∀ k, k < 4 → quad d (4 * L + k) = (d (16 * L + k)).toNat + (d (16 * L + (4 + k))).toNat
        + (d (16 * L + (8 + k))).toNat + (d (16 * L + (12 + k))).toNat := by
      intro k hk
      have h1 : (4 * L + k) / 4 = L := by omega
      have h2 : (4 * L + k) % 4 = k := by omega
      rw [quad, h1, h2]
      simp only [Nat.add_assoc]
    have q0 := q 0 (by decide)
    have q1 := q 1 (by decide)
    have q2 := q 2 (by decide)
    have q3 := q 3 (by decide)
    simp only [Nat.add_assoc, Nat.reduceAdd, Nat.add_zero] at q0 q1 q2 q3 ⊢
    rw [q0, q1, q2, q3]
    simp only [nsum, List.range_succ, List.range_zero, List.nil_append, List.map_append, List.map_cons,
      List.map_nil, List.sum_append, List.sum_cons, List.sum_nil, Nat.add_zero, List.cons_append]
    omega

/-- A register step of a sum is right when it adds the sum of the `n` bytes to the total.
    Not in the code: for statements and proofs. -/
def SumsUp (n : Nat) (step : DVec → Vec → DVec) : Prop :=
  ∀ acc d, usum (step acc d) (n / 4) = usum acc (n / 4) + UInt32.ofNat (nsum (fun i => (d i).toNat) n)

theorem usum_congr {a b : DVec} {n : Nat} (h : ∀ i, i < n → a i = b i) : usum a n = usum b n := by
  induction n with
  | zero => rfl
  | succ n ih => rw [usum_succ, usum_succ, ih fun i hi => h i (by omega), h n (by omega)]

theorem sumsUp_x86 (L : Nat) : SumsUp (16 * L) sumX86 := by
  intro acc d
  have e : 16 * L / 4 = 4 * L := by omega
  rw [e, show usum (sumX86 acc d) (4 * L) = usum (fun j => acc j + UInt32.ofNat (quad d j)) (4 * L) from
    usum_congr fun j _ => sumX86_eq acc d j, usum_add, quad_sum]

theorem sumsUp_step (k : Kind) (hk : k ≠ .cpu) : SumsUp (size k) (sumStep k) := by
  cases k
  case avx512 => exact sumsUp_x86 4
  case avx => exact sumsUp_x86 2
  case sse => exact sumsUp_x86 1
  case neon =>
    intro acc d
    rw [show usum (sumStep .neon acc d) (size .neon / 4) = usum (fun j => acc j + UInt32.ofNat (quad d j)) 4 from
      usum_congr fun j hj => sumNeon_eq acc d j hj, usum_add]
    rw [show (4 : Nat) = 4 * 1 from rfl, quad_sum]
    rfl
  case cpu => exact absurd rfl hk

theorem sumsUp_profile (k : Kind) (hk : k ≠ .cpu) : SumsUp (size k) (sumStepProfile k) := by
  cases k
  case avx512 => exact sumsUp_x86 4
  case avx => exact sumsUp_x86 2
  case sse => exact sumsUp_x86 1
  case neon =>
    intro acc d
    rw [show usum (sumStepProfile .neon acc d) (size .neon / 4)
        = usum (fun j => acc j + UInt32.ofNat (quad d j)) 4 from
      usum_congr fun j hj => sumNeonProfile_eq acc d j hj, usum_add]
    rw [show (4 : Nat) = 4 * 1 from rfl, quad_sum]
    rfl
  case cpu => exact absurd rfl hk

/-- A widening puts byte `pi j` of the register into number `j` of the four registers. Not in the code: for statements and proofs. -/
def Widens (n : Nat) (wd : Vec → Nat → DVec) (pi : Nat → Nat) : Prop :=
  ∀ d q i, q < 4 → i < n / 4 → wd d q i = UInt32.ofNat (d (pi (q * (n / 4) + i))).toNat

/-- The order of the bytes after the x86 widening of a register of `n` bytes: the bytes
    stay in their 128-bit lanes. -/
def laneOrder (n j : Nat) : Nat := 16 * (j % (n / 4) / 4) + 4 * (j / (n / 4)) + j % (n / 4) % 4

theorem widens_x86 (L : Nat) (hL : 0 < L) : Widens (16 * L) widenX86 (laneOrder (16 * L)) := by
  intro d q i hq hi
  have e4 : 16 * L / 4 = 4 * L := by omega
  rw [e4] at hi
  have e1 : (q * (4 * L) + i) % (4 * L) = i := by
    rw [Nat.mul_comm, Nat.mul_add_mod, Nat.mod_eq_of_lt hi]
  have e2 : (q * (4 * L) + i) / (4 * L) = q := by
    rw [Nat.mul_comm, Nat.mul_add_div (by omega), Nat.div_eq_of_lt hi, Nat.add_zero]
  rw [laneOrder, e4, e1, e2]
  have hk : i % 4 < 4 := Nat.mod_lt _ (by decide)
  have hi' : i = 4 * (i / 4) + i % 4 := by omega
  generalize i / 4 = l at hi' ⊢
  generalize i % 4 = k at hi' hk ⊢
  subst hi'
  have x1 := dwords_lo (words (unpacklo8 d zero8)) l k hk
  have x2 := dwords_hi (words (unpacklo8 d zero8)) l k hk
  have x3 := dwords_lo (words (unpackhi8 d zero8)) l k hk
  have x4 := dwords_hi (words (unpackhi8 d zero8)) l k hk
  rw [words_lo d l k (by omega), toNat16] at x1
  rw [show 8 * l + 4 + k = 8 * l + (4 + k) from by omega, words_lo d l (4 + k) (by omega), toNat16] at x2
  rw [words_hi d l k (by omega), toNat16] at x3
  rw [show 8 * l + 4 + k = 8 * l + (4 + k) from by omega, words_hi d l (4 + k) (by omega), toNat16] at x4
  rcases (show q = 0 ∨ q = 1 ∨ q = 2 ∨ q = 3 by omega) with rfl | rfl | rfl | rfl
  · exact x1.trans (congrArg (fun x => UInt32.ofNat (d x).toNat) (by omega))
  · exact x2.trans (congrArg (fun x => UInt32.ofNat (d x).toNat) (by omega))
  · exact x3.trans (congrArg (fun x => UInt32.ofNat (d x).toNat) (by omega))
  · exact x4.trans (congrArg (fun x => UInt32.ofNat (d x).toNat) (by omega))

theorem addl_zero (a : UInt8) : UInt32.ofNat (UInt16.ofNat a.toNat + UInt16.ofNat (0 : UInt8).toNat).toNat
    + UInt32.ofNat (0 : UInt16).toNat = UInt32.ofNat a.toNat := by
  rw [toNat16_add]
  exact UInt32.add_zero _

theorem widens_neon : Widens 16 widenNeon id := by
  intro d q i hq hi
  have hi : i < 4 := hi
  rcases (show q = 0 ∨ q = 1 ∨ q = 2 ∨ q = 3 by omega) with rfl | rfl | rfl | rfl
  · exact (addl_zero (d i)).trans (congrArg (fun x => UInt32.ofNat (d x).toNat) (by show _ = _ * 4 + i; omega))
  · exact (addl_zero (d (4 + i))).trans (congrArg (fun x => UInt32.ofNat (d x).toNat) (by show _ = _ * 4 + i; omega))
  · exact (addl_zero (d (8 + i))).trans (congrArg (fun x => UInt32.ofNat (d x).toNat) (by show _ = _ * 4 + i; omega))
  · exact (addl_zero (d (8 + (4 + i)))).trans
      (congrArg (fun x => UInt32.ofNat (d x).toNat) (by show _ = _ * 4 + i; omega))

theorem widens_neonProfile : Widens 16 widenNeonProfile (· % 8) := by
  intro d q i hq hi
  have hi : i < 4 := hi
  rcases (show q = 0 ∨ q = 1 ∨ q = 2 ∨ q = 3 by omega) with rfl | rfl | rfl | rfl
  · exact (addl_zero (d i)).trans (congrArg (fun x => UInt32.ofNat (d x).toNat) (by show _ = (_ : Nat) % 8; omega))
  · exact (addl_zero (d (4 + i))).trans (congrArg (fun x => UInt32.ofNat (d x).toNat) (by show _ = (_ : Nat) % 8; omega))
  · exact (addl_zero (d i)).trans (congrArg (fun x => UInt32.ofNat (d x).toNat) (by show _ = (_ : Nat) % 8; omega))
  · exact (addl_zero (d (4 + i))).trans (congrArg (fun x => UInt32.ofNat (d x).toNat) (by show _ = (_ : Nat) % 8; omega))

theorem laneOrder_lt (L j : Nat) (hj : j < 16 * L) : laneOrder (16 * L) j < 16 * L := by
  have e4 : 16 * L / 4 = 4 * L := by omega
  have h1 : j % (4 * L) < 4 * L := Nat.mod_lt _ (by omega)
  have h2 : j / (4 * L) < 4 := Nat.div_lt_of_lt_mul (by omega)
  rw [laneOrder, e4]
  omega

theorem laneOrder_sse (j : Nat) : laneOrder 16 j = j := by
  rw [laneOrder]
  omega

/-! ### Adding to the caller's vector -/

theorem adds_length (u : List UInt32) (f : Nat → UInt32) : (adds u f).length = u.length := by
  simp [adds]

theorem adds_get (u : List UInt32) (f : Nat → UInt32) (k : Nat) :
    (adds u f)[k]? = u[k]?.map fun a => a + f k := by
  simp [adds]

theorem adds_adds (u : List UInt32) (f g : Nat → UInt32) :
    adds (adds u f) g = adds u fun k => f k + g k := by
  apply List.ext_getElem?
  intro k
  rw [adds_get, adds_get, adds_get, Option.map_map]
  congr 1
  funext a
  rw [Function.comp_apply, UInt32.add_assoc]

theorem adds_congr {u : List UInt32} {f g : Nat → UInt32} (h : ∀ k, k < u.length → f k = g k) :
    adds u f = adds u g := by
  apply List.ext_getElem?
  intro k
  rw [adds_get, adds_get]
  by_cases hk : k < u.length
  · rw [h k hk]
  · rw [List.getElem?_eq_none (by omega)]
    rfl

theorem bump_adds (u : List UInt32) (i : Nat) (n : UInt32) :
    bump u i n = adds u fun k => if i = k then n else 0 := by
  apply List.ext_getElem?
  intro k
  rw [bump_get, adds_get]

theorem adds_zero (u : List UInt32) : adds u (fun _ => 0) = u := by
  apply List.ext_getElem?
  intro k
  rw [adds_get]
  simp

/-- `g` on the entries `b, ..., b + n - 1`. Not in the code: for statements and proofs. -/
def block (b n : Nat) (g : Nat → UInt32) : Nat → UInt32 := fun k => if b ≤ k ∧ k < b + n then g k else 0

theorem block_append (b n n' : Nat) (g : Nat → UInt32) (k : Nat) :
    block b n g k + block (b + n) n' g k = block b (n + n') g k := by
  unfold block
  by_cases h1 : b ≤ k ∧ k < b + n
  · rw [if_pos h1, if_neg (by omega), if_pos (by omega), UInt32.add_zero]
  · rw [if_neg h1]
    by_cases h2 : b + n ≤ k ∧ k < b + n + n'
    · rw [if_pos h2, if_pos (by omega), UInt32.zero_add]
    · rw [if_neg h2, if_neg (by omega), UInt32.zero_add]

theorem block_zero (b : Nat) (g : Nat → UInt32) : block b 0 g = fun _ => 0 := by
  funext k
  rw [block, if_neg (by omega)]

/-- Consecutive blocks. -/
theorem fold_blocks {m : BMem} {body : Nat → Unit → M VMem Unit} {b n s : Nat} {g : Nat → UInt32}
    (v : List UInt32)
    (h : ∀ c, c < s → ∀ u : List UInt32, u.length = v.length →
      body c () (m, u) = .ok () (m, adds u (block (b + c * n) n g))) :
    fold body (List.range s) () (m, v) = .ok () (m, adds v (block b (s * n) g)) := by
  induction s with
  | zero => rw [Nat.zero_mul, block_zero, adds_zero]; rfl
  | succ s ih =>
    rw [List.range_succ, fold_append, bind_ok (ih fun c hc => h c (by omega)), fold_cons,
      bind_ok (h s (by omega) _ (by rw [adds_length])), adds_adds, Nat.succ_mul]
    simp only [block_append]
    rfl

theorem addStore_ok {m : BMem} {u : List UInt32} {n i : Nat} {v : DVec} {g : Nat → UInt32}
    (hl : i + n ≤ u.length) (hv : ∀ j, j < n → v j = g (i + j)) :
    addStore n i v (m, u) = .ok () (m, adds u (block i n g)) := by
  rw [addStore, if_pos hl]
  congr 1
  refine Prod.ext rfl ?_
  refine adds_congr fun k _ => ?_
  unfold block
  by_cases h : i ≤ k ∧ k < i + n
  · rw [if_pos h, if_pos h, hv _ (by omega)]
    congr 1
    omega
  · rw [if_neg h, if_neg h]

/-- The four stores add `g` to `n` consecutive entries. -/
theorem addStore4_ok {m : BMem} {u : List UInt32} {n i : Nat} {v : Nat → DVec} {g : Nat → UInt32}
    (h4 : n = 4 * (n / 4)) (hl : i + n ≤ u.length)
    (hv : ∀ q j, q < 4 → j < n / 4 → v q j = g (i + (q * (n / 4) + j))) :
    addStore4 n i v (m, u) = .ok () (m, adds u (block i n g)) := by
  generalize hN : n / 4 = N at *
  subst h4
  unfold addStore4
  rw [hN]
  rw [bind_ok (addStore_ok (g := g) (by omega) (fun j hj => by
      rw [hv 0 j (by omega) hj]; congr 1; omega)),
    bind_ok (addStore_ok (g := g) (by rw [adds_length]; omega) (fun j hj => by
      rw [hv 1 j (by omega) hj]; congr 1; omega)),
    bind_ok (addStore_ok (g := g) (by rw [adds_length, adds_length]; omega) (fun j hj => by
      rw [hv 2 j (by omega) hj]; congr 1; omega)),
    addStore_ok (g := g) (by rw [adds_length, adds_length, adds_length]; omega) (fun j hj => by
      rw [hv 3 j (by omega) hj]; congr 1; omega), adds_adds, adds_adds, adds_adds]
  congr 3
  funext k
  have e2 : i + 2 * N = i + (N + N) := by omega
  have e3 : i + 3 * N = i + (N + N + N) := by omega
  rw [← UInt32.add_assoc, ← UInt32.add_assoc, block_append, e2, block_append, e3, block_append]
  congr 1
  omega

end PV.Simd
