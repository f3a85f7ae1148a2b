import Verif.Rounding24
import Verif.RotateLemmas
import Verif.CudaLemmas
/-
  `Rotate` on a CUDA device (src/cuda/image_function_cuda.cu 299-345, 1091-1118).

  `fl` is the rounding of `float` operations; the results of `cos` and `sin` are parameters.  Not modelled: operations fused by the
  compiler, values which are no numbers.  A conversion of a number out of range is undefined, as in C++ (devices give the nearest integer).
-/
namespace PV.Cuda
open Move (rotateSum rotateValue blend blend_ge blend_le floor_nat)

/-- `static_cast<int32_t>( q )`: towards zero; `none` if the result does not fit. src/cuda/image_function_cuda.cu 317-318. -/
def floatToInt (q : ℚ) : Option Int :=
  let t : Int := if 0 ≤ q then ⌊q⌋ else ⌈q⌉
  if -2147483648 ≤ t ∧ t < 2147483648 then some t else none

/-- `static_cast<uint8_t>( q )`; `none` if the result does not fit. src/cuda/image_function_cuda.cu 342. -/
def floatToByte (q : ℚ) : Option UInt8 := if -1 < q ∧ q < 256 then some (UInt8.ofNat ⌊q⌋.toNat) else none

/-- `exactInX`, src/cuda/image_function_cuda.cu 314 -/
def sourceX (fl : ℚ → ℚ) (cosA sinA inXStart : ℚ) (outX outY : Nat) : ℚ :=
  fl (fl (inXStart + fl (cosA * fl outX)) + fl (sinA * fl outY))

/-- `exactInY`, src/cuda/image_function_cuda.cu 315 -/
def sourceY (fl : ℚ → ℚ) (cosA sinA inYStart : ℚ) (outX outY : Nat) : ℚ :=
  fl (fl (inYStart - fl (sinA * fl outX)) + fl (cosA * fl outY))

/-- src/cuda/image_function_cuda.cu 320-343: what a thread does with the point (p, q) of the input, truncated to (inX, inY) -/
def rotateStore (fl : ℚ → ℚ) (bi rowIn bo o width height : Nat) (p q : ℚ) (inX inY : Int) : Prog UInt8 Unit :=
  if inX < 0 ∨ usub width 1 ≤ inX.toNat ∨ inY < 0 ∨ usub height 1 ≤ inY.toNat then Prog.store bo o 0
  else do
    let i := u32 (inY.toNat * rowIn) + inX.toNat
    let a ← Prog.load bi i
    let b ← Prog.load bi (i + 1)
    let c ← Prog.load bi (i + rowIn)
    let d ← Prog.load bi (i + rowIn + 1)
    match floatToByte (rotateSum fl a b c d (fl (p - fl inX)) (fl (q - fl inY))) with
    | some v => Prog.store bo o v
    | none => .ub

/-- src/cuda/image_function_cuda.cu 299-345, the part for a position inside of the image (the test is in line 307) -/
def kernelRotate (fl : ℚ → ℚ) (bi rowIn bo rowOut : Nat) (inXStart inYStart : ℚ) (width height : Nat) (cosA sinA : ℚ)
    (outX outY : Nat) : Prog UInt8 Unit :=
  match floatToInt (sourceX fl cosA sinA inXStart outX outY), floatToInt (sourceY fl cosA sinA inYStart outX outY) with
  | some inX, some inY =>
    rotateStore fl bi rowIn bo (u32 (outY * rowOut) + outX) width height (sourceX fl cosA sinA inXStart outX outY)
      (sourceY fl cosA sinA inYStart outX outY) inX inY
  | _, _ => .ub

/-- `inXStart`, src/cuda/image_function_cuda.cu 1111 -/
def startX (fl : ℚ → ℚ) (cosA sinA cxIn cxOut cyOut : ℚ) : ℚ := fl (-(fl (fl (cosA * cxOut) + fl (sinA * cyOut))) + cxIn)

/-- `inYStart`, src/cuda/image_function_cuda.cu 1112 -/
def startY (fl : ℚ → ℚ) (cosA sinA cyIn cxOut cyOut : ℚ) : ℚ := fl (-(fl (fl (-sinA * cxOut) + fl (cosA * cyOut))) + cyIn)

/-- src/cuda/image_function_cuda.cu 1091-1118; `cosA`, `sinA` are the results of `cos( angle )` and `sin( angle )` -/
def Rotate (fl : ℚ → ℚ) (cosA sinA : ℚ) (d : CudaDevice) (inp : Image) (cxIn cyIn : ℚ) (out : Image) (cxOut cyOut : ℚ) :
    M BMem Launch := do
  validateImages2 inp out
  verifyGray [inp, out]
  launch2D d inp.width inp.height (guarded inp.width inp.height (kernelRotate fl inp.data inp.rowSize out.data out.rowSize
    (startX fl cosA sinA cxIn cxOut cyOut) (startY fl cosA sinA cyIn cxOut cyOut) inp.width inp.height cosA sinA))

/-! ### Rounding and the mean of four pixels -/

theorem rnd_abs24 {rnd : ℚ → ℚ} (R : Rounding24 rnd) {q : ℚ} {n : Nat} (hq : |q| ≤ n) (hn : n < 16777216) : |rnd q| ≤ n := by
  have e : rnd (n : ℚ) = n := by
    have := R.int (n : ℤ) (by rw [abs_of_nonneg (by positivity)]; norm_num; exact_mod_cast hn)
    exact_mod_cast this
  have e' : rnd (-(n : ℚ)) = -(n : ℚ) := by
    have := R.int (-(n : ℤ)) (by rw [abs_neg, abs_of_nonneg (by positivity)]; norm_num; exact_mod_cast hn)
    push_cast at this
    exact this
  rw [abs_le] at hq ⊢
  exact ⟨by rw [← e']; exact R.mono _ _ hq.1, by rw [← e]; exact R.mono _ _ hq.2⟩

theorem rnd_nat24 {rnd : ℚ → ℚ} (R : Rounding24 rnd) {n : Nat} (hn : n < 16777216) : rnd (n : ℚ) = n := by
  have := R.int (n : ℤ) (by rw [abs_of_nonneg (by positivity)]; norm_num; exact_mod_cast hn)
  exact_mod_cast this

/-- The rounding error of a value of bounded size. -/
theorem rnd_near24 {rnd : ℚ → ℚ} (R : Rounding24 rnd) {q : ℚ} {n : ℚ} (hq : |q| ≤ n) : |rnd q - q| ≤ n / 2 ^ 23 :=
  le_trans (R.err q) (div_le_div_of_nonneg_right hq (by positivity))

theorem coeff_facts24 {rnd : ℚ → ℚ} (R : Rounding24 rnd) {p : ℚ} {x : Nat} (h1 : (x : ℚ) ≤ p) (h2 : p < x + 1) :
    0 ≤ rnd (p - x) ∧ rnd (p - x) ≤ 1 ∧ |rnd (p - x) - (p - x)| ≤ 1 / 2 ^ 23 := by
  have h0 : 0 ≤ p - x := by linarith
  refine ⟨R.nonneg h0, ?_, ?_⟩
  · rw [← R.one]
    exact R.mono _ _ (by linarith)
  · exact rnd_near24 R (by rw [abs_of_nonneg h0]; linarith)

theorem compl_facts24 {rnd : ℚ → ℚ} (R : Rounding24 rnd) {c : ℚ} (h1 : 0 ≤ c) (h2 : c ≤ 1) :
    0 ≤ rnd (1 - c) ∧ rnd (1 - c) ≤ 1 ∧ |rnd (1 - c) - (1 - c)| ≤ 1 / 2 ^ 23 := by
  have h0 : 0 ≤ 1 - c := by linarith
  refine ⟨R.nonneg h0, ?_, ?_⟩
  · calc rnd (1 - c) ≤ rnd 1 := R.mono _ _ (by linarith)
      _ = 1 := R.one
  · exact rnd_near24 R (by rw [abs_of_nonneg h0]; linarith)

/-- One of the four products. -/
theorem term_near24 {rnd : ℚ → ℚ} (R : Rounding24 rnd) {a : Nat} {u v U V : ℚ} (ha : a ≤ 255) (hu : 0 ≤ u) (hu1 : u ≤ 1) (hv : 0 ≤ v)
    (hv1 : v ≤ 1) (hU : 0 ≤ U) (hU1 : U ≤ 1) (eu : |u - U| ≤ 2 / 2 ^ 23) (ev : |v - V| ≤ 2 / 2 ^ 23) :
    0 ≤ rnd (rnd (a * u) * v) ∧ rnd (rnd (a * u) * v) ≤ 255 ∧ |rnd (rnd (a * u) * v) - a * U * V| ≤ 1530 / 2 ^ 23 := by
  have ha' : (a : ℚ) ≤ 255 := by exact_mod_cast ha
  have ha0 : (0 : ℚ) ≤ a := by positivity
  have p0 : 0 ≤ a * u := by positivity
  have p1 : a * u ≤ 255 := by nlinarith
  have q0 := R.nonneg p0
  have q1 : rnd (a * u) ≤ 255 := by
    have e : rnd 255 = 255 := by exact_mod_cast rnd_nat24 R (n := 255) (by norm_num)
    rw [← e]
    exact R.mono _ _ p1
  have q2 := rnd_near24 R (n := 255) (q := a * u) (by rw [abs_of_nonneg p0]; exact p1)
  have r0 : 0 ≤ rnd (a * u) * v := by positivity
  have r1 : rnd (a * u) * v ≤ 255 := by nlinarith
  have r2 := rnd_near24 R (n := 255) (q := rnd (a * u) * v) (by rw [abs_of_nonneg r0]; exact r1)
  refine ⟨R.nonneg r0, ?_, ?_⟩
  · have e : rnd 255 = 255 := by exact_mod_cast rnd_nat24 R (n := 255) (by norm_num)
    rw [← e]
    exact R.mono _ _ r1
  · have k1 : |rnd (a * u) * v - a * u * v| ≤ 255 / 2 ^ 23 := by
      rw [← sub_mul, abs_mul, abs_of_nonneg hv]
      nlinarith [abs_nonneg (rnd (a * u) - a * u)]
    have k2 : |a * u * v - a * U * v| ≤ 510 / 2 ^ 23 := by
      rw [show a * u * v - a * U * v = (a * v) * (u - U) by ring, abs_mul, abs_of_nonneg (by positivity)]
      have : (a : ℚ) * v ≤ 255 := by nlinarith
      calc (a : ℚ) * v * |u - U| ≤ 255 * (2 / 2 ^ 23) := mul_le_mul this eu (abs_nonneg _) (by norm_num)
        _ = 510 / 2 ^ 23 := by norm_num
    have k3 : |a * U * v - a * U * V| ≤ 510 / 2 ^ 23 := by
      rw [show a * U * v - a * U * V = (a * U) * (v - V) by ring, abs_mul, abs_of_nonneg (by positivity)]
      have : (a : ℚ) * U ≤ 255 := by nlinarith
      calc (a : ℚ) * U * |v - V| ≤ 255 * (2 / 2 ^ 23) := mul_le_mul this ev (abs_nonneg _) (by norm_num)
        _ = 510 / 2 ^ 23 := by norm_num
    rw [abs_le] at *
    constructor <;> linarith [k1.1, k1.2, k2.1, k2.2, k3.1, k3.2, r2.1, r2.2]

theorem rotateSum_near24 {rnd : ℚ → ℚ} (R : Rounding24 rnd) (a b c d : UInt8) {p q : ℚ} {x y : Nat} (h1 : (x : ℚ) ≤ p) (h2 : p < x + 1)
    (h3 : (y : ℚ) ≤ q) (h4 : q < y + 1) :
    |rotateSum rnd a b c d (rnd (p - x)) (rnd (q - y)) - (blend a b c d (p - x) (q - y) + 1 / 2)| ≤ 1 / 2 ^ 7 := by
  obtain ⟨a1, a2, a3⟩ := coeff_facts24 R h1 h2
  obtain ⟨b1, b2, b3⟩ := coeff_facts24 R h3 h4
  obtain ⟨c1, c2, c3⟩ := compl_facts24 R a1 a2
  obtain ⟨d1, d2, d3⟩ := compl_facts24 R b1 b2
  have e1 : |rnd (1 - rnd (p - x)) - (1 - (p - x))| ≤ 2 / 2 ^ 23 := by
    rw [abs_le] at *
    constructor <;> linarith [a3.1, a3.2, c3.1, c3.2]
  have e2 : |rnd (1 - rnd (q - y)) - (1 - (q - y))| ≤ 2 / 2 ^ 23 := by
    rw [abs_le] at *
    constructor <;> linarith [b3.1, b3.2, d3.1, d3.2]
  have e3 : |rnd (p - x) - (p - x)| ≤ 2 / 2 ^ 23 := le_trans a3 (by norm_num)
  have e4 : |rnd (q - y) - (q - y)| ≤ 2 / 2 ^ 23 := le_trans b3 (by norm_num)
  have ha := fun z : UInt8 => (by have := z.toNat_lt; omega : z.toNat ≤ 255)
  obtain ⟨s1, s2, s3⟩ := term_near24 R (ha a) c1 c2 d1 d2 (by linarith) (by linarith) e1 e2
  obtain ⟨t1, t2, t3⟩ := term_near24 R (ha b) a1 a2 d1 d2 (by linarith) (by linarith) e3 e2
  obtain ⟨u1, u2, u3⟩ := term_near24 R (ha c) c1 c2 b1 b2 (by linarith) (by linarith) e1 e4
  obtain ⟨v1, v2, v3⟩ := term_near24 R (ha d) a1 a2 b1 b2 (by linarith) (by linarith) e3 e4
  rw [rotateSum, blend]
  generalize rnd (rnd (a.toNat * rnd (1 - rnd (p - x))) * rnd (1 - rnd (q - y))) = S at *
  generalize rnd (rnd (b.toNat * rnd (p - x)) * rnd (1 - rnd (q - y))) = T at *
  generalize rnd (rnd (c.toNat * rnd (1 - rnd (p - x))) * rnd (q - y)) = U at *
  generalize rnd (rnd (d.toNat * rnd (p - x)) * rnd (q - y)) = V at *
  have m1 : 0 ≤ rnd (S + T) ∧ |rnd (S + T) - (S + T)| ≤ 510 / 2 ^ 23 :=
    ⟨R.nonneg (by linarith), rnd_near24 R (by rw [abs_of_nonneg (by linarith)]; linarith)⟩
  generalize rnd (S + T) = A at *
  have k1 := abs_le.1 m1.2
  norm_num at k1
  have m2 : 0 ≤ rnd (A + U) ∧ |rnd (A + U) - (A + U)| ≤ 770 / 2 ^ 23 :=
    ⟨R.nonneg (by linarith), rnd_near24 R (by rw [abs_of_nonneg (by linarith)]; linarith)⟩
  generalize rnd (A + U) = B at *
  have k2 := abs_le.1 m2.2
  norm_num at k2
  have m3 : 0 ≤ rnd (B + V) ∧ |rnd (B + V) - (B + V)| ≤ 1030 / 2 ^ 23 :=
    ⟨R.nonneg (by linarith), rnd_near24 R (by rw [abs_of_nonneg (by linarith)]; linarith)⟩
  generalize rnd (B + V) = C at *
  have k3 := abs_le.1 m3.2
  norm_num at k3
  have m4 := rnd_near24 R (n := 1100) (q := C + 1 / 2) (by rw [abs_of_nonneg (by linarith)]; linarith)
  generalize rnd (C + 1 / 2) = D at *
  have k4 := abs_le.1 m4
  have g1 := abs_le.1 s3
  have g2 := abs_le.1 t3
  have g3 := abs_le.1 u3
  have g4 := abs_le.1 v3
  norm_num at k4 g1 g2 g3 g4
  rw [abs_le]
  norm_num
  constructor <;> linarith [k1.1, k1.2, k2.1, k2.2, k3.1, k3.2, k4.1, k4.2, g1.1, g1.2, g2.1, g2.2, g3.1, g3.2, g4.1, g4.2]

theorem sum_facts24 {rnd : ℚ → ℚ} (R : Rounding24 rnd) (a b c d : UInt8) {p q : ℚ} {x y : Nat} (h1 : (x : ℚ) ≤ p) (h2 : p < x + 1)
    (h3 : (y : ℚ) ≤ q) (h4 : q < y + 1) :
    0 ≤ rotateSum rnd a b c d (rnd (p - x)) (rnd (q - y)) ∧ rotateSum rnd a b c d (rnd (p - x)) (rnd (q - y)) < 256 := by
  have h := abs_le.1 (rotateSum_near24 R a b c d h1 h2 h3 h4)
  have ha := fun z : UInt8 => (by have := z.toNat_lt; omega : z.toNat ≤ 255)
  have k1 := blend_ge (a := a) (b := b) (c := c) (d := d) (lo := 0) (u := p - x) (v := q - y) (by linarith) (by linarith)
    (by linarith) (by linarith) (by omega) (by omega) (by omega) (by omega)
  have k2 := blend_le (a := a) (b := b) (c := c) (d := d) (hi := 255) (u := p - x) (v := q - y) (by linarith) (by linarith)
    (by linarith) (by linarith) (ha a) (ha b) (ha c) (ha d)
  push_cast at k1 k2
  norm_num at h
  constructor <;> linarith [h.1, h.2]


end PV.Cuda
