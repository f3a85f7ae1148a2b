import Verif.PixelFn
/-
  Model of src/image_function_simd.cpp: the bytewise functions.

  The kind of instruction set is an argument; the preprocessor symbol of that kind (and
  for AVX also the SSE one) is taken as defined, as on the machines where the kind can be
  selected (src/penguinv/cpu_identification.h 31-63, src/image_function_helper.cpp
  1134-1160).
-/
namespace PV.Simd

/-- `SIMDType` of src/image_function_simd.h. src/image_function_helper.h 564-571. -/
inductive Kind where
  | avx512 | avx | sse | neon | cpu
deriving DecidableEq, Repr

/-- `getSimdSize`, src/image_function_simd.cpp 2444-2458 with the constants of 79, 539,
    1156, 1826: bytes of a register. -/
def size : Kind → Nat
  | .avx512 => 64
  | .avx => 32
  | .sse => 16
  | .neon => 16
  | .cpu => 1

/-- Content of a register: byte `i` (little endian, as stored in memory).  Only the first
    `size k` bytes are meaningful. Not in the code: machinery of the model. -/
abbrev Vec := Nat → UInt8

/-- `_mm*_loadu_si*`, `vld1q_u8`: read `n` bytes at once; undefined unless all of them
    belong to the block. src/image_function_simd.cpp 96, 556, 1173, 1842. -/
def loadV (n b p : Nat) : M BMem Vec := fun m =>
  if b ≠ 0 ∧ p + n ≤ m.size b then .ok (fun i => m.byte b (p + i)) m else .ub

/-- The memory after `n` bytes at `p` were replaced. Not in the code: machinery of the model. -/
def setRange {α : Type} (m : Mem α) (b p n : Nat) (v : Nat → α) : Mem α :=
  { m with byte := fun b' i => if b' = b ∧ p ≤ i ∧ i < p + n then v (i - p) else m.byte b' i }

/-- `_mm*_storeu_si*`, `vst1q_u8`: write `n` bytes (of an image with 16-bit
    pixels `n` numbers) at once. For example src/image_function_simd.cpp 98. -/
def storeV {α : Type} (n b p : Nat) (v : Nat → α) : M (Mem α) Unit := fun m =>
  if b ≠ 0 ∧ p + n ≤ m.size b then .ok () (setRange m b p n v) else .ub

/-! ### Instructions working on bytes

The Intel descriptions; the AVX and AVX-512 forms differ only in the number of bytes. -/

/-- `_mm*_max_epu8`, `vmaxq_u8`. src/image_function_simd.cpp 98, 329, 558, 791, 1175, 1500. -/
def max8 (a b : Vec) : Vec := fun i => if a i < b i then b i else a i
/-- `_mm*_min_epu8`, `vminq_u8`. src/image_function_simd.cpp 98, 359, 558, 821, 1175, 1530. -/
def min8 (a b : Vec) : Vec := fun i => if a i < b i then a i else b i
/-- `_mm*_sub_epi8`, `vsubq_u8` (wraps). src/image_function_simd.cpp 98, 482, 558, 974, 1175, 1683. -/
def sub8 (a b : Vec) : Vec := fun i => a i - b i
/-- `vabdq_u8`. src/image_function_simd.cpp 1842. -/
def abd8 (a b : Vec) : Vec := fun i => UInt8.ofNat ((a i).toNat - (b i).toNat + ((b i).toNat - (a i).toNat))
/-- `_mm*_and_si*`, `vandq_u8`. src/image_function_simd.cpp 169, 629, 1110, 1246. -/
def and8 (a b : Vec) : Vec := fun i => a i &&& b i
/-- `_mm*_or_si*`, `vorrq_u8`. src/image_function_simd.cpp 195, 655, 1272, 1807. -/
def or8 (a b : Vec) : Vec := fun i => a i ||| b i
/-- `_mm*_xor_si*`, `veorq_u8`. src/image_function_simd.cpp 221, 681, 1049, 1298. -/
def xor8 (a b : Vec) : Vec := fun i => a i ^^^ b i
/-- `_mm*_andnot_si*`: the first operand is complemented. src/image_function_simd.cpp 304, 766, 1110, 1475, 1807. -/
def andnot8 (a b : Vec) : Vec := fun i => ~~~ (a i) &&& b i
/-- `vmvnq_u8`. src/image_function_simd.cpp 2124. -/
def not8 (a : Vec) : Vec := fun i => ~~~ (a i)
/-- `_mm*_set1_epi8`, `_mm*_set_epi8( c, ..., c )`, `vld1q_u8` of a constant array. src/image_function_simd.cpp 295 and similar. -/
def set1 (c : UInt8) : Vec := fun _ => c
/-- A byte read as a signed number. Not in the code: machinery of the model. -/
def signed (a : UInt8) : Int := if a.toNat < 128 then a.toNat else (a.toNat : Int) - 256
/-- `_mm*_cmpgt_epi8`: signed comparison. src/image_function_simd.cpp 1049, 1111, 1135, 1756. -/
def cmpgt8 (a b : Vec) : Vec := fun i => if signed (a i) > signed (b i) then 255 else 0
/-- `_mm_cmplt_epi8`: signed comparison. src/image_function_simd.cpp 1807. -/
def cmplt8 (a b : Vec) : Vec := fun i => if signed (a i) < signed (b i) then 255 else 0
/-- `vcgeq_u8`: unsigned comparison. src/image_function_simd.cpp 2425. -/
def cge8 (a b : Vec) : Vec := fun i => if a i ≥ b i then 255 else 0
/-- `vcleq_u8`: unsigned comparison. src/image_function_simd.cpp 2425. -/
def cle8 (a b : Vec) : Vec := fun i => if a i ≤ b i then 255 else 0

/-! ### What the kernels compute per register -/

/-- src/image_function_simd.cpp, lines 96-98 (avx512), 556-558 (avx), 1173-1175 (sse); 1842 (neon). -/
def absDiffV : Kind → Vec → Vec → Vec
  | .neon, a, b => abd8 a b
  | _, a, b => sub8 (max8 a b) (min8 a b)
/-- src/image_function_simd.cpp, lines 169, 629, 1246, 1906. -/
def andV : Kind → Vec → Vec → Vec := fun _ => and8
/-- src/image_function_simd.cpp, lines 195, 655, 1272, 1932. -/
def orV : Kind → Vec → Vec → Vec := fun _ => or8
/-- src/image_function_simd.cpp, lines 221, 681, 1298, 1958. -/
def xorV : Kind → Vec → Vec → Vec := fun _ => xor8
/-- src/image_function_simd.cpp, lines 329, 791, 1500, 2149. -/
def maxV : Kind → Vec → Vec → Vec := fun _ => max8
/-- src/image_function_simd.cpp, lines 359, 821, 1530, 2179. -/
def minV : Kind → Vec → Vec → Vec := fun _ => min8
/-- src/image_function_simd.cpp, lines 481-482, 973-974, 1682-1683, 2331-2332. -/
def subV : Kind → Vec → Vec → Vec := fun _ a b => sub8 a (min8 a b)
/-- src/image_function_simd.cpp, lines 304, 766, 1475; 2124 (neon). -/
def notV : Kind → Vec → Vec
  | .neon, a => not8 a
  | _, a => andnot8 a (set1 255)
/-- src/image_function_simd.cpp, lines 1031-1049 (avx), 1741-1756 (sse) for a threshold above 0; 2392 (neon). -/
def thrV (t : UInt8) : Kind → Vec → Vec
  | .neon, a => cge8 a (set1 t)
  | _, a => cmpgt8 (xor8 a (set1 128)) (set1 ((t - 1) ^^^ 128))
/-- src/image_function_simd.cpp, lines 1108-1111 and 1133-1135 (avx, two cases), 1805-1807 (sse), 2424-2425 (neon). -/
def thr2V (lo hi : UInt8) : Kind → Vec → Vec
  | .neon, a => and8 (cge8 a (set1 lo)) (cle8 a (set1 hi))
  | .avx, a =>
    let data := xor8 a (set1 128)
    if lo > 0 then
      and8 (andnot8 (cmpgt8 data (set1 (hi ^^^ 128))) (set1 255)) (cmpgt8 data (set1 ((lo - 1) ^^^ 128)))
    else andnot8 (cmpgt8 data (set1 (hi ^^^ 128))) (set1 255)
  | _, a =>
    let data := xor8 a (set1 128)
    andnot8 (or8 (cmplt8 data (set1 (lo ^^^ 128))) (cmpgt8 data (set1 (hi ^^^ 128)))) (set1 255)

/-- The scalar tail of `thr2V`: the AVX kernel for `minThreshold == 0` has its own
    expression, src/image_function_simd.cpp, line 1145. -/
def thr2T (lo hi : UInt8) : Kind → UInt8 → UInt8
  | .avx, a => if lo > 0 then thr2E lo hi a else if a > hi then 0 else 255
  | _, a => thr2E lo hi a

/-! ### Kernels -/

/-- One row of a two-input kernel, src/image_function_simd.cpp, lines 91-111 and the same text in every other one:
    `simdWidth` registers, then `nonSimdWidth` single bytes.  (The NEON kernels advance
    byte pointers up to `in1Y + totalSimdWidth`, which is the same address.) -/
def binaryRow (n : Nat) (vop : Vec → Vec → Vec) (sop : UInt8 → UInt8 → UInt8) (b1 b2 bo : Nat)
    (in1Y in2Y outY simdWidth total non : Nat) : M BMem Unit := do
  loop (fun s => s.1 != in1Y + simdWidth * n) (fun s => (s.1 + n, s.2.1 + n, s.2.2 + n))
    (fun s _ => do
      let data1 ← loadV n b1 s.1
      let data2 ← loadV n b2 s.2.1
      storeV n bo s.2.2 (vop data1 data2))
    fuelMax (in1Y, in2Y, outY) ()
  if non > 0 then
    loop (fun s => s.1 != outY + total + non) (fun s => (s.1 + 1, s.2.1 + 1, s.2.2 + 1))
      (fun s _ => do
        let a ← readC b1 s.2.1
        let b ← readC b2 s.2.2
        writeC bo s.1 (sop a b))
      fuelMax (outY + total, in1Y + total, in2Y + total) ()
  else pure ()

/-- The row loop of a two-input kernel, e.g. src/image_function_simd.cpp, lines 88-111. -/
def binaryKernel (n : Nat) (vop : Vec → Vec → Vec) (sop : UInt8 → UInt8 → UInt8)
    (in1 in2 out : View) (cc w h : Nat) : M BMem Unit :=
  let simdWidth := w / n
  let total := u32 (simdWidth * n)
  let non := w - total
  let outY := out.start cc
  loop (fun s => s.1 != outY + u32 (h * out.img.rowSize))
    (fun s => (s.1 + out.img.rowSize, s.2.1 + in1.img.rowSize, s.2.2 + in2.img.rowSize))
    (fun s _ => binaryRow n vop sop in1.img.data in2.img.data out.img.data s.2.1 s.2.2 s.1
      simdWidth total non)
    fuelMax (outY, in1.start cc, in2.start cc) ()

/-- The part of the two-input functions after the size test, e.g. src/image_function_simd.cpp, lines 2526-2551. -/
def binaryPath (k : Kind) (vop : Kind → Vec → Vec → Vec) (sop : UInt8 → UInt8 → UInt8)
    (in1 in2 out : View) (w h : Nat) : M BMem Unit := do
  validateRois [in1, in2, out] w h
  let r := optimiseRoi (u32 (w * in1.img.cc)) h [in1.img, in2.img, out.img]
  binaryKernel (size k) (vop k) sop in1 in2 out in1.img.cc r.1 r.2

/-- The two-input functions for a kind other than AVX, e.g. src/image_function_simd.cpp, lines 2514-2552: the scalar
    function when a row is shorter than a register. -/
def binaryBase (k : Kind) (vop : Kind → Vec → Vec → Vec) (sop : UInt8 → UInt8 → UInt8)
    (scalar : View → View → View → Nat → Nat → M BMem Unit)
    (in1 in2 out : View) (w h : Nat) : M BMem Unit := do
  checkCommonColorCount in1.img [in2.img, out.img]
  if k = .cpu ∨ u32 (w * in1.img.cc) < size k then scalar in1 in2 out w h
  else binaryPath k vop sop in1 in2 out w h

/-- The two-input functions, src/image_function_simd.cpp, lines 2514-2552 (AbsoluteDifference), 2592-2630, 2632-2670,
    2672-2710 (bitwise), 2911-2949 (Maximum), 2951-2989 (Minimum), 3075-3113 (Subtract):
    AVX falls back to SSE first (line 2521). -/
def binaryFn (vop : Kind → Vec → Vec → Vec) (sop : UInt8 → UInt8 → UInt8)
    (scalar : View → View → View → Nat → Nat → M BMem Unit) (k : Kind)
    (in1 in2 out : View) (w h : Nat) : M BMem Unit :=
  if k = .avx then do
    checkCommonColorCount in1.img [in2.img, out.img]
    if u32 (w * in1.img.cc) < size .avx then binaryBase .sse vop sop scalar in1 in2 out w h
    else binaryPath .avx vop sop in1 in2 out w h
  else binaryBase k vop sop scalar in1 in2 out w h

/-- src/image_function_simd.cpp 2514-2552 -/
def AbsoluteDifference := binaryFn absDiffV absDiffE PV.AbsoluteDifference
/-- src/image_function_simd.cpp 2592-2630 -/
def BitwiseAnd := binaryFn andV (fun a b => a &&& b) PV.BitwiseAnd
/-- src/image_function_simd.cpp 2632-2670 -/
def BitwiseOr := binaryFn orV (fun a b => a ||| b) PV.BitwiseOr
/-- src/image_function_simd.cpp 2672-2710 -/
def BitwiseXor := binaryFn xorV (fun a b => a ^^^ b) PV.BitwiseXor
/-- src/image_function_simd.cpp 2911-2949 -/
def Maximum := binaryFn maxV maxE PV.Maximum
/-- src/image_function_simd.cpp 2951-2989 -/
def Minimum := binaryFn minV minE PV.Minimum
/-- src/image_function_simd.cpp 3075-3113; line 3088 passes both inputs to `OptimiseRoi`. -/
def Subtract := binaryFn subV subE PV.Subtract

/-- One row of a one-input kernel, e.g. src/image_function_simd.cpp, lines 297-315. -/
def unaryRow (n : Nat) (vop : Vec → Vec) (sop : UInt8 → UInt8) (bi bo : Nat)
    (inY outY simdWidth total non : Nat) : M BMem Unit := do
  loop (fun s => s.1 != inY + simdWidth * n) (fun s => (s.1 + n, s.2 + n))
    (fun s _ => do
      let data ← loadV n bi s.1
      storeV n bo s.2 (vop data))
    fuelMax (inY, outY) ()
  if non > 0 then
    loop (fun s => s.1 != outY + total + non) (fun s => (s.1 + 1, s.2 + 1))
      (fun s _ => do
        let a ← readC bi s.2
        writeC bo s.1 (sop a))
      fuelMax (outY + total, inY + total) ()
  else pure ()

/-- The row loop of a one-input kernel, e.g. src/image_function_simd.cpp, lines 297-315. -/
def unaryKernel (n : Nat) (vop : Vec → Vec) (sop : UInt8 → UInt8)
    (inp out : View) (cc w h : Nat) : M BMem Unit :=
  let simdWidth := w / n
  let total := u32 (simdWidth * n)
  let non := w - total
  let outY := out.start cc
  loop (fun s => s.1 != outY + u32 (h * out.img.rowSize))
    (fun s => (s.1 + out.img.rowSize, s.2 + inp.img.rowSize))
    (fun s _ => unaryRow n vop sop inp.img.data out.img.data s.2 s.1 simdWidth total non)
    fuelMax (outY, inp.start cc) ()

/-- src/image_function_simd.cpp 2883-2908 -/
def invertPath (k : Kind) (inp out : View) (w h : Nat) : M BMem Unit := do
  validateRois [inp, out] w h
  let r := optimiseRoi (u32 (w * inp.img.cc)) h [inp.img, out.img]
  unaryKernel (size k) (notV k) (fun a => ~~~ a) inp out inp.img.cc r.1 r.2

/-- `Invert` for a kind other than AVX. src/image_function_simd.cpp 2873-2909. -/
def invertBase (k : Kind) (inp out : View) (w h : Nat) : M BMem Unit := do
  checkCommonColorCount inp.img [out.img]
  if k = .cpu ∨ u32 (w * inp.img.cc) < size k then PV.Invert inp out w h
  else invertPath k inp out w h

/-- src/image_function_simd.cpp 2873-2909 -/
def Invert (k : Kind) (inp out : View) (w h : Nat) : M BMem Unit :=
  if k = .avx then do
    checkCommonColorCount inp.img [out.img]
    if u32 (w * inp.img.cc) < size .avx then invertBase .sse inp out w h
    else invertPath .avx inp out w h
  else invertBase k inp out w h

/-- Threshold kernels for threshold 0 on SSE and AVX, src/image_function_simd.cpp, lines 1062-1066, 1769-1773: every
    byte of the row becomes 255 without reading the input. -/
def fillKernel (out : View) (w h : Nat) : M BMem Unit :=
  let outY := out.start 1
  loop (fun s => s != outY + u32 (h * out.img.rowSize)) (fun s => s + out.img.rowSize)
    (fun s _ => memsetC out.img.data s 255 w)
    fuelMax outY ()

/-- src/image_function_simd.cpp 3173-3195 -/
def thresholdPath (k : Kind) (inp out : View) (w h : Nat) (t : UInt8) : M BMem Unit := do
  validateRois [inp, out] w h
  verifyGray [inp.img, out.img]
  let r := optimiseRoi w h [inp.img, out.img]
  if t > 0 ∨ k = .neon then unaryKernel (size k) (thrV t k) (thrE t) inp out 1 r.1 r.2
  else fillKernel out r.1 r.2

/-- `Threshold` for a kind other than AVX. src/image_function_simd.cpp 3162-3196. -/
def thresholdBase (k : Kind) (inp out : View) (w h : Nat) (t : UInt8) : M BMem Unit :=
  if k = .cpu ∨ k = .avx512 ∨ w < size k then PV.Threshold inp out w h t
  else thresholdPath k inp out w h t

/-- src/image_function_simd.cpp 3162-3196: there is no AVX-512 kernel. -/
def Threshold (k : Kind) (inp out : View) (w h : Nat) (t : UInt8) : M BMem Unit :=
  if k = .avx ∧ w < size .avx then thresholdBase .sse inp out w h t
  else thresholdBase k inp out w h t

/-- src/image_function_simd.cpp 3209-3231.  The order of the thresholds is not checked. -/
def threshold2Path (k : Kind) (inp out : View) (w h : Nat) (lo hi : UInt8) : M BMem Unit := do
  validateRois [inp, out] w h
  verifyGray [inp.img, out.img]
  let r := optimiseRoi w h [inp.img, out.img]
  unaryKernel (size k) (thr2V lo hi k) (thr2T lo hi k) inp out 1 r.1 r.2

/-- Two-value `Threshold` for a kind other than AVX. src/image_function_simd.cpp 3198-3232. -/
def threshold2Base (k : Kind) (inp out : View) (w h : Nat) (lo hi : UInt8) : M BMem Unit :=
  if k = .cpu ∨ k = .avx512 ∨ w < size k then PV.Threshold2 inp out w h lo hi
  else threshold2Path k inp out w h lo hi

/-- src/image_function_simd.cpp 3198-3232 -/
def Threshold2 (k : Kind) (inp out : View) (w h : Nat) (lo hi : UInt8) : M BMem Unit :=
  if k = .avx ∧ w < size .avx then threshold2Base .sse inp out w h lo hi
  else threshold2Base k inp out w h lo hi

end PV.Simd
