import Verif.SimdLanes
import Verif.Reduce
/-
  Model of src/image_function_simd.cpp: Accumulate, ProjectionProfile and Sum.
-/
namespace PV.Simd

/-- A register read as 16-bit numbers, for example src/image_function_simd.cpp 129. -/
abbrev WVec := Nat → UInt16
/-- A register read as 32-bit numbers, for example src/image_function_simd.cpp 132. -/
abbrev DVec := Nat → UInt32

/-- Bytes read as 16-bit numbers (little endian), for example src/image_function_simd.cpp 132. -/
def words (a : Vec) : WVec := fun j => UInt16.ofNat ((a (2 * j)).toNat + 256 * (a (2 * j + 1)).toNat)
/-- 16-bit numbers read as 32-bit numbers (little endian), for example src/image_function_simd.cpp 137. -/
def dwords (a : WVec) : DVec := fun j => UInt32.ofNat ((a (2 * j)).toNat + 65536 * (a (2 * j + 1)).toNat)

/-- `_mm*_unpacklo_epi8`: in every 128-bit lane the low eight bytes of the operands are
    interleaved (Intel SDM, PUNPCKLBW). src/image_function_simd.cpp 129. -/
def unpacklo8 (a b : Vec) : Vec := fun i =>
  if i % 2 = 0 then a (i / 16 * 16 + i % 16 / 2) else b (i / 16 * 16 + i % 16 / 2)
/-- `_mm*_unpackhi_epi8`: the same with the high eight bytes of every lane. src/image_function_simd.cpp 130, 590, 1207. -/
def unpackhi8 (a b : Vec) : Vec := fun i =>
  if i % 2 = 0 then a (i / 16 * 16 + 8 + i % 16 / 2) else b (i / 16 * 16 + 8 + i % 16 / 2)
/-- `_mm*_unpacklo_epi16`: in every 128-bit lane the low four numbers are interleaved. src/image_function_simd.cpp 132. -/
def unpacklo16 (a b : WVec) : WVec := fun j =>
  if j % 2 = 0 then a (j / 8 * 8 + j % 8 / 2) else b (j / 8 * 8 + j % 8 / 2)
/-- `_mm*_unpackhi_epi16`. src/image_function_simd.cpp 133. -/
def unpackhi16 (a b : WVec) : WVec := fun j =>
  if j % 2 = 0 then a (j / 8 * 8 + 4 + j % 8 / 2) else b (j / 8 * 8 + 4 + j % 8 / 2)
/-- `_mm*_add_epi16`, `vaddq_u16`, `vadd_u16`. src/image_function_simd.cpp 448, 2269, 2271. -/
def add16 (a b : WVec) : WVec := fun j => a j + b j
/-- `_mm*_add_epi32`, `vaddq_u32`. src/image_function_simd.cpp 137, 450. -/
def add32 (a b : DVec) : DVec := fun j => a j + b j
/-- `_mm*_setzero_si*`. src/image_function_simd.cpp 117, 577, 1194. -/
def zero8 : Vec := fun _ => 0
/-- The same register as 16-bit numbers, for example src/image_function_simd.cpp 129. -/
def zero16 : WVec := fun _ => 0
/-- The same register as 32-bit numbers; `vdupq_n_u32( 0 )`. src/image_function_simd.cpp 2210, 2351. -/
def zero32 : DVec := fun _ => 0

/-- `vaddl_u8`: sums of the bytes `a + j` and `b + j` as 16-bit numbers. src/image_function_simd.cpp 1871, 2359. -/
def addl8 (a b : Vec) : WVec := fun j => UInt16.ofNat (a j).toNat + UInt16.ofNat (b j).toNat
/-- `vaddl_u16`. src/image_function_simd.cpp 2224, 2360. -/
def addl16 (a b : WVec) : DVec := fun j => UInt32.ofNat (a j).toNat + UInt32.ofNat (b j).toNat
/-- `vget_high_u8` (`vget_low_u8` is the register itself, of which only the first eight
    bytes are used). src/image_function_simd.cpp 1872. -/
def high8 (a : Vec) : Vec := fun j => a (8 + j)
/-- `vget_high_u16`. src/image_function_simd.cpp 2225. -/
def high16 (a : WVec) : WVec := fun j => a (4 + j)

/-! ### Sums of registers -/

/-- src/image_function_simd.cpp, lines 510-514 (avx512), 1002-1006 (avx), 1712-1716 (sse), and the same in the vertical
    profile, lines 446-450, 908-912, 1617-1621. -/
def sumX86 (simdSum : DVec) (data : Vec) : DVec :=
  let dataLo := words (unpacklo8 data zero8)
  let dataHi := words (unpackhi8 data zero8)
  let sumLoHi := add16 dataLo dataHi
  add32 simdSum (add32 (dwords (unpacklo16 sumLoHi zero16)) (dwords (unpackhi16 sumLoHi zero16)))

/-- src/image_function_simd.cpp, lines 2358-2361. -/
def sumNeon (simdSum : DVec) (data : Vec) : DVec :=
  let data8Sum := addl8 (high8 data) data
  let data16Sum := addl16 (high16 data8Sum) data8Sum
  add32 simdSum data16Sum

/-- src/image_function_simd.cpp, lines 2264-2274. -/
def sumNeonProfile (simdSum : DVec) (data : Vec) : DVec :=
  let dataLo := addl8 data zero8
  let dataHi := addl8 (high8 data) zero8
  let sumLoHi := add16 dataHi dataLo
  add32 simdSum (addl16 (add16 sumLoHi (high16 sumLoHi)) zero16)

/-- The register step of `Sum`. src/image_function_simd.cpp 508-514, 2358-2361. -/
def sumStep : Kind → DVec → Vec → DVec
  | .neon => sumNeon
  | _ => sumX86

/-- The register step of the vertical profile. src/image_function_simd.cpp 2265-2273. -/
def sumStepProfile : Kind → DVec → Vec → DVec
  | .neon => sumNeonProfile
  | _ => sumX86

/-- `output[0] + output[1] + ...` of the stored register (`n` bytes), src/image_function_simd.cpp, lines 526-531,
    1018-1022, 1728-1732, 2373-2375. -/
def hsum (n : Nat) (v : DVec) : UInt32 := (List.range (n / 4)).foldl (fun s i => s + v i) 0

/-- The vector part of a row: registers from `p` on are accumulated. For example src/image_function_simd.cpp 503-515. -/
def sumRegs (n : Nat) (step : DVec → Vec → DVec) (b p simdWidth : Nat) (acc : DVec) : M BMem DVec :=
  loop (fun s => s != p + simdWidth * n) (fun s => s + n)
    (fun s acc => do
      let data ← loadV n b s
      pure (step acc data))
    fuelMax p acc

/-- The scalar tail of a row of `Sum`, src/image_function_simd.cpp, lines 517-523. -/
def sumTail (b p non : Nat) (sum : UInt32) : M BMem UInt32 :=
  if non > 0 then
    loop (fun s => s != p + non) (fun s => s + 1)
      (fun s sum => do
        let a ← readC b s
        pure (sum + UInt32.ofNat a.toNat))
      fuelMax p sum
  else pure sum

/-- The kernels of `Sum`: src/image_function_simd.cpp, lines 497-532 (avx512), 989-1023 (avx), 1699-1733 (sse),
    2348-2376 (neon). -/
def sumKernel (n : Nat) (step : DVec → Vec → DVec) (image : View) (w h : Nat) : M BMem UInt32 := do
  let simdWidth := w / n
  let total := u32 (simdWidth * n)
  let non := w - total
  let imageY := image.start 1
  let r ← loop (fun s => s != imageY + u32 (h * image.img.rowSize)) (fun s => s + image.img.rowSize)
    (fun s st => do
      let simdSum ← sumRegs n step image.img.data s simdWidth st.2
      let sum ← sumTail image.img.data (s + total) non st.1
      pure (sum, simdSum))
    fuelMax imageY ((0 : UInt32), zero32)
  pure (r.1 + hsum n r.2)

/-- src/image_function_simd.cpp 3128-3159 -/
def sumPath (k : Kind) (image : View) (w h : Nat) : M BMem UInt32 := do
  validateRois [image] w h
  verifyGray [image.img]
  let r := optimiseRoi w h [image.img]
  sumKernel (size k) (sumStep k) image r.1 r.2

/-- `Sum` for a kind other than AVX. src/image_function_simd.cpp 3115-3160. -/
def sumBase (k : Kind) (image : View) (w h : Nat) : M BMem UInt32 :=
  if k = .cpu ∨ w < size k then PV.Sum image w h else sumPath k image w h

/-- src/image_function_simd.cpp 3115-3160 -/
def Sum (k : Kind) (image : View) (w h : Nat) : M BMem UInt32 :=
  if k = .avx ∧ w < size .avx then sumBase .sse image w h else sumBase k image w h

/-! ### Vectors of counters -/

/-- Add `f k` to every entry `k`. Not in the code: machinery of the model. -/
def adds (u : List UInt32) (f : Nat → UInt32) : List UInt32 := u.mapIdx fun k a => a + f k

/-- `storeu( dst, add_epi32( v, loadu( dst ) ) )` where `dst` points to entry `i` of the
    caller's vector; `n` numbers of 32 bits.  Outside of the vector: undefined. src/image_function_simd.cpp 137-143. -/
def addStore (n i : Nat) (v : DVec) : M VMem Unit := fun s =>
  if i + n ≤ s.2.length then .ok () (s.1, adds s.2 fun k => if i ≤ k ∧ k < i + n then v (k - i) else 0)
  else .ub

/-- The four registers of 32-bit numbers made from one register of bytes: src/image_function_simd.cpp, lines 129-135
    and 401-407 (avx512), 589-595 and 863-869 (avx), 1206-1212 and 1572-1578 (sse).  `q`
    is 0 for `data_1`, ..., 3 for `data_4`. -/
def widenX86 (data : Vec) (q : Nat) : DVec :=
  let dataLo := words (unpacklo8 data zero8)
  let dataHi := words (unpackhi8 data zero8)
  match q with
  | 0 => dwords (unpacklo16 dataLo zero16)
  | 1 => dwords (unpackhi16 dataLo zero16)
  | 2 => dwords (unpacklo16 dataHi zero16)
  | _ => dwords (unpackhi16 dataHi zero16)

/-- src/image_function_simd.cpp, lines 1871-1881 (`vaddw_u16` widens and adds). -/
def widenNeon (data : Vec) (q : Nat) : DVec :=
  let dataLo := addl8 data zero8
  let dataHi := addl8 (high8 data) zero8
  match q with
  | 0 => addl16 dataLo zero16
  | 1 => addl16 (high16 dataLo) zero16
  | 2 => addl16 dataHi zero16
  | _ => addl16 (high16 dataHi) zero16

/-- src/image_function_simd.cpp, lines 2222-2227: `data_3` and `data_4` are computed from `dataLo` again. -/
def widenNeonProfile (data : Vec) (q : Nat) : DVec :=
  let dataLo := addl8 data zero8
  match q with
  | 0 => addl16 dataLo zero16
  | 1 => addl16 (high16 dataLo) zero16
  | 2 => addl16 dataLo zero16
  | _ => addl16 (high16 dataLo) zero16

/-- Widening in `Accumulate`. src/image_function_simd.cpp 127-143, 587-603, 1204-1220, 1870-1881. -/
def widen : Kind → Vec → Nat → DVec
  | .neon => widenNeon
  | _ => widenX86

/-- Widening in the horizontal profile. src/image_function_simd.cpp 401-407, 863-869, 1572-1578, 2222-2227. -/
def widenProfile : Kind → Vec → Nat → DVec
  | .neon => widenNeonProfile
  | _ => widenX86

/-- The four stores, e.g. src/image_function_simd.cpp, lines 137-144. -/
def addStore4 (n i : Nat) (v : Nat → DVec) : M VMem Unit := do
  addStore (n / 4) i (v 0)
  addStore (n / 4) (i + n / 4) (v 1)
  addStore (n / 4) (i + 2 * (n / 4)) (v 2)
  addStore (n / 4) (i + 3 * (n / 4)) (v 3)

/-- The vector part of a row of `Accumulate`, e.g. src/image_function_simd.cpp, lines 122-145. -/
def accRegs (n : Nat) (wd : Vec → Nat → DVec) (b p out simdWidth : Nat) : M VMem Unit :=
  loop (fun s => s.1 != p + simdWidth * n) (fun s => (s.1 + n, s.2 + n))
    (fun s _ => do
      let data ← onImg (loadV n b s.1)
      addStore4 n s.2 (wd data))
    fuelMax (p, out) ()

/-- The scalar tail of a row of `Accumulate`, e.g. src/image_function_simd.cpp, lines 147-154. -/
def accTail (b p out non : Nat) : M VMem Unit :=
  if non > 0 then
    loop (fun s => s.1 != p + non) (fun s => (s.1 + 1, s.2 + 1))
      (fun s _ => do
        let a ← onImg (readC b s.1)
        vecAdd s.2 (UInt32.ofNat a.toNat))
      fuelMax (p, out) ()
  else pure ()

/-- The kernels of `Accumulate`: src/image_function_simd.cpp, lines 114-156, 574-616, 1191-1233, 1857-1893. -/
def accKernel (n : Nat) (wd : Vec → Nat → DVec) (image : View) (cc w h : Nat) : M VMem Unit :=
  let simdWidth := w / n
  let total := u32 (simdWidth * n)
  let non := w - total
  let imageY := image.start cc
  loop (fun s => s.1 != imageY + u32 (h * image.img.rowSize))
    (fun s => (s.1 + image.img.rowSize, s.2 + u32 (total + non)))
    (fun s _ => do
      accRegs n wd image.img.data s.1 s.2 simdWidth
      accTail image.img.data (s.1 + total) (s.2 + total) non)
    fuelMax (imageY, 0) ()

/-- src/image_function_simd.cpp 2554-2590.  Colour images are refused here, while the
    scalar function accepts them. -/
def Accumulate (k : Kind) (image : View) (w h : Nat) : M VMem Unit :=
  if k = .cpu ∨ u32 (w * h * image.img.cc) < size k then PV.Accumulate image w h
  else do
    validateRois [image] w h
    verifyGray [image.img]
    vecSizeIs (u32 (u32 (w * image.img.cc) * h))
    let r := optimiseRoi (u32 (w * image.img.cc)) h [image.img]
    accKernel (size k) (widen k) image image.img.cc r.1 r.2

/-- Rows of one column group of the horizontal profile, e.g. src/image_function_simd.cpp, lines 396-412. -/
def profileRegs (n : Nat) (wd : Vec → Nat → DVec) (b p row h : Nat) : M VMem (Nat → DVec) :=
  loop (fun s => s != p + u32 (h * row)) (fun s => s + row)
    (fun s acc => do
      let data ← onImg (loadV n b s)
      pure fun q => add32 (wd data q) (acc q))
    fuelMax p (fun _ => zero32)

/-- The vector part of the horizontal profile, e.g. src/image_function_simd.cpp, lines 386-421. -/
def horizontalRegs (n : Nat) (wd : Vec → Nat → DVec) (b p total row h : Nat) : M VMem Unit :=
  loop (fun s => s.1 != p + total) (fun s => (s.1 + n, s.2 + n))
    (fun s _ => do
      let acc ← profileRegs n wd b s.1 row h
      addStore4 n s.2 acc)
    fuelMax (p, 0) ()

/-- The single columns of the horizontal profile, e.g. src/image_function_simd.cpp, lines 423-433. -/
def horizontalTail (b p out non row h : Nat) : M VMem Unit :=
  if non > 0 then
    loop (fun s => s.1 != p + non) (fun s => (s.1 + 1, s.2 + 1))
      (fun s _ => loop (fun t => t != s.1 + u32 (h * row)) (fun t => t + row)
        (fun t _ => do
          let a ← onImg (readC b t)
          vecAdd s.2 (UInt32.ofNat a.toNat)) fuelMax s.1 ())
      fuelMax (p, out) ()
  else pure ()

/-- The scalar tail of a row of the vertical profile, e.g. src/image_function_simd.cpp, lines 453-459. -/
def verticalTail (b p out non : Nat) : M VMem Unit :=
  if non > 0 then
    loop (fun s => s != p + non) (fun s => s + 1)
      (fun s _ => do
        let a ← onImg (readC b s)
        vecAdd out (UInt32.ofNat a.toNat))
      fuelMax p ()
  else pure ()

/-- The vertical profile, e.g. src/image_function_simd.cpp, lines 435-467. -/
def verticalKernel (n : Nat) (step : DVec → Vec → DVec) (b p row h simdWidth total non : Nat) :
    M VMem Unit :=
  loop (fun s => s.1 != p + u32 (h * row)) (fun s => (s.1 + row, s.2 + 1))
    (fun s _ => do
      let simdSum ← onImg (sumRegs n step b s.1 simdWidth zero32)
      verticalTail b (s.1 + total) s.2 non
      vecAdd s.2 (hsum n simdSum))
    fuelMax (p, 0) ()

/-- The kernels of the profile: src/image_function_simd.cpp, lines 378-468, 840-929, 1549-1638, 2198-2290. -/
def profileKernel (k : Kind) (image : View) (w h : Nat) (horizontal : Bool) : M VMem Unit :=
  let n := size k
  let simdWidth := w / n
  let total := u32 (simdWidth * n)
  let non := w - total
  let p := image.start image.img.cc
  if horizontal then do
    horizontalRegs n (widenProfile k) image.img.data p total image.img.rowSize h
    horizontalTail image.img.data (p + total) total non image.img.rowSize h
  else verticalKernel n (sumStepProfile k) image.img.data p image.img.rowSize h simdWidth total non

/-- src/image_function_simd.cpp 3003-3023 -/
def profilePath (k : Kind) (image : View) (w h : Nat) (horizontal : Bool) : M VMem Unit := do
  validateRois [image] w h
  vecReset (if horizontal then u32 (w * image.img.cc) else h)
  profileKernel k image (u32 (w * image.img.cc)) h horizontal

/-- `ProjectionProfile` for a kind other than AVX. src/image_function_simd.cpp 2991-3024. -/
def profileBase (k : Kind) (image : View) (w h : Nat) (horizontal : Bool) : M VMem Unit :=
  if k = .cpu ∨ u32 (w * h * image.img.cc) < size k then PV.ProjectionProfile image w h horizontal
  else profilePath k image w h horizontal

/-- src/image_function_simd.cpp 2991-3024 -/
def ProjectionProfile (k : Kind) (image : View) (w h : Nat) (horizontal : Bool) : M VMem Unit :=
  if k = .avx ∧ u32 (w * h * image.img.cc) < size .avx then profileBase .sse image w h horizontal
  else profileBase k image w h horizontal

end PV.Simd
