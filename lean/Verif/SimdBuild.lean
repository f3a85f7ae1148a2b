import Verif.SimdMove
/-
  Which instruction set is used: src/penguinv/cpu_identification.h, cpu_id_unix.h, cpu_id_windows.h, the switches of
  src/image_function_helper.cpp 1101-1160, and the macros of src/image_function_simd.cpp 2460-2511 in each of its functions.

  Simd.lean, SimdSum.lean and SimdMove.lean have the functions for a processor and compiler which know the instruction set asked for; here the
  preprocessor symbols are a parameter.
-/
namespace PV.Simd

/-- What the compiler defines. src/penguinv/cpu_identification.h 26-69. -/
structure Platform where
  /-- `_MSC_VER` (0 is undefined) -/
  msvc : Nat
  /-- `_M_ARM` -/
  msArm : Bool
  /-- one of `__APPLE__`, `__linux__`, `__MINGW32__` -/
  unix : Bool
  /-- one of `__arm__`, `__aarch64__` -/
  arm : Bool
  /-- `__SSE2__` -/
  sse2 : Bool
  /-- `__SSSE3__` -/
  ssse3 : Bool
  /-- `__AVX2__` -/
  avx2 : Bool
  /-- all of `__AVX512BW__`, `__AVX512CD__`, `__AVX512DQ__`, `__AVX512F__`, `__AVX512VL__` -/
  avx512 : Bool

/-- The symbols `PENGUINV_..._SET`. src/penguinv/cpu_identification.h 26-69. -/
structure Build where
  neon : Bool
  sse : Bool
  ssse3 : Bool
  avx : Bool
  avx512 : Bool
deriving DecidableEq

/-- cpu_identification.h 26-69; `none` is `#error`. -/
def symbols (p : Platform) : Option Build :=
  if p.msvc ≠ 0 then
    if p.msArm then some ⟨true, false, false, false, false⟩
    else some ⟨false, true, true, decide (1700 ≤ p.msvc), decide (1911 ≤ p.msvc)⟩
  else if p.unix then
    if p.arm then some ⟨true, false, false, false, false⟩
    else if p.sse2 then some ⟨false, true, p.ssse3, p.avx2, p.avx512⟩
    else some ⟨false, false, false, false, false⟩
  else none

/-- cpu_identification.h 71-100 -/
def Build.valid (b : Build) : Bool :=
  !(b.neon && b.sse) && !(b.neon && b.avx) && !(b.avx && !b.sse) && !(b.avx512 && !b.avx) && !(b.ssse3 && !b.sse)

/-- The build of a platform, if the file can be compiled. src/penguinv/cpu_identification.h 26-69. -/
def buildOf (p : Platform) : Option Build := (symbols p).filter Build.valid

/-- The processor: `cpuid leaf r` is register r (0 is EAX) after CPUID with this leaf and subleaf 0, and whether it is an ARM processor.
    src/penguinv/cpu_id_unix.h 27-82, src/penguinv/cpu_id_windows.h 25-77. -/
structure Cpu where
  cpuid : Nat → Nat → UInt32
  arm : Bool

/-- Registers are read as `int`. `int info[4]`, src/penguinv/cpu_id_unix.h 32-34, src/penguinv/cpu_id_windows.h 29-31. -/
def asInt (v : UInt32) : Int := if v.toNat < 2147483648 then v.toNat else (v.toNat : Int) - 4294967296

/-- cpu_id_unix.h 29-42, cpu_id_windows.h 27-39 -/
def isSseSupported (c : Cpu) : Bool :=
  if c.arm then false
  else if asInt (c.cpuid 0 0) ≥ 1 then c.cpuid 1 3 &&& ((1 : UInt32) <<< 26) != 0
  else false

/-- cpu_id_unix.h 44-57, cpu_id_windows.h 41-53 -/
def isAvxSupported (c : Cpu) : Bool :=
  if c.arm then false
  else if asInt (c.cpuid 0 0) ≥ 7 then c.cpuid 7 1 &&& ((1 : UInt32) <<< 5) != 0
  else false

/-- cpu_id_unix.h 59-72, cpu_id_windows.h 55-67 -/
def isAvx512Supported (c : Cpu) : Bool :=
  if c.arm then false
  else if asInt (c.cpuid 0 0) ≥ 7 then
    c.cpuid 7 1 &&& (((1 : UInt32) <<< 31) ||| ((1 : UInt32) <<< 30) ||| ((1 : UInt32) <<< 28) ||| ((1 : UInt32) <<< 17) ||| ((1 : UInt32) <<< 16)) != 0
  else false

/-- cpu_id_unix.h 74-81, cpu_id_windows.h 69-76 -/
def isNeonSupported (c : Cpu) : Bool := c.arm

/-- `isAvx512Enabled`, ... (image_function_helper.cpp 1103-1106) -/
structure Switches where
  avx512 : Bool
  avx : Bool
  sse : Bool
  neon : Bool

/-- `EnableSimd`, `EnableAvx512`, `EnableAvx`, `EnableSse`, `EnableNeon`. src/image_function_helper.cpp 1108-1135. -/
inductive Enable where
  | simd (on : Bool)
  | avx512 (on : Bool)
  | avx (on : Bool)
  | sse (on : Bool)
  | neon (on : Bool)

/-- image_function_helper.cpp 1108-1134 -/
def Switches.set (s : Switches) : Enable → Switches
  | .simd on => ⟨on, on, on, on⟩
  | .avx512 on => { s with avx512 := on }
  | .avx on => { s with avx := on }
  | .sse on => { s with sse := on }
  | .neon on => { s with neon := on }

/-- The switches after calls. Not in the code: machinery of the model. -/
def switched (calls : List Enable) : Switches := calls.foldl Switches.set ⟨true, true, true, true⟩

/-- `actualSimdType`, image_function_helper.cpp 1136-1159, with `SimdInfo` (cpu_identification.h 103-144) -/
def actualSimdType (b : Build) (c : Cpu) (s : Switches) : Kind :=
  if b.avx512 && isAvx512Supported c && s.avx512 then .avx512
  else if b.avx && isAvxSupported c && s.avx then .avx
  else if b.sse && isSseSupported c && s.sse then .sse
  else if b.neon && isNeonSupported c && s.neon then .neon
  else .cpu

/-- Is the code of one of `AVX512SKL_CODE`, `AVX_CODE`, `SSE_CODE`, `NEON_CODE` compiled? (image_function_simd.cpp 2460-2511) -/
def Build.has (b : Build) : Kind → Bool
  | .avx512 => b.avx512
  | .avx => b.avx
  | .sse => b.sse
  | .neon => b.neon
  | .cpu => false

/-- The same with `SSSE3_CODE` in the place of `SSE_CODE`. src/image_function_simd.cpp 2487-2500. -/
def Build.hasMove (b : Build) : Kind → Bool
  | .sse => b.sse && b.ssse3
  | k => b.has k

variable {μ α : Type}

/-- The end of a function: the code of the kind, or the exception if it is not compiled.
    src/image_function_simd.cpp 2461-2510, 2551. -/
def code (compiled : Bool) (x : M μ α) : M μ α := if compiled then x else throwE

/-- `AVX_CODE( the function with sse_function ) scalar function`. src/image_function_simd.cpp 2471-2478. -/
def narrow (b : Build) (k : Kind) (sse scalar : M μ α) : M μ α := if b.avx && decide (k = .avx) then sse else scalar

/-- The functions of two images (see `binaryFn`); `sse` is the function itself for the kind SSE.
    For example src/image_function_simd.cpp 2514-2552. -/
def binaryStep (b : Build) (vop : Kind → Vec → Vec → Vec) (sop : UInt8 → UInt8 → UInt8)
    (scalar : View → View → View → Nat → Nat → M BMem Unit) (sse : M BMem Unit) (k : Kind)
    (in1 in2 out : View) (w h : Nat) : M BMem Unit := do
  checkCommonColorCount in1.img [in2.img, out.img]
  if k = .cpu ∨ u32 (w * in1.img.cc) < size k then narrow b k sse (scalar in1 in2 out w h)
  else do
    validateRois [in1, in2, out] w h
    let r := optimiseRoi (u32 (w * in1.img.cc)) h [in1.img, in2.img, out.img]
    code (b.has k) (binaryKernel (size k) (vop k) sop in1 in2 out in1.img.cc r.1 r.2)

/-- The recursion is at most one step deep: the function for SSE does not call itself.
    For example src/image_function_simd.cpp 2514-2552. -/
def binaryOf (b : Build) (vop : Kind → Vec → Vec → Vec) (sop : UInt8 → UInt8 → UInt8)
    (scalar : View → View → View → Nat → Nat → M BMem Unit) (k : Kind) (in1 in2 out : View) (w h : Nat) : M BMem Unit :=
  binaryStep b vop sop scalar (binaryStep b vop sop scalar ubE .sse in1 in2 out w h) k in1 in2 out w h

/-- image_function_simd.cpp 2873-2909 -/
def invertStep (b : Build) (sse : M BMem Unit) (k : Kind) (inp out : View) (w h : Nat) : M BMem Unit := do
  checkCommonColorCount inp.img [out.img]
  if k = .cpu ∨ u32 (w * inp.img.cc) < size k then narrow b k sse (PV.Invert inp out w h)
  else do
    validateRois [inp, out] w h
    let r := optimiseRoi (u32 (w * inp.img.cc)) h [inp.img, out.img]
    code (b.has k) (unaryKernel (size k) (notV k) (fun a => ~~~ a) inp out inp.img.cc r.1 r.2)

/-- src/image_function_simd.cpp 2873-2909. -/
def invertOf (b : Build) (k : Kind) (inp out : View) (w h : Nat) : M BMem Unit :=
  invertStep b (invertStep b ubE .sse inp out w h) k inp out w h

/-- image_function_simd.cpp 3162-3196: no code for AVX-512 -/
def thresholdStep (b : Build) (sse : M BMem Unit) (k : Kind) (inp out : View) (w h : Nat) (t : UInt8) : M BMem Unit :=
  if k = .cpu ∨ k = .avx512 ∨ w < size k then narrow b k sse (PV.Threshold inp out w h t)
  else do
    validateRois [inp, out] w h
    verifyGray [inp.img, out.img]
    let r := optimiseRoi w h [inp.img, out.img]
    code (b.has k && decide (k ≠ .avx512))
      (if t > 0 ∨ k = .neon then unaryKernel (size k) (thrV t k) (thrE t) inp out 1 r.1 r.2 else fillKernel out r.1 r.2)

/-- src/image_function_simd.cpp 3162-3196. -/
def thresholdOf (b : Build) (k : Kind) (inp out : View) (w h : Nat) (t : UInt8) : M BMem Unit :=
  thresholdStep b (thresholdStep b ubE .sse inp out w h t) k inp out w h t

/-- image_function_simd.cpp 3198-3232 -/
def threshold2Step (b : Build) (sse : M BMem Unit) (k : Kind) (inp out : View) (w h : Nat) (lo hi : UInt8) : M BMem Unit :=
  if k = .cpu ∨ k = .avx512 ∨ w < size k then narrow b k sse (PV.Threshold2 inp out w h lo hi)
  else do
    validateRois [inp, out] w h
    verifyGray [inp.img, out.img]
    let r := optimiseRoi w h [inp.img, out.img]
    code (b.has k && decide (k ≠ .avx512)) (unaryKernel (size k) (thr2V lo hi k) (thr2T lo hi k) inp out 1 r.1 r.2)

/-- src/image_function_simd.cpp 3198-3232. -/
def threshold2Of (b : Build) (k : Kind) (inp out : View) (w h : Nat) (lo hi : UInt8) : M BMem Unit :=
  threshold2Step b (threshold2Step b ubE .sse inp out w h lo hi) k inp out w h lo hi

/-- image_function_simd.cpp 3115-3160 -/
def sumBuildStep (b : Build) (sse : M BMem UInt32) (k : Kind) (image : View) (w h : Nat) : M BMem UInt32 :=
  if k = .cpu ∨ w < size k then narrow b k sse (PV.Sum image w h)
  else do
    validateRois [image] w h
    verifyGray [image.img]
    let r := optimiseRoi w h [image.img]
    code (b.has k) (sumKernel (size k) (sumStep k) image r.1 r.2)

/-- src/image_function_simd.cpp 3115-3160. -/
def sumOf (b : Build) (k : Kind) (image : View) (w h : Nat) : M BMem UInt32 :=
  sumBuildStep b (sumBuildStep b ubE .sse image w h) k image w h

/-- image_function_simd.cpp 2554-2590 -/
def accumulateOf (b : Build) (k : Kind) (image : View) (w h : Nat) : M VMem Unit :=
  if k = .cpu ∨ u32 (w * h * image.img.cc) < size k then PV.Accumulate image w h
  else do
    validateRois [image] w h
    verifyGray [image.img]
    vecSizeIs (u32 (u32 (w * image.img.cc) * h))
    let r := optimiseRoi (u32 (w * image.img.cc)) h [image.img]
    code (b.has k) (accKernel (size k) (widen k) image image.img.cc r.1 r.2)

/-- image_function_simd.cpp 2991-3024 -/
def profileStep (b : Build) (sse : M VMem Unit) (k : Kind) (image : View) (w h : Nat) (horizontal : Bool) : M VMem Unit :=
  if k = .cpu ∨ u32 (w * h * image.img.cc) < size k then narrow b k sse (PV.ProjectionProfile image w h horizontal)
  else do
    validateRois [image] w h
    vecReset (if horizontal then u32 (w * image.img.cc) else h)
    code (b.has k) (profileKernel k image (u32 (w * image.img.cc)) h horizontal)

/-- src/image_function_simd.cpp 2991-3024. -/
def profileOf (b : Build) (k : Kind) (image : View) (w h : Nat) (horizontal : Bool) : M VMem Unit :=
  profileStep b (profileStep b ubE .sse image w h horizontal) k image w h horizontal

/-- image_function_simd.cpp 2761-2787 (and 2722-2748): the end of the conversions -/
def convPathOf {α β : Type} (b : Build) (k : Kind) (f : α → β) (reg : Nat → Nat → Nat → Nat → M (Mem β) Unit) (src : Mem α)
    (inp out : View) (w h : Nat) : M (Mem β) Unit := do
  validateRois [inp] w h
  validateRois [out] w h
  checkCommonColorCount inp.img [out.img]
  let width := u32 (w * inp.img.cc)
  let simdWidth := width / size k
  let total := u32 (simdWidth * size k)
  code (b.has k) (moveRows out.img.rowSize inp.img.rowSize
    (moveRow (convStep k) (convStep k) (reg inp.img.data out.img.data) 1 1
      (convOne f src inp.img.data out.img.data) total total (width - total))
    (out.start inp.img.cc) (u32 (inp.y * inp.img.rowSize) + inp.x) h)

/-- image_function_simd.cpp 2712-2749 -/
def to16Of (b : Build) (k : Kind) (src : BMem) (inp out : View) (w h : Nat) : M (Mem UInt16) Unit :=
  if k = .cpu ∨ w < size k then PV.ConvertTo16Bit src inp out w h
  else convPathOf b k to16 (to16Reg k src) src inp out w h

/-- image_function_simd.cpp 2751-2788 -/
def to8Of (b : Build) (k : Kind) (src : Mem UInt16) (inp out : View) (w h : Nat) : M BMem Unit :=
  if k = .cpu ∨ w < size k then PV.ConvertTo8Bit src inp out w h
  else convPathOf b k to8 (to8Reg k src) src inp out w h

/-- image_function_simd.cpp 2790-2830: code for SSSE3 and NEON only -/
def rgbStep (b : Build) (sse : M BMem Unit) (k : Kind) (inp out : View) (w h : Nat) : M BMem Unit :=
  if k = .cpu ∨ k = .avx ∨ k = .avx512 ∨ w < moveSize k then narrow b k sse (PV.ConvertToRgb inp out w h)
  else do
    validateRois [inp, out] w h
    verifyRgb [out.img]
    if inp.img.cc == 3 then CopyRoi inp out w h
    else
      let simdWidth := w / moveSize k
      let total := u32 (simdWidth * moveSize k)
      code (b.hasMove k) (moveRows out.img.rowSize inp.img.rowSize
        (moveRow (moveSize k) (moveSize k * 3) (rgbReg k inp.img.data out.img.data) 1 3
          (rgbOne inp.img.data out.img.data) total (u32 (total * 3)) (w - total))
        (out.start 3) (inp.start 1) h)

/-- src/image_function_simd.cpp 2790-2830. -/
def rgbOf (b : Build) (k : Kind) (inp out : View) (w h : Nat) : M BMem Unit := rgbStep b (rgbStep b ubE .sse inp out w h) k inp out w h

/-- image_function_simd.cpp 2832-2871 -/
def flipStep (b : Build) (sse : M BMem Unit) (k : Kind) (inp out : View) (w h : Nat) (hor ver : Bool) : M BMem Unit :=
  if k = .cpu ∨ k = .avx ∨ k = .avx512 ∨ w < moveSize k ∨ (!hor && ver) = true then narrow b k sse (PV.Flip inp out w h hor ver)
  else do
    validateRois [inp, out] w h
    verifyGray [inp.img, out.img]
    if !hor && !ver then CopyRoi inp out w h
    else
      let simdWidth := w / moveSize k
      let total := u32 (simdWidth * moveSize k)
      let first := if hor && !ver then u32 (out.y * out.img.rowSize) else u32 (u32 (out.y + h - 1) * out.img.rowSize)
      let dy : Int := if hor && !ver then out.img.rowSize else -(out.img.rowSize : Int)
      code (b.hasMove k) (flipRows dy (moveSize k) inp.img.rowSize
        (flipRow (moveSize k) (flipReg k inp.img.data out.img.data)
          (fun inX outX => copyC out.img.data outX inp.img.data inX) simdWidth total (w - total))
        ((first + out.x + w : Nat) : Int) (inp.start 1) h)

/-- src/image_function_simd.cpp 2832-2871. -/
def flipOf (b : Build) (k : Kind) (inp out : View) (w h : Nat) (hor ver : Bool) : M BMem Unit :=
  flipStep b (flipStep b ubE .sse inp out w h hor ver) k inp out w h hor ver

/-- image_function_simd.cpp 3026-3073 -/
def bgrStep (b : Build) (sse : M BMem Unit) (k : Kind) (inp out : View) (w h : Nat) : M BMem Unit :=
  if k = .cpu ∨ k = .avx512 ∨ u32 (w * 3) < moveSize k then narrow b k sse (PV.RgbToBgr inp out w h)
  else do
    validateRois [inp, out] w h
    verifyRgb [inp.img, out.img]
    let r := optimiseRoi (u32 (w * 3)) h [inp.img, out.img]
    let rgbSimdSize := moveSize k / 3 * 3
    let total := u32 (r.1 / rgbSimdSize * rgbSimdSize)
    let non := r.1 - total
    let short := decide (non < moveSize k % 3)
    let total' := if short then u32 (total + 4294967296 - rgbSimdSize) else total
    let non' := if short then u32 (non + rgbSimdSize) else non
    code (b.hasMove k) (moveRows out.img.rowSize inp.img.rowSize
      (moveRow rgbSimdSize rgbSimdSize (bgrReg k inp.img.data out.img.data) 3 3
        (bgrOne inp.img.data out.img.data) total' total' non')
      (out.start 3) (inp.start 3) r.2)

/-- src/image_function_simd.cpp 3026-3073. -/
def bgrOf (b : Build) (k : Kind) (inp out : View) (w h : Nat) : M BMem Unit := bgrStep b (bgrStep b ubE .sse inp out w h) k inp out w h

/-! ### The functions a program calls (image_function_simd.cpp 3235-3608) -/

/-- The program and where it runs: the build, the processor, and the calls of `Enable...` made so far.
    Not in the code: machinery of the model. -/
structure Setup where
  build : Build
  cpu : Cpu
  calls : List Enable

/-- The kind used by the next call. For example src/image_function_simd.cpp 3256. -/
def Setup.kind (s : Setup) : Kind := actualSimdType s.build s.cpu (switched s.calls)

namespace Api

/-- src/image_function_simd.cpp 3254-3257 -/
def AbsoluteDifference (s : Setup) := binaryOf s.build absDiffV absDiffE PV.AbsoluteDifference s.kind
/-- src/image_function_simd.cpp 3285-3288 -/
def BitwiseAnd (s : Setup) := binaryOf s.build andV (fun a b => a &&& b) PV.BitwiseAnd s.kind
/-- src/image_function_simd.cpp 3306-3309 -/
def BitwiseOr (s : Setup) := binaryOf s.build orV (fun a b => a ||| b) PV.BitwiseOr s.kind
/-- src/image_function_simd.cpp 3327-3330 -/
def BitwiseXor (s : Setup) := binaryOf s.build xorV (fun a b => a ^^^ b) PV.BitwiseXor s.kind
/-- src/image_function_simd.cpp 3473-3476 -/
def Maximum (s : Setup) := binaryOf s.build maxV maxE PV.Maximum s.kind
/-- src/image_function_simd.cpp 3494-3497 -/
def Minimum (s : Setup) := binaryOf s.build minV minE PV.Minimum s.kind
/-- src/image_function_simd.cpp 3552-3555 -/
def Subtract (s : Setup) := binaryOf s.build subV subE PV.Subtract s.kind
/-- src/image_function_simd.cpp 3452-3455 -/
def Invert (s : Setup) := invertOf s.build s.kind
/-- src/image_function_simd.cpp 3583-3586 -/
def Threshold (s : Setup) := thresholdOf s.build s.kind
/-- src/image_function_simd.cpp 3604-3607 -/
def Threshold2 (s : Setup) := threshold2Of s.build s.kind
/-- src/image_function_simd.cpp 3562-3565 -/
def Sum (s : Setup) := sumOf s.build s.kind
/-- src/image_function_simd.cpp 3264-3267 -/
def Accumulate (s : Setup) := accumulateOf s.build s.kind
/-- src/image_function_simd.cpp 3511-3514 -/
def ProjectionProfile (s : Setup) := profileOf s.build s.kind
/-- src/image_function_simd.cpp 3359-3362 -/
def ConvertTo16Bit (s : Setup) := to16Of s.build s.kind
/-- src/image_function_simd.cpp 3391-3394 -/
def ConvertTo8Bit (s : Setup) := to8Of s.build s.kind
/-- src/image_function_simd.cpp 3411-3414 -/
def ConvertToRgb (s : Setup) := rgbOf s.build s.kind
/-- src/image_function_simd.cpp 3432-3435 -/
def Flip (s : Setup) := flipOf s.build s.kind
/-- src/image_function_simd.cpp 3531-3534 -/
def RgbToBgr (s : Setup) := bgrOf s.build s.kind

end Api

end PV.Simd
