import Verif.SimdPatch
import Verif.Channel
/-
  Model of src/image_function_simd.cpp: ConvertTo16Bit, ConvertTo8Bit, ConvertToRgb, Flip and
  RgbToBgr.

  The SSSE3 instructions are taken as available wherever SSE2 is; a machine with SSE2 only
  would run into the exception after the macro `SSSE3_CODE`.
  Simplification: the C++ loops compare the input or the output pointer with its end; both
  advance together, here the input pointer is compared.
-/
namespace PV.Simd

variable {α β μ : Type}

/-- A register (or half of one) read from a memory which the call does not change. src/image_function_simd.cpp 246, 706, 1323. -/
def loadFrom (src : Mem α) (n b p : Nat) : M μ (Nat → α) := fun s =>
  if b ≠ 0 ∧ p + n ≤ src.size b then .ok (fun i => src.byte b (p + i)) s else .ub

/-- The loops of one row, e.g. src/image_function_simd.cpp, lines 1321-1337 and 1378-1399: groups of `di` cells of the input
    which give `do'` cells of the output, then the rest in steps of `ei` and `eo` cells. -/
def moveRow (di do' : Nat) (reg : Nat → Nat → M μ Unit) (ei eo : Nat) (one : Nat → Nat → M μ Unit)
    (total totalOut non inY outY : Nat) : M μ Unit := do
  loop (fun s => s.1 != inY + total) (fun s => (s.1 + di, s.2 + do')) (fun s _ => reg s.1 s.2)
    fuelMax (inY, outY) ()
  if non > 0 then
    loop (fun s => s.1 != inY + total + non) (fun s => (s.1 + ei, s.2 + eo)) (fun s _ => one s.1 s.2)
      fuelMax (inY + total, outY + totalOut) ()
  else pure ()

/-- The loop over rows. For example src/image_function_simd.cpp 240-260. -/
def moveRows (rowOut rowIn : Nat) (row : Nat → Nat → M μ Unit) (outY inY h : Nat) : M μ Unit :=
  loop (fun s => s.1 != outY + u32 (h * rowOut)) (fun s => (s.1 + rowOut, s.2 + rowIn))
    (fun s _ => row s.2 s.1) fuelMax (outY, inY) ()

/-! ### ConvertTo16Bit, ConvertTo8Bit -/

/-- Pixels per step: the NEON kernels use 64-bit registers, src/image_function_simd.cpp, line 1982. -/
def convStep : Kind → Nat
  | .neon => 8
  | k => size k

/-- One step of ConvertTo16Bit, src/image_function_simd.cpp, lines 246-249, 706-709, 1323-1326 (both stores take the low
    halves), 1983 (neon: `vst1q_u16( dst, vshll_n_u8( vld1_u8( src ), 8 ) )`). -/
def to16Reg (k : Kind) (src : BMem) (bi bo inX outX : Nat) : M (Mem UInt16) Unit :=
  if k = .neon then do
    let data ← loadFrom src 8 bi inX
    storeV 8 bo outX (fun i => (data i).toUInt16 <<< (8 : UInt16))
  else do
    let data ← loadFrom src (size k) bi inX
    storeV (size k / 2) bo outX (words (unpacklo8 zero8 data))
    storeV (size k / 2) bo (outX + size k / 2) (words (unpacklo8 zero8 data))

/-- `_mm*_srli_epi16( a, 8 )`. src/image_function_simd.cpp 277, 737, 1354. -/
def srl8 (a : WVec) : WVec := fun i => a i >>> (8 : UInt16)

/-- Saturation of a 16-bit number read as a signed one to a byte, in `_mm*_packus_epi16`, src/image_function_simd.cpp 277. -/
def sat8 (a : UInt16) : UInt8 := if a.toNat ≥ 32768 then 0 else if a.toNat > 255 then 255 else a.toUInt8

/-- `_mm*_packus_epi16`: in every 128-bit lane the eight numbers of `a`, then those of `b`. src/image_function_simd.cpp 277, 737, 1354. -/
def packus16 (a b : WVec) : Vec := fun i =>
  sat8 (if i % 16 < 8 then a (i / 16 * 8 + i % 16) else b (i / 16 * 8 + (i % 16 - 8)))

/-- One step of ConvertTo8Bit, src/image_function_simd.cpp, lines 271-278, 731-738, 1348-1355, 2004 (neon:
    `vst1_u8( dst, vshrn_n_u16( vld1q_u16( src ), 8 ) )`). -/
def to8Reg (k : Kind) (src : Mem UInt16) (bi bo inX outX : Nat) : M BMem Unit :=
  if k = .neon then do
    let data ← loadFrom src 8 bi inX
    storeV 8 bo outX (fun i => (data i >>> (8 : UInt16)).toUInt8)
  else do
    let data1 ← loadFrom src (size k / 2) bi inX
    let data2 ← loadFrom src (size k / 2) bi (inX + size k / 2)
    storeV (size k) bo outX (packus16 (srl8 data1) (srl8 data2))

/-- One cell of the rest, e.g. src/image_function_simd.cpp, line 1335. -/
def convOne (f : α → β) (src : Mem α) (bi bo inX outX : Nat) : M (Mem β) Unit := do
  let a ← readFrom src bi inX
  writeC bo outX (f a)

/-- src/image_function_simd.cpp, lines 2722-2747 and 2761-2786 after the fallback; as in the scalar function the start in the
    input row is `startXIn`, not `startXIn * colorCount`. -/
def convPath (k : Kind) (f : α → β) (reg : Nat → Nat → Nat → Nat → M (Mem β) Unit) (src : Mem α)
    (inp out : View) (w h : Nat) : M (Mem β) Unit := do
  validateRois [inp] w h
  validateRois [out] w h
  checkCommonColorCount inp.img [out.img]
  let width := u32 (w * inp.img.cc)
  let simdWidth := width / size k
  let total := u32 (simdWidth * size k)
  moveRows out.img.rowSize inp.img.rowSize
    (moveRow (convStep k) (convStep k) (reg inp.img.data out.img.data) 1 1
      (convOne f src inp.img.data out.img.data) total total (width - total))
    (out.start inp.img.cc) (u32 (inp.y * inp.img.rowSize) + inp.x) h

/-- src/image_function_simd.cpp 2712-2749 -/
def ConvertTo16Bit (k : Kind) (src : BMem) (inp out : View) (w h : Nat) : M (Mem UInt16) Unit :=
  if k = .cpu ∨ w < size k then PV.ConvertTo16Bit src inp out w h
  else convPath k to16 (to16Reg k src) src inp out w h

/-- src/image_function_simd.cpp 2751-2788 -/
def ConvertTo8Bit (k : Kind) (src : Mem UInt16) (inp out : View) (w h : Nat) : M BMem Unit :=
  if k = .cpu ∨ w < size k then PV.ConvertTo8Bit src inp out w h
  else convPath k to8 (to8Reg k src) src inp out w h

/-! ### Shuffles -/

/-- `_mm*_shuffle_epi8` with a control register without bytes from 128: in every 128-bit lane
    the low four bits of the control byte choose a byte of the same lane. src/image_function_simd.cpp 945, 1388. -/
def shuffle8 (ctrl : List Nat) (a : Vec) : Vec := fun i => a (i / 16 * 16 + ctrl.getD i 0 % 16)

/-- `vtbl1_u8`: an index outside of the register gives 0. src/image_function_simd.cpp 2041-2045. -/
def tbl8 (ctrl : List Nat) (a : Vec) : Vec := fun i => if ctrl.getD i 0 < 8 then a (ctrl.getD i 0) else 0

/-- Bytes per step of ConvertToRgb, Flip and RgbToBgr, src/image_function_simd.cpp, lines 2793-2795, 2835-2838, 3029-3032. -/
def moveSize : Kind → Nat
  | .neon => 8
  | k => size k

/-! ### ConvertToRgb -/

/-- One step, src/image_function_simd.cpp, lines 1383-1389 (sse) and 2038-2047 (neon). -/
def rgbReg (k : Kind) (bi bo inX outX : Nat) : M BMem Unit :=
  if k = .neon then do
    let src1 ← loadV 8 bi inX
    storeV 8 bo outX (tbl8 [0, 0, 0, 1, 1, 1, 2, 2] src1)
    storeV 8 bo (outX + 8) (tbl8 [2, 3, 3, 3, 4, 4, 4, 5] src1)
    storeV 8 bo (outX + 16) (tbl8 [5, 5, 6, 6, 6, 7, 7, 7] src1)
  else do
    let src1 ← loadV 16 bi inX
    storeV 16 bo outX (shuffle8 [0, 0, 0, 1, 1, 1, 2, 2, 2, 3, 3, 3, 4, 4, 4, 5] src1)
    storeV 16 bo (outX + 16) (shuffle8 [5, 5, 6, 6, 6, 7, 7, 7, 8, 8, 8, 9, 9, 9, 10, 10] src1)
    storeV 16 bo (outX + 32) (shuffle8 [10, 11, 11, 11, 12, 12, 12, 13, 13, 13, 14, 14, 14, 15, 15, 15] src1)

/-- One pixel of the rest, src/image_function_simd.cpp, line 1399. -/
def rgbOne (bi bo inX outX : Nat) : M BMem Unit := do
  let a ← readC bi inX
  memsetC bo outX a 3

/-- src/image_function_simd.cpp, lines 2806-2829. -/
def rgbPath (k : Kind) (inp out : View) (w h : Nat) : M BMem Unit := do
  validateRois [inp, out] w h
  verifyRgb [out.img]
  if inp.img.cc == 3 then
    CopyRoi inp out w h
  else
    let simdWidth := w / moveSize k
    let total := u32 (simdWidth * moveSize k)
    moveRows out.img.rowSize inp.img.rowSize
      (moveRow (moveSize k) (moveSize k * 3) (rgbReg k inp.img.data out.img.data) 1 3
        (rgbOne inp.img.data out.img.data) total (u32 (total * 3)) (w - total))
      (out.start 3) (inp.start 1) h

/-- The function for a kind other than AVX. src/image_function_simd.cpp 2790-2830. -/
def rgbBase (k : Kind) (inp out : View) (w h : Nat) : M BMem Unit :=
  if k = .cpu ∨ k = .avx512 ∨ w < moveSize k then PV.ConvertToRgb inp out w h
  else rgbPath k inp out w h

/-- src/image_function_simd.cpp 2790-2830 -/
def ConvertToRgb (k : Kind) (inp out : View) (w h : Nat) : M BMem Unit :=
  if k = .avx then rgbBase .sse inp out w h else rgbBase k inp out w h

/-! ### Flip -/

/-- src/image_function_simd.cpp, lines 1420-1421 (sse: shuffle with 15, 14, ..., 0), 2077-2078 (neon: `vrev64_u8`). -/
def flipReg (k : Kind) (bi bo inX outX : Nat) : M BMem Unit :=
  if k = .neon then do
    let data ← loadV 8 bi inX
    storeV 8 bo outX (fun i => data (7 - i))
  else do
    let data ← loadV 16 bi inX
    storeV 16 bo outX (shuffle8 [15, 14, 13, 12, 11, 10, 9, 8, 7, 6, 5, 4, 3, 2, 1, 0] data)

/-- A store through a pointer that may point before its block: undefined behaviour then. src/image_function_simd.cpp 1415-1431. -/
def toI (f : Nat → M μ Unit) (o : Int) : M μ Unit := if 0 ≤ o then f o.toNat else ubE

/-- The loops of one row, src/image_function_simd.cpp, lines 1415-1431: the output pointers go down. -/
def flipRow (n : Nat) (reg one : Nat → Nat → M μ Unit) (simdWidth total non inY : Nat) (outYSimd outY : Int) :
    M μ Unit := do
  loop (fun s : Nat × Int => s.1 != inY + simdWidth * n) (fun s => (s.1 + n, s.2 - n))
    (fun s _ => toI (reg s.1) s.2) fuelMax (inY, outYSimd) ()
  if non > 0 then
    loop (fun s : Nat × Int => s.1 != inY + total + non) (fun s => (s.1 + 1, s.2 - 1))
      (fun s _ => toI (one s.1) s.2) fuelMax (inY + total, outY - total) ()
  else pure ()

/-- The two branches of the kernel, src/image_function_simd.cpp, lines 1411-1432 and 1436-1457: the output rows move by
    `dy` bytes.  (The C++ code has two pointers, which differ by the same amount in all rows.) -/
def flipRows (dy : Int) (n rowIn : Nat) (row : Nat → Int → Int → M μ Unit) (outEnd : Int) (inY h : Nat) : M μ Unit :=
  loop (fun s : Nat × Int => s.1 != inY + u32 (h * rowIn)) (fun s => (s.1 + rowIn, s.2 + dy))
    (fun s _ => row s.1 (s.2 - n) (s.2 - 1)) fuelMax (inY, outEnd) ()

/-- src/image_function_simd.cpp, lines 2846-2868. -/
def flipPath (k : Kind) (inp out : View) (w h : Nat) (hor ver : Bool) : M BMem Unit := do
  validateRois [inp, out] w h
  verifyGray [inp.img, out.img]
  if !hor && !ver then CopyRoi inp out w h
  else
    let simdWidth := w / moveSize k
    let total := u32 (simdWidth * moveSize k)
    let first := if hor && !ver then u32 (out.y * out.img.rowSize) else u32 (u32 (out.y + h - 1) * out.img.rowSize)
    let dy : Int := if hor && !ver then out.img.rowSize else -(out.img.rowSize : Int)
    flipRows dy (moveSize k) inp.img.rowSize
      (flipRow (moveSize k) (flipReg k inp.img.data out.img.data)
        (fun inX outX => copyC out.img.data outX inp.img.data inX) simdWidth total (w - total))
      ((first + out.x + w : Nat) : Int) (inp.start 1) h

/-- The function for a kind other than AVX. src/image_function_simd.cpp 2832-2871. -/
def flipBase (k : Kind) (inp out : View) (w h : Nat) (hor ver : Bool) : M BMem Unit :=
  if k = .cpu ∨ k = .avx512 ∨ w < moveSize k ∨ (!hor && ver) = true then PV.Flip inp out w h hor ver
  else flipPath k inp out w h hor ver

/-- src/image_function_simd.cpp 2832-2871 -/
def Flip (k : Kind) (inp out : View) (w h : Nat) (hor ver : Bool) : M BMem Unit :=
  if k = .avx then flipBase .sse inp out w h hor ver else flipBase k inp out w h hor ver

/-! ### RgbToBgr -/

/-- One step, src/image_function_simd.cpp, lines 941-949 (avx), 1651-1657 (sse), 2302-2305 (neon).  A whole register is
    stored, the step is a multiple of three. -/
def bgrReg (k : Kind) (bi bo inX outX : Nat) : M BMem Unit :=
  if k = .neon then do
    let data ← loadV 8 bi inX
    storeV 8 bo outX (tbl8 [2, 1, 0, 5, 4, 3, 6, 7] data)
  else if k = .avx then do
    let data ← loadV 32 bi inX
    storeV 32 bo outX (shuffle8 [2, 1, 0, 5, 4, 3, 8, 7, 6, 11, 10, 9, 14, 13, 12, 15, 16, 17, 20, 19, 18, 23, 22, 21,
      26, 25, 24, 29, 28, 27, 30, 31] data)
    copyC bo (outX + 15) bi (inX + 17)
    copyC bo (outX + 17) bi (inX + 15)
  else do
    let data ← loadV 16 bi inX
    storeV 16 bo outX (shuffle8 [2, 1, 0, 5, 4, 3, 8, 7, 6, 11, 10, 9, 14, 13, 12, 15] data)

/-- One pixel of the rest, src/image_function_simd.cpp, lines 954-956. -/
def bgrOne (bi bo inX outX : Nat) : M BMem Unit := do
  copyC bo (outX + 2) bi inX
  copyC bo (outX + 1) bi (inX + 1)
  copyC bo outX bi (inX + 2)

/-- src/image_function_simd.cpp, lines 3042-3070. -/
def bgrPath (k : Kind) (inp out : View) (w h : Nat) : M BMem Unit := do
  validateRois [inp, out] w h
  verifyRgb [inp.img, out.img]
  let r := optimiseRoi (u32 (w * 3)) h [inp.img, out.img]
  let rgbSimdSize := moveSize k / 3 * 3
  let total := u32 (r.1 / rgbSimdSize * rgbSimdSize)
  let non := r.1 - total
  let short := decide (non < moveSize k % 3)
  let total' := if short then u32 (total + 4294967296 - rgbSimdSize) else total
  let non' := if short then u32 (non + rgbSimdSize) else non
  moveRows out.img.rowSize inp.img.rowSize
    (moveRow rgbSimdSize rgbSimdSize (bgrReg k inp.img.data out.img.data) 3 3
      (bgrOne inp.img.data out.img.data) total' total' non')
    (out.start 3) (inp.start 3) r.2

/-- The function for a kind other than AVX. src/image_function_simd.cpp 3026-3073. -/
def bgrBase (k : Kind) (inp out : View) (w h : Nat) : M BMem Unit :=
  if k = .cpu ∨ k = .avx512 ∨ u32 (w * 3) < moveSize k then PV.RgbToBgr inp out w h
  else bgrPath k inp out w h

/-- src/image_function_simd.cpp 3026-3073 -/
def RgbToBgr (k : Kind) (inp out : View) (w h : Nat) : M BMem Unit :=
  if k = .avx ∧ u32 (w * 3) < moveSize .avx then bgrBase .sse inp out w h else bgrBase k inp out w h

end PV.Simd
