import Mathlib.Data.Nat.Sqrt
import Mathlib.Analysis.SpecialFunctions.Trigonometric.Basic
import Verif.Arr
/-
  Model of the Fourier transforms: src/thirdparty/kissfft/kiss_fft.c, kiss_fftnd.c (two dimensions) and the executor of
  src/fft.cpp 143-224 and src/math/fft_base.cpp.

  The arithmetic is exact: a `kiss_fft_cpx` is a complex number, the sines and cosines of the twiddle factors are exact.  Rounding
  is in KissFl.lean.  The output buffer is the state of the programs below; a pointer into it or into the input is an index.  Reading or
  writing outside of a buffer is undefined, so is reading past the last factor and a signed overflow.  Indices are `size_t` values
  below 2^62: they do not wrap around.  The macros C_MUL, C_ADD, C_SUB, C_ADDTO of _kiss_fft_guts.h (lines 87-117) are the operations
  of complex numbers, C_FIXDIV does nothing (line 90).  The OpenMP variant is not modelled.
-/
namespace PV.Kiss
open PV

/-- `for ( j = 0; j < n; ++j ) body( j );`. src/thirdparty/kissfft/kiss_fft.c 158, 212-232. -/
def forN {μ : Type} : Nat → (Nat → M μ Unit) → M μ Unit
  | 0, _ => pure ()
  | n + 1, body => do
    forN n body
    body n

/-- `do { … } while ( --n );` and loops up to a pointer reached after n ≥ 1 rounds: with n = 0 they would run away.
    src/thirdparty/kissfft/kiss_fft.c 32, 60, 108, 278-292. -/
def doN {μ : Type} (n : Nat) (body : Nat → M μ Unit) : M μ Unit := if n = 0 then ubE else forN n body

/-- `*( Fout + i )`. For example src/thirdparty/kissfft/kiss_fft.c 215, 223, 279. -/
def rdF (i : Nat) : M (Arr ℂ) ℂ := fun a => if i < a.len then .ok (a.at' i) a else .ub

/-- `*( Fout + i ) = v`. For example src/thirdparty/kissfft/kiss_fft.c 215, 223, 279. -/
def wrF (i : Nat) (v : ℂ) : M (Arr ℂ) Unit := fun a =>
  if i < a.len then .ok () ⟨a.len, fun k => if k = i then v else a.at' k⟩ else .ub

/-- `struct kiss_fft_state` (src/thirdparty/kissfft/_kiss_fft_guts.h 28-33); the factors are the pairs written by kf_factor. -/
structure Cfg where
  nfft : Nat
  inverse : Bool
  factors : List (Nat × Nat)
  twiddles : Arr ℂ

/-- kiss_fft.c 21-42 -/
noncomputable def bfly2 (o fstride : Nat) (st : Cfg) (m : Nat) : M (Arr ℂ) Unit :=
  doN m fun u => do
    let a ← rdF (o + u)
    let b ← rdF (o + m + u)
    let w ← st.twiddles.rd (u * fstride)
    let t := b * w
    wrF (o + m + u) (a - t)
    wrF (o + u) (a + t)

/-- kiss_fft.c 44-90 -/
noncomputable def bfly4 (o fstride : Nat) (st : Cfg) (m : Nat) : M (Arr ℂ) Unit :=
  doN m fun u => do
    let f0 ← rdF (o + u)
    let f1 ← rdF (o + u + m)
    let f2 ← rdF (o + u + 2 * m)
    let f3 ← rdF (o + u + 3 * m)
    let tw1 ← st.twiddles.rd (u * fstride)
    let tw2 ← st.twiddles.rd (u * (fstride * 2))
    let tw3 ← st.twiddles.rd (u * (fstride * 3))
    let s0 := f1 * tw1
    let s1 := f2 * tw2
    let s2 := f3 * tw3
    let s5 := f0 - s1
    let f0 := f0 + s1
    let s3 := s0 + s2
    let s4 := s0 - s2
    wrF (o + u + 2 * m) (f0 - s3)
    wrF (o + u) (f0 + s3)
    wrF (o + u + m) (if st.inverse then ⟨s5.re - s4.im, s5.im + s4.re⟩ else ⟨s5.re + s4.im, s5.im - s4.re⟩)
    wrF (o + u + 3 * m) (if st.inverse then ⟨s5.re + s4.im, s5.im - s4.re⟩ else ⟨s5.re - s4.im, s5.im + s4.re⟩)

/-- kiss_fft.c 92-134 -/
noncomputable def bfly3 (o fstride : Nat) (st : Cfg) (m : Nat) : M (Arr ℂ) Unit := do
  let epi3 ← st.twiddles.rd (fstride * m)
  doN m fun u => do
    let f0 ← rdF (o + u)
    let f1 ← rdF (o + u + m)
    let f2 ← rdF (o + u + 2 * m)
    let tw1 ← st.twiddles.rd (u * fstride)
    let tw2 ← st.twiddles.rd (u * (fstride * 2))
    let s1 := f1 * tw1
    let s2 := f2 * tw2
    let s3 := s1 + s2
    let s0 := s1 - s2
    let g : ℂ := ⟨f0.re - s3.re * (1 / 2), f0.im - s3.im * (1 / 2)⟩
    let s0 : ℂ := ⟨s0.re * epi3.im, s0.im * epi3.im⟩
    wrF (o + u) (f0 + s3)
    wrF (o + u + 2 * m) ⟨g.re + s0.im, g.im - s0.re⟩
    wrF (o + u + m) ⟨g.re - s0.im, g.im + s0.re⟩

/-- kiss_fft.c 136-194 -/
noncomputable def bfly5 (o fstride : Nat) (st : Cfg) (m : Nat) : M (Arr ℂ) Unit := do
  let ya ← st.twiddles.rd (fstride * m)
  let yb ← st.twiddles.rd (fstride * 2 * m)
  forN m fun u => do
    let s0 ← rdF (o + u)
    let f1 ← rdF (o + u + m)
    let f2 ← rdF (o + u + 2 * m)
    let f3 ← rdF (o + u + 3 * m)
    let f4 ← rdF (o + u + 4 * m)
    let tw1 ← st.twiddles.rd (u * fstride)
    let tw2 ← st.twiddles.rd (2 * u * fstride)
    let tw3 ← st.twiddles.rd (3 * u * fstride)
    let tw4 ← st.twiddles.rd (4 * u * fstride)
    let s1 := f1 * tw1
    let s2 := f2 * tw2
    let s3 := f3 * tw3
    let s4 := f4 * tw4
    let s7 := s1 + s4
    let s10 := s1 - s4
    let s8 := s2 + s3
    let s9 := s2 - s3
    wrF (o + u) ⟨s0.re + (s7.re + s8.re), s0.im + (s7.im + s8.im)⟩
    let s5 : ℂ := ⟨s0.re + s7.re * ya.re + s8.re * yb.re, s0.im + s7.im * ya.re + s8.im * yb.re⟩
    let s6 : ℂ := ⟨s10.im * ya.im + s9.im * yb.im, -(s10.re * ya.im) - s9.re * yb.im⟩
    wrF (o + u + m) (s5 - s6)
    wrF (o + u + 4 * m) (s5 + s6)
    let s11 : ℂ := ⟨s0.re + s7.re * yb.re + s8.re * ya.re, s0.im + s7.im * yb.re + s8.im * ya.re⟩
    let s12 : ℂ := ⟨-(s10.im * yb.im) + s9.im * ya.im, s10.re * yb.im - s9.re * ya.im⟩
    wrF (o + u + 2 * m) (s11 + s12)
    wrF (o + u + 3 * m) (s11 - s12)

/-- The values `Fout[ k ]`, `Fout[ k + m ]`, … kept in `scratch` (kiss_fft.c 214-218): the first q1 of them. -/
def gather (k m : Nat) : Nat → M (Arr ℂ) (List ℂ)
  | 0 => pure []
  | q1 + 1 => do
    let l ← gather k m q1
    let v ← rdF (k + q1 * m)
    pure (l ++ [v])

/-- `twidx += (int)( fstride * k ); if ( twidx >= Norig ) twidx -= Norig;` (kiss_fft.c 225-226) -/
def nextTw (fstride k norig twidx : Nat) : M (Arr ℂ) Nat :=
  if twidx + fstride * k < 2147483648 then
    pure (if twidx + fstride * k ≥ norig then twidx + fstride * k - norig else twidx + fstride * k)
  else ubE

/-- The loop of kiss_fft.c 224-229 after r rounds: `twidx`.  `k` counts from the pointer `Fout`, which is index o of the buffer. -/
noncomputable def genericSum (o fstride : Nat) (st : Cfg) (k : Nat) (scratch : List ℂ) : Nat → M (Arr ℂ) Nat
  | 0 => pure 0
  | r + 1 => do
    let twidx ← genericSum o fstride st k scratch r
    let twidx ← nextTw fstride k st.nfft twidx
    let s ← orUb scratch[r + 1]?
    let w ← st.twiddles.rd twidx
    let v ← rdF (o + k)
    wrF (o + k) (v + s * w)
    pure twidx

/-- kiss_fft.c 224-229 -/
noncomputable def genericOut (o fstride : Nat) (st : Cfg) (k p : Nat) (scratch : List ℂ) : M (Arr ℂ) Unit := do
  let s ← orUb scratch[0]?
  wrF (o + k) s
  let _ ← genericSum o fstride st k scratch (p - 1)
  pure ()

/-- kiss_fft.c 196-234 -/
noncomputable def bflyGeneric (o fstride : Nat) (st : Cfg) (m p : Nat) : M (Arr ℂ) Unit :=
  forN m fun u => do
    let scratch ← gather (o + u) m p
    forN p fun q1 => genericOut o fstride st (u + q1 * m) p scratch

/-- kiss_fft.c 297-304 -/
noncomputable def bfly (o fstride : Nat) (st : Cfg) (m p : Nat) : M (Arr ℂ) Unit :=
  match p with
  | 2 => bfly2 o fstride st m
  | 3 => bfly3 o fstride st m
  | 4 => bfly4 o fstride st m
  | 5 => bfly5 o fstride st m
  | p => bflyGeneric o fstride st m p

/-- kiss_fft.c 236-305 without the OpenMP branch: `Fout` is index o of the buffer, `f` index i of the array `f`. -/
noncomputable def work (st : Cfg) (f : Arr ℂ) (inStride : Nat) : List (Nat × Nat) → (o i fstride : Nat) → M (Arr ℂ) Unit
  | [], _, _, _ => ubE
  | (p, m) :: factors, o, i, fstride => do
    doN p fun q =>
      if m = 1 then do
        let v ← f.rd (i + q * (fstride * inStride))
        wrF (o + q) v
      else work st f inStride factors (o + q * m) (i + q * (fstride * inStride)) (fstride * p)
    bfly o fstride st m p

/-- kiss_fft.c 320-326: the next candidate for a factor. -/
def nextP (n floorSqrt p : Nat) : Nat :=
  let p := if p = 4 then 2 else if p = 2 then 3 else p + 2
  if p > floorSqrt then n else p

/-- kiss_fft.c 319-327: the loop ends with a divisor of n; `none` if it does not end within the given number of rounds. -/
def findP (n floorSqrt : Nat) : Nat → Nat → Option Nat
  | 0, _ => none
  | fuel + 1, p => if n % p ≠ 0 then findP n floorSqrt fuel (nextP n floorSqrt p) else some p

/-- kiss_fft.c 317-331 -/
def factorLoop (floorSqrt : Nat) : Nat → Nat → Nat → Option (List (Nat × Nat))
  | 0, _, _ => none
  | fuel + 1, n, p =>
    (findP n floorSqrt (floorSqrt + 5) p).bind fun p =>
      if n / p > 1 then (factorLoop floorSqrt fuel (n / p) p).map ((p, n / p) :: ·)
      else some [(p, n / p)]

/-- kiss_fft.c 311-332; the pairs go to `int factors[2*MAXFACTORS]` of 32 pairs, more would be written outside. -/
def factor (n : Nat) : Option (List (Nat × Nat)) := factorLoop (Nat.sqrt n) 33 n 4

/-- kiss_fft.c 359-365 -/
noncomputable def twiddle (nfft : Nat) (inverse : Bool) (i : Nat) : ℂ :=
  let phase : ℝ := -2 * Real.pi * i / nfft
  let phase := if inverse then phase * -1 else phase
  ⟨Real.cos phase, Real.sin phase⟩

/-- kiss_fft.c 341-370 with enough memory.  `nfft` is an `int`. -/
noncomputable def alloc {μ : Type} (nfft : Nat) (inverse : Bool) : M μ Cfg := do
  let factors ← orUb (factor nfft)
  if factors.length ≤ 32 then pure ⟨nfft, inverse, factors, ⟨nfft, twiddle nfft inverse⟩⟩ else ubE

/-- kiss_fft.c 373-387 where input and output are different buffers. -/
noncomputable def fftStride (st : Cfg) (f : Arr ℂ) (i o inStride : Nat) : M (Arr ℂ) Unit :=
  work st f inStride st.factors o i 1

/-! ### Two dimensions -/

/-- `struct kiss_fftnd_state` for two dimensions (kiss_fftnd.c 20-26) -/
structure Plan where
  dimprod : Nat
  state0 : Cfg
  state1 : Cfg
  tmpbuf : Arr ℂ

/-- kiss_fftnd.c 28-97 for two dimensions with enough memory; `junk` is what the allocated memory contains.  The product is an `int`. -/
noncomputable def planAlloc (dim0 dim1 : Nat) (inverse : Bool) (junk : Nat → ℂ) : M Unit Plan := do
  if dim0 * dim1 < 2147483648 then do
    let s0 ← alloc dim0 inverse
    let s1 ← alloc dim1 inverse
    pure ⟨dim0 * dim1, s0, s1, ⟨dim0 * dim1, junk⟩⟩
  else ubE

/-- Work on a buffer and give the new contents. Not in the code: machinery of the model. -/
def onBuf {μ : Type} (x : M (Arr ℂ) Unit) (a : Arr ℂ) : M μ (Arr ℂ) := fun m =>
  match x a with
  | .ok _ a' => .ok a' m
  | .throw _ => .throw m
  | .ub => .ub

/-- kiss_fftnd.c 178-182: one dimension. -/
noncomputable def stage (dimprod : Nat) (st : Cfg) (bufin : Arr ℂ) : M (Arr ℂ) Unit :=
  let stride := dimprod / st.nfft
  forN stride fun i => fftStride st bufin i (i * st.nfft) stride

/-- kiss_fftnd.c 160-193 for two dimensions: the first goes to `tmpbuf`, the second from there to `fout`.  The new contents of `fout`. -/
noncomputable def nd (pl : Plan) (fin fout : Arr ℂ) : M Unit (Arr ℂ) := do
  let tmp ← onBuf (stage pl.dimprod pl.state0 fin) pl.tmpbuf
  onBuf (stage pl.dimprod pl.state1 tmp) fout

/-- A `ComplexData` object with exact numbers (see Fft.lean). src/math/fft_base.h 113-115. -/
structure CData where
  width : Nat
  height : Nat
  data : Option (Arr ℂ)

/-- `FFTExecutor`; a plan whose allocation failed is a null pointer. src/fft.h 76-77. -/
structure Executor where
  width : Nat
  height : Nat
  direct : Option Plan
  inverse : Option Plan

/-- What the allocations of the two plans give: `none` if malloc fails, else what the memory contains. src/fft.cpp 206-207. -/
structure Mallocs where
  direct : Option (Nat → ℂ)
  inverse : Option (Nat → ℂ)

/-- `kiss_fftnd_alloc` of src/fft.cpp 206 or 207 -/
noncomputable def makePlan (w h : Nat) (inverse : Bool) : Option (Nat → ℂ) → M Unit (Option Plan)
  | none => pure none
  | some junk => do
    let p ← planAlloc w h inverse junk
    pure (some p)

/-- src/math/fft_base.cpp 33-42 with _makePlans of src/fft.cpp 203-208.  Called by the constructor (src/fft.cpp 143-148) too. -/
noncomputable def init (mal : Mallocs) (w h : Nat) : M Unit Executor := do
  throwIf (w == 0 || h == 0)
  let d ← makePlan w h false mal.direct
  let i ← makePlan w h true mal.inverse
  pure ⟨w, h, d, i⟩

/-- src/fft.cpp 160-166 and 173-179; the overloads of one parameter call it with the same object twice. -/
noncomputable def transform (e : Executor) (plan : Option Plan) (input output : CData) : M Unit CData := do
  throwIf (plan.isNone || !(e.width == input.width && e.height == input.height) || !(input.width == output.width && input.height == output.height))
  let pl ← orUb plan
  let a ← orUb input.data
  let b ← orUb output.data
  let c ← nd pl a b
  pure { output with data := some c }

/-- src/fft.cpp 160-166. -/
noncomputable def directTransform (e : Executor) (input output : CData) : M Unit CData := transform e e.direct input output

/-- src/fft.cpp 173-179. -/
noncomputable def inverseTransform (e : Executor) (input output : CData) : M Unit CData := transform e e.inverse input output

/-- src/fft.cpp 181-201 with exact numbers.  (Rounding, and objects given twice: `PV.Fft.complexMultiplication`.) -/
noncomputable def multiplication (in1 in2 out : CData) : M Unit CData := do
  throwIf (!(in1.width == in2.width && in1.height == in2.height) || !(in1.width == out.width && in1.height == out.height) || in1.width == 0 || in1.height == 0)
  let a ← orUb in1.data
  let b ← orUb in2.data
  let c ← orUb out.data
  let c ← onBuf (forN (u32 (in1.width * in1.height)) fun k => do
    let p ← a.rd k
    let q ← b.rd k
    wrF k (p * q)) c
  pure { out with data := some c }

end PV.Kiss
