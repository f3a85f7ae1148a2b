import Verif.Kiss
/-
  The Fourier transforms of Kiss.lean with rounded arithmetic: src/thirdparty/kissfft/kiss_fft.c, kiss_fftnd.c (two dimensions) and the
  executor of src/fft.cpp 143-201.

  A `kiss_fft_scalar` is a `float` (src/thirdparty/kissfft/kiss_fft.h 45-47): every operation on two of them gives the exact result
  rounded by `rnd` (no fused operations, no overflow to infinity, no underflow).  The twiddle factors are a table `tab`, see `twiddle`
  for what the code writes into it.  Everything else is as in Kiss.lean; with `rnd` the
  identity and the exact table the programs are those of Kiss.lean (`PV.Props.C178_exact`).
-/
namespace PV.KissFl
open PV PV.Kiss

/-- `C_MUL`. src/thirdparty/kissfft/_kiss_fft_guts.h 87-89. -/
def cmul (rnd : ℝ → ℝ) (a b : ℂ) : ℂ :=
  ⟨rnd (rnd (a.re * b.re) - rnd (a.im * b.im)), rnd (rnd (a.re * b.im) + rnd (a.im * b.re))⟩

/-- `C_ADD`, `C_ADDTO`. src/thirdparty/kissfft/_kiss_fft_guts.h 100-105, 112-117. -/
def cadd (rnd : ℝ → ℝ) (a b : ℂ) : ℂ := ⟨rnd (a.re + b.re), rnd (a.im + b.im)⟩

/-- `C_SUB`. src/thirdparty/kissfft/_kiss_fft_guts.h 106-111. -/
def csub (rnd : ℝ → ℝ) (a b : ℂ) : ℂ := ⟨rnd (a.re - b.re), rnd (a.im - b.im)⟩

/-- kiss_fft.c 21-42 -/
def bfly2 (rnd : ℝ → ℝ) (o fstride : Nat) (st : Cfg) (m : Nat) : M (Arr ℂ) Unit :=
  doN m fun u => do
    let a ← rdF (o + u)
    let b ← rdF (o + m + u)
    let w ← st.twiddles.rd (u * fstride)
    let t := cmul rnd b w
    wrF (o + m + u) (csub rnd a t)
    wrF (o + u) (cadd rnd a t)

/-- kiss_fft.c 75-85: the values of `Fout[ m ]` and `Fout[ m3 ]` from `scratch[ 5 ]` and `scratch[ 4 ]`; `plus` is the branch of
    `Fout[ m ]` with `st->inverse`. -/
def turn (rnd : ℝ → ℝ) (plus : Bool) (s5 s4 : ℂ) : ℂ :=
  if plus then ⟨rnd (s5.re - s4.im), rnd (s5.im + s4.re)⟩ else ⟨rnd (s5.re + s4.im), rnd (s5.im - s4.re)⟩

/-- kiss_fft.c 44-90 -/
def bfly4 (rnd : ℝ → ℝ) (o fstride : Nat) (st : Cfg) (m : Nat) : M (Arr ℂ) Unit :=
  doN m fun u => do
    let f0 ← rdF (o + u)
    let f1 ← rdF (o + u + m)
    let f2 ← rdF (o + u + 2 * m)
    let f3 ← rdF (o + u + 3 * m)
    let tw1 ← st.twiddles.rd (u * fstride)
    let tw2 ← st.twiddles.rd (u * (fstride * 2))
    let tw3 ← st.twiddles.rd (u * (fstride * 3))
    let s0 := cmul rnd f1 tw1
    let s1 := cmul rnd f2 tw2
    let s2 := cmul rnd f3 tw3
    let s5 := csub rnd f0 s1
    let f0 := cadd rnd f0 s1
    let s3 := cadd rnd s0 s2
    let s4 := csub rnd s0 s2
    wrF (o + u + 2 * m) (csub rnd f0 s3)
    wrF (o + u) (cadd rnd f0 s3)
    wrF (o + u + m) (turn rnd st.inverse s5 s4)
    wrF (o + u + 3 * m) (turn rnd (!st.inverse) s5 s4)

/-- kiss_fft.c 92-134; HALF_OF is a product by 0.5f (_kiss_fft_guts.h 138). -/
noncomputable def bfly3 (rnd : ℝ → ℝ) (o fstride : Nat) (st : Cfg) (m : Nat) : M (Arr ℂ) Unit := do
  let epi3 ← st.twiddles.rd (fstride * m)
  doN m fun u => do
    let f0 ← rdF (o + u)
    let f1 ← rdF (o + u + m)
    let f2 ← rdF (o + u + 2 * m)
    let tw1 ← st.twiddles.rd (u * fstride)
    let tw2 ← st.twiddles.rd (u * (fstride * 2))
    let s1 := cmul rnd f1 tw1
    let s2 := cmul rnd f2 tw2
    let s3 := cadd rnd s1 s2
    let s0 := csub rnd s1 s2
    let g : ℂ := ⟨rnd (f0.re - rnd (s3.re * (1 / 2))), rnd (f0.im - rnd (s3.im * (1 / 2)))⟩
    let s0 : ℂ := ⟨rnd (s0.re * epi3.im), rnd (s0.im * epi3.im)⟩
    wrF (o + u) (cadd rnd f0 s3)
    wrF (o + u + 2 * m) ⟨rnd (g.re + s0.im), rnd (g.im - s0.re)⟩
    wrF (o + u + m) ⟨rnd (g.re - s0.im), rnd (g.im + s0.re)⟩

/-- kiss_fft.c 136-194 -/
def bfly5 (rnd : ℝ → ℝ) (o fstride : Nat) (st : Cfg) (m : Nat) : M (Arr ℂ) Unit := do
  let ya ← st.twiddles.rd (fstride * m)
  let yb ← st.twiddles.rd (fstride * 2 * m)
  forN m fun u => do
    let s0 ← rdF (o + u)
    let f1 ← rdF (o + u + m)
    let f2 ← rdF (o + u + 2 * m)
    let f3 ← rdF (o + u + 3 * m)
    let f4 ← rdF (o + u + 4 * m)
    let tw1 ← st.twiddles.rd (u * fstride)
    let tw2 ← st.twiddles.rd (2 * u * fstride)
    let tw3 ← st.twiddles.rd (3 * u * fstride)
    let tw4 ← st.twiddles.rd (4 * u * fstride)
    let s1 := cmul rnd f1 tw1
    let s2 := cmul rnd f2 tw2
    let s3 := cmul rnd f3 tw3
    let s4 := cmul rnd f4 tw4
    let s7 := cadd rnd s1 s4
    let s10 := csub rnd s1 s4
    let s8 := cadd rnd s2 s3
    let s9 := csub rnd s2 s3
    wrF (o + u) ⟨rnd (s0.re + rnd (s7.re + s8.re)), rnd (s0.im + rnd (s7.im + s8.im))⟩
    let s5 : ℂ := ⟨rnd (rnd (s0.re + rnd (s7.re * ya.re)) + rnd (s8.re * yb.re)), rnd (rnd (s0.im + rnd (s7.im * ya.re)) + rnd (s8.im * yb.re))⟩
    let s6 : ℂ := ⟨rnd (rnd (s10.im * ya.im) + rnd (s9.im * yb.im)), rnd (-rnd (s10.re * ya.im) - rnd (s9.re * yb.im))⟩
    wrF (o + u + m) (csub rnd s5 s6)
    wrF (o + u + 4 * m) (cadd rnd s5 s6)
    let s11 : ℂ := ⟨rnd (rnd (s0.re + rnd (s7.re * yb.re)) + rnd (s8.re * ya.re)), rnd (rnd (s0.im + rnd (s7.im * yb.re)) + rnd (s8.im * ya.re))⟩
    let s12 : ℂ := ⟨rnd (-rnd (s10.im * yb.im) + rnd (s9.im * ya.im)), rnd (rnd (s10.re * yb.im) - rnd (s9.re * ya.im))⟩
    wrF (o + u + 2 * m) (cadd rnd s11 s12)
    wrF (o + u + 3 * m) (csub rnd s11 s12)

/-- The loop of kiss_fft.c 224-229 after r rounds: `twidx`. -/
def genericSum (rnd : ℝ → ℝ) (o fstride : Nat) (st : Cfg) (k : Nat) (scratch : List ℂ) : Nat → M (Arr ℂ) Nat
  | 0 => pure 0
  | r + 1 => do
    let twidx ← genericSum rnd o fstride st k scratch r
    let twidx ← nextTw fstride k st.nfft twidx
    let s ← orUb scratch[r + 1]?
    let w ← st.twiddles.rd twidx
    let v ← rdF (o + k)
    wrF (o + k) (cadd rnd v (cmul rnd s w))
    pure twidx

/-- kiss_fft.c 222-229 -/
def genericOut (rnd : ℝ → ℝ) (o fstride : Nat) (st : Cfg) (k p : Nat) (scratch : List ℂ) : M (Arr ℂ) Unit := do
  let s ← orUb scratch[0]?
  wrF (o + k) s
  let _ ← genericSum rnd o fstride st k scratch (p - 1)
  pure ()

/-- kiss_fft.c 196-234 -/
def bflyGeneric (rnd : ℝ → ℝ) (o fstride : Nat) (st : Cfg) (m p : Nat) : M (Arr ℂ) Unit :=
  forN m fun u => do
    let scratch ← gather (o + u) m p
    forN p fun q1 => genericOut rnd o fstride st (u + q1 * m) p scratch

/-- kiss_fft.c 297-304 -/
noncomputable def bfly (rnd : ℝ → ℝ) (o fstride : Nat) (st : Cfg) (m p : Nat) : M (Arr ℂ) Unit :=
  match p with
  | 2 => bfly2 rnd o fstride st m
  | 3 => bfly3 rnd o fstride st m
  | 4 => bfly4 rnd o fstride st m
  | 5 => bfly5 rnd o fstride st m
  | p => bflyGeneric rnd o fstride st m p

/-- kiss_fft.c 236-305 without the OpenMP branch. -/
noncomputable def work (rnd : ℝ → ℝ) (st : Cfg) (f : Arr ℂ) (inStride : Nat) : List (Nat × Nat) → (o i fstride : Nat) → M (Arr ℂ) Unit
  | [], _, _, _ => ubE
  | (p, m) :: factors, o, i, fstride => do
    doN p fun q =>
      if m = 1 then do
        let v ← f.rd (i + q * (fstride * inStride))
        wrF (o + q) v
      else work rnd st f inStride factors (o + q * m) (i + q * (fstride * inStride)) (fstride * p)
    bfly rnd o fstride st m p

/-- kiss_fft.c 359-365 and _kiss_fft_guts.h 136-137, 141-145: `rd` rounds to `double`, `fl` to `float`; `cosD` and `sinD` are the functions of
    the library.  The conversions of `i` and `nfft` to `double` are exact. -/
noncomputable def twiddle (rd fl cosD sinD : ℝ → ℝ) (nfft : Nat) (inverse : Bool) (i : Nat) : ℂ :=
  let pi := rd 3.141592653589793238462643383279502884197169399375105820974944
  let phase := rd (rd (rd (-2 * pi) * i) / nfft)
  let phase := if inverse then rd (phase * -1) else phase
  ⟨fl (cosD phase), fl (sinD phase)⟩

/-- kiss_fft.c 341-370 with enough memory; `tab nfft inverse i` is what is written to `twiddles[ i ]`. -/
def alloc {μ : Type} (tab : Nat → Bool → Nat → ℂ) (nfft : Nat) (inverse : Bool) : M μ Cfg := do
  let factors ← orUb (factor nfft)
  if factors.length ≤ 32 then pure ⟨nfft, inverse, factors, ⟨nfft, tab nfft inverse⟩⟩ else ubE

/-- kiss_fft.c 373-387 where input and output are different buffers. -/
noncomputable def fftStride (rnd : ℝ → ℝ) (st : Cfg) (f : Arr ℂ) (i o inStride : Nat) : M (Arr ℂ) Unit :=
  work rnd st f inStride st.factors o i 1

/-- kiss_fftnd.c 28-97 for two dimensions with enough memory; `junk` is what the allocated memory contains. -/
def planAlloc (tab : Nat → Bool → Nat → ℂ) (dim0 dim1 : Nat) (inverse : Bool) (junk : Nat → ℂ) : M Unit Plan := do
  if dim0 * dim1 < 2147483648 then do
    let s0 ← alloc tab dim0 inverse
    let s1 ← alloc tab dim1 inverse
    pure ⟨dim0 * dim1, s0, s1, ⟨dim0 * dim1, junk⟩⟩
  else ubE

/-- kiss_fftnd.c 178-182: one dimension. -/
noncomputable def stage (rnd : ℝ → ℝ) (dimprod : Nat) (st : Cfg) (bufin : Arr ℂ) : M (Arr ℂ) Unit :=
  let stride := dimprod / st.nfft
  forN stride fun i => fftStride rnd st bufin i (i * st.nfft) stride

/-- kiss_fftnd.c 160-193 for two dimensions. -/
noncomputable def nd (rnd : ℝ → ℝ) (pl : Plan) (fin fout : Arr ℂ) : M Unit (Arr ℂ) := do
  let tmp ← onBuf (stage rnd pl.dimprod pl.state0 fin) pl.tmpbuf
  onBuf (stage rnd pl.dimprod pl.state1 tmp) fout

/-- `kiss_fftnd_alloc` of src/fft.cpp 206 or 207 -/
def makePlan (tab : Nat → Bool → Nat → ℂ) (w h : Nat) (inverse : Bool) : Option (Nat → ℂ) → M Unit (Option Plan)
  | none => pure none
  | some junk => do
    let p ← planAlloc tab w h inverse junk
    pure (some p)

/-- src/math/fft_base.cpp 33-42 with _makePlans of src/fft.cpp 203-208. -/
def init (tab : Nat → Bool → Nat → ℂ) (mal : Mallocs) (w h : Nat) : M Unit Executor := do
  throwIf (w == 0 || h == 0)
  let d ← makePlan tab w h false mal.direct
  let i ← makePlan tab w h true mal.inverse
  pure ⟨w, h, d, i⟩

/-- src/fft.cpp 160-166 and 173-179. -/
noncomputable def transform (rnd : ℝ → ℝ) (e : Executor) (plan : Option Plan) (input output : CData) : M Unit CData := do
  throwIf (plan.isNone || !(e.width == input.width && e.height == input.height) || !(input.width == output.width && input.height == output.height))
  let pl ← orUb plan
  let a ← orUb input.data
  let b ← orUb output.data
  let c ← nd rnd pl a b
  pure { output with data := some c }

/-- src/fft.cpp 160-166. -/
noncomputable def directTransform (rnd : ℝ → ℝ) (e : Executor) (input output : CData) : M Unit CData := transform rnd e e.direct input output

/-- src/fft.cpp 173-179. -/
noncomputable def inverseTransform (rnd : ℝ → ℝ) (e : Executor) (input output : CData) : M Unit CData := transform rnd e e.inverse input output

/-- src/fft.cpp 181-201.  (Objects given twice: `PV.Fft.complexMultiplication`.) -/
def multiplication (rnd : ℝ → ℝ) (in1 in2 out : CData) : M Unit CData := do
  throwIf (!(in1.width == in2.width && in1.height == in2.height) || !(in1.width == out.width && in1.height == out.height) || in1.width == 0 || in1.height == 0)
  let a ← orUb in1.data
  let b ← orUb in2.data
  let c ← orUb out.data
  let c ← onBuf (forN (u32 (in1.width * in1.height)) fun k => do
    let p ← a.rd k
    let q ← b.rd k
    wrF k (cmul rnd p q)) c
  pure { out with data := some c }

end PV.KissFl
