import Mathlib.Data.Real.Archimedean
import Verif.CudaGaussLemmas
import Verif.CudaGaussSums
import Verif.PropsCudaFft
import Verif.PropsGauss
import Verif.PropsKiss
/-
  C157: the Gaussian filter on CUDA devices.
-/
namespace PV.Props
open PV PV.CudaFft PV.CudaGauss Finset

/-! ### Specification -/

/-- The complex number with the given parts -/
def toC (v : ℝ × ℝ) : ℂ := ⟨v.1, v.2⟩

/-- The library computes Fourier transforms of nx rows of ny values, exactly. -/
def ExactFft (T : Cufft ℝ) : Prop := ∀ inverse nx ny f i k, i < nx → k < ny →
  toC (T inverse nx ny f (i * ny + k)) = fourier (if inverse then 1 else -1) ny nx (fun j => toC (f j)) k i

/-- The mean of the (2k + 1) x (2k + 1) pixels around column x and row y of an image of w x h pixels continued periodically, with the
    weights of C79. -/
noncomputable def blur (ex : ℚ → ℚ) (sigma : ℚ) (k w h : Nat) (f : Nat → Nat → ℝ) (x y : Nat) : ℝ :=
  ∑ dy ∈ range (2 * k + 1), ∑ dx ∈ range (2 * k + 1), f ((x + w + k - dx) % w) ((y + h + k - dy) % h) *
    ((weight ex sigma ((dx : Int) - k) ((dy : Int) - k) / weightSum ex sigma k : ℚ) : ℝ)

/-- A call of the function with a gray-scale image whose rows have no padding; the new blocks are different from each other and from
    the block of the image. -/
structure GaussReady (m : Mem ℝ) (d : CudaDevice) (bs : Blocks) (inp out : Image) (k : Nat) : Prop where
  gray : GrayImg m inp
  row : inp.rowSize = inp.width
  bytes : ∀ i, 0 ≤ m.byte inp.data i ∧ m.byte inp.data i ≤ 255
  out : out.data ≠ 0 ∧ (out.cc = 1 ∨ out.cc = 3 ∨ out.cc = 4) ∧ out.width = inp.width ∧ out.height = inp.height
  serves : d.Serves inp.width inp.height
  size : GaussSize inp.width inp.height k
  blocks : bs.image ≠ 0 ∧ bs.vector ≠ 0 ∧ bs.filter ≠ 0 ∧ bs.result ≠ 0
  fresh : inp.data ≠ bs.image ∧ inp.data ≠ bs.vector ∧ inp.data ≠ bs.filter ∧ inp.data ≠ bs.result
  apart : bs.image ≠ bs.vector ∧ bs.image ≠ bs.filter ∧ bs.image ≠ bs.result ∧ bs.vector ≠ bs.filter ∧ bs.vector ≠ bs.result ∧ bs.filter ≠ bs.result

/-! ### Helpers -/

/-- Number i of the kernel -/
def kernelAt (ex : ℚ → ℚ) (w h k : Nat) (sigma : ℚ) (i : Nat) : ℚ :=
  if w / 2 ≤ i % w + k ∧ i % w ≤ w / 2 + k ∧ h / 2 ≤ i / w + k ∧ i / w ≤ h / 2 + k
  then weight ex sigma ((i % w : Nat) - (w / 2 : Nat)) ((i / w : Nat) - (h / 2 : Nat)) / weightSum ex sigma k
  else 0

theorem kernelAt_nonneg {ex : ℚ → ℚ} (hex : ∀ q, 0 < ex q) (w h k : Nat) (sigma : ℚ) (i : Nat) : 0 ≤ kernelAt ex w h k sigma i := by
  rw [kernelAt]
  split
  · exact div_nonneg (hex _).le (weightSum_pos hex _ _).le
  · exact le_refl _

theorem divmod_at {w x y : Nat} (hx : x < w) : (y * w + x) % w = x ∧ (y * w + x) / w = y := by
  constructor
  · rw [Nat.add_comm, Nat.add_mul_mod_self_right, Nat.mod_eq_of_lt hx]
  · rw [Nat.add_comm, Nat.add_mul_div_right _ _ (by omega), Nat.div_eq_of_lt hx, Nat.zero_add]

theorem div_lt_of {w h i : Nat} (hi : i < w * h) : i % w < w ∧ i / w < h ∧ i / w * w + i % w = i := by
  have hw : 0 < w := Nat.pos_of_ne_zero fun h => by rw [h, Nat.zero_mul] at hi; omega
  refine ⟨Nat.mod_lt _ hw, ?_, ?_⟩
  · rw [Nat.div_lt_iff_lt_mul hw, Nat.mul_comm]
    exact hi
  · rw [Nat.mul_comm, Nat.div_add_mod]

/-- The vector of C79 -/
theorem host_kernel {ex : ℚ → ℚ} (hex : ∀ q, 0 < ex q) {w h k : Nat} (s : GaussSize w h k) {sigma : ℚ} (hs : 0 < sigma) (m : Mem ℝ) :
    ∃ v : Mem ℚ, hostKernel ex w h k sigma m = .ok v m ∧ v.size 1 = w * h ∧ (∀ i, i < w * h → v.byte 1 i = kernelAt ex w h k sigma i) ∧
      ∑ i ∈ range (h * w), v.byte 1 i = 1 := by
  obtain ⟨v, h1, h2, h3⟩ := C79_gauss_partial hex s hs ⟨fun _ => 0, fun _ _ => 0⟩
  refine ⟨v, ?_, h2.length, fun i hi => ?_, ?_⟩
  · rw [hostKernel, h1]
  · obtain ⟨q1, q2, q3⟩ := div_lt_of hi
    have := h2.value _ _ q1 q2
    rw [q3] at this
    exact this
  · rw [← h3, Finset.sum_range, ← List.sum_ofFn, List.ofFn_eq_map, ← List.map_coe_finRange_eq_range, List.map_map]
    rfl

/-- `GetGaussianKernel` of the device -/
theorem gaussKernel_ok {ex : ℚ → ℚ} (hex : ∀ q, 0 < ex q) {order : Order ℝ} (ho : Complete order) {d : CudaDevice} {bs : Blocks} {w h k : Nat}
    (sv : d.Serves w h) (s : GaussSize w h k) {sigma : ℚ} (hs : 0 < sigma) (hv : bs.vector ≠ 0) (hf : bs.filter ≠ 0) (hne : bs.vector ≠ bs.filter) (m : Mem ℝ) :
    ∃ m', gaussKernel ex order d bs w h k sigma m = .ok ⟨w, h, bs.filter⟩ m' ∧ Cplx m' ⟨w, h, bs.filter⟩ ∧
      (∀ i, i < w * h → cplx m' bs.filter i = ((kernelAt ex w h k sigma i : ℝ), 0)) ∧
      (∀ b, b ≠ bs.vector → b ≠ bs.filter → m'.size b = m.size b ∧ ∀ i, m'.byte b i = m.byte b i) ∧
      ∑ i ∈ range (h * w), kernelAt ex w h k sigma i = 1 := by
  obtain ⟨v, v1, v2, v3, v4⟩ := host_kernel hex s hs m
  have hw : 0 < w := by have := s.hw; omega
  have hh : 0 < h := by have := s.hh; omega
  obtain ⟨m2, hm2⟩ : ∃ m2 : Mem ℝ, m2 = ⟨fun k => if k = bs.vector then v.size 1 else m.size k, fun k i => if k = bs.vector then (v.byte 1 i : ℝ) else m.byte k i⟩ := ⟨_, rfl⟩
  have hu : upload bs.vector v m = .ok () m2 := by rw [hm2]; rfl
  obtain ⟨m3, hm3⟩ : ∃ m3 : Mem ℝ, m3 = { m2 with size := fun k => if k = bs.filter then 2 * (w * h) else m2.size k } := ⟨_, rfl⟩
  have hn : newBlock bs.filter (2 * u32 (w * h)) m2 = .ok () m3 := by rw [hm3, u32_of_lt s.small]; rfl
  have hc : Cplx m3 ⟨w, h, bs.filter⟩ := ⟨hf, hw, hh, s.small, by rw [hm3]; exact if_pos rfl⟩
  have hsz : m3.size bs.vector = w * h := by
    rw [hm3, hm2]
    show (if bs.vector = bs.filter then _ else if bs.vector = bs.vector then _ else _) = _
    rw [if_neg hne, if_pos rfl, v2]
  have hby : ∀ i, m3.byte bs.vector i = (v.byte 1 i : ℝ) := fun i => by
    rw [hm3, hm2]
    exact if_pos rfl
  obtain ⟨L, l1, l2⟩ := C144_set_array (d := d) hc hv hne hsz sv
  obtain ⟨m4, w1, w2, w3, w4⟩ := wait_ok ho l2
  refine ⟨m4, ?_, w2, fun i hi => ?_, fun b hb1 hb2 => ?_, ?_⟩
  · rw [gaussKernel, bind_ok v1, bind_ok hu, bind_ok hn, v2]
    refine (bind_ok l1).trans ?_
    rw [bind_ok w1]
    rfl
  · obtain ⟨q1, q2, q3⟩ := div_lt_of hi
    obtain ⟨e1, e2⟩ := w4 _ _ q1 q2
    rw [reAt] at e1
    rw [imAt] at e2
    simp only [q3] at e1 e2
    rw [cplx, e1, e2, hby, v3 i hi]
  · obtain ⟨e1, e2⟩ := w3 b hb2
    rw [e1, hm3, hm2]
    refine ⟨?_, fun i => ?_⟩
    · show (if b = bs.filter then _ else if b = bs.vector then _ else _) = _
      rw [if_neg hb2, if_neg hb1]
    · rw [e2, hm3, hm2]
      exact if_neg hb1
  · rw [← v4]
    exact Finset.sum_congr rfl fun i hi => (v3 i (by have := Finset.mem_range.1 hi; rw [Nat.mul_comm]; exact this)).symm

/-- The product in place, as the filter calls it: the imaginary part is made with the real part which was just stored. -/
theorem C157_product_exact (rnd : ℝ → ℝ) {order : Order ℝ} (ho : Complete order) {d : CudaDevice} {w h p q : Nat} {m : Mem ℝ} (sv : d.Serves w h) (hp : Cplx m ⟨w, h, p⟩) (hq : Cplx m ⟨w, h, q⟩) (hne : q ≠ p) :
    ∃ L m', complexMultiplication rnd d w h ⟨w, h, p⟩ ⟨w, h, q⟩ ⟨w, h, p⟩ m = .ok L m ∧ wait order L m = .ok () m' ∧ m'.size = m.size ∧
      (∀ i, i < w * h → (cplx m' p i).1 = rnd (rnd ((cplx m p i).1 * (cplx m q i).1) - rnd ((cplx m p i).2 * (cplx m q i).2)) ∧
        (cplx m' p i).2 = rnd (rnd ((cplx m' p i).1 * (cplx m q i).2) + rnd ((cplx m p i).2 * (cplx m q i).1))) ∧
      ∀ b, b ≠ p → ∀ i, m'.byte b i = m.byte b i := by
  obtain ⟨L, e, hk, hL⟩ := vlaunch2D_ok (μ := Mem ℝ) sv hp.wpos hp.hpos (vguarded w h (multiply rnd p q p w))
  have s1 : m.size p = 2 * (w * h) := hp.size
  have s2 : m.size q = 2 * (w * h) := hq.size
  obtain ⟨m', w1, w2, w3, w4⟩ := wait_ok ho (multiply_alias_always (m := m) (rnd := rnd) hp.data hq.data hne hp.small s1.ge s2.ge hL hk)
  refine ⟨L, m', ?_, w1, w2, fun i hi => w3 i hi, fun b hb i => w4 b i fun h => hb h.1⟩
  have h1 : (!(w == w && h == h) || !(w == w && h == h) || w == 0 || h == 0) = false := by
    have h1 : (w == 0) = false := by simpa using hp.wpos.ne'
    have h2 : (h == 0) = false := by simpa using hp.hpos.ne'
    rw [h1, h2]
    simp
  rw [complexMultiplication, h1, throwIf_false, pure_bind', e]
  rfl

theorem fourier_congr {sign : ℂ} {w h : Nat} {f g : Nat → ℂ} (hfg : ∀ j, j < h * w → f j = g j) (u v : Nat) : fourier sign w h f u v = fourier sign w h g u v := by
  rw [fourier, fourier]
  refine Finset.sum_congr rfl fun y hy => Finset.sum_congr rfl fun x hx => ?_
  rw [hfg _ (mul_add_lt (Finset.mem_range.1 hy) (Finset.mem_range.1 hx))]

/-- The inverse transform of a product of transforms -/
theorem conv_inverse {w h : Nat} (hw : 0 < w) (hh : 0 < h) {f g P : Nat → ℂ}
    (hP : ∀ u v, u < w → v < h → P (v * w + u) = fourier (-1) w h f u v * fourier (-1) w h g u v) {x y : Nat} (hx : x < w) (hy : y < h) :
    fourier 1 w h P x y = (w * h : ℂ) * cyclic w h f g x y := by
  have hconv := fun u v => Kiss.dftR_conv (w := w) (h := h) (Kiss.root_one false hw) (Kiss.root_one false hh) (f := f) (g := g)
    (c := fun j => cyclic w h f g (j % w) (j / w)) (fun x y hx _ => by rw [(divmod_at hx).1, (divmod_at hx).2, cyclic]) u v
  rw [← dftR_inv w h, Kiss.dftR_inverse (f := fun j => cyclic w h f g (j % w) (j / w)) (fun u v hu hv => ?_) hx hy]
  · rw [(divmod_at hx).1, (divmod_at hx).2]
  · rw [hconv, hP u v hu hv, dftR_direct, dftR_direct]

theorem cyclic_real (w h : Nat) (f g : Nat → ℝ) (x y : Nat) : cyclic w h (fun j => (f j : ℂ)) (fun j => (g j : ℂ)) x y = (cyclicR w h f g x y : ℂ) := by
  rw [cyclic, cyclicR]
  push_cast
  rfl

theorem toC_real (r : ℝ) : toC (r, 0) = (r : ℂ) := rfl

/-- The product in place is the product if the imaginary part of the second factor is 0, or if the first factor is 0. -/
theorem alias_product {a b r : ℝ × ℝ} (h1 : r.1 = a.1 * b.1 - a.2 * b.2) (h2 : r.2 = r.1 * b.2 + a.2 * b.1) (h : (toC b).im = 0 ∨ toC a = 0) :
    toC r = toC a * toC b := by
  rcases h with h | h
  · have h : b.2 = 0 := h
    rw [h] at h1 h2
    refine Complex.ext ?_ ?_
    · rw [Complex.mul_re]
      show r.1 = a.1 * b.1 - a.2 * b.2
      rw [h1, h]
    · rw [Complex.mul_im]
      show r.2 = a.1 * b.2 + a.2 * b.1
      rw [h2, h]
      ring
  · have ha1 : a.1 = 0 := congrArg Complex.re h
    have ha2 : a.2 = 0 := congrArg Complex.im h
    rw [ha1, ha2] at h1
    rw [ha2, h1] at h2
    rw [h, zero_mul]
    refine Complex.ext ?_ ?_
    · show r.1 = 0
      rw [h1]
      ring
    · show r.2 = 0
      rw [h2]
      ring

theorem ready_valid {m : Mem ℝ} {d : CudaDevice} {bs : Blocks} {inp out : Image} {k : Nat} (r : GaussReady m d bs inp out k) : validateImages2 inp out m = .ok () m := by
  obtain ⟨o1, o2, o3, o4⟩ := r.out
  have : (inp.empty || out.empty || !isCorrectColorCount inp || !isCorrectColorCount out || inp.width != out.width || inp.height != out.height) = false := by
    have e1 : inp.empty = false := by simpa [Image.empty] using r.gray.data
    have e2 : out.empty = false := by simpa [Image.empty] using o1
    have e3 : isCorrectColorCount inp = true := by simp [isCorrectColorCount, r.gray.gray]
    have e4 : isCorrectColorCount out = true := by
      rcases o2 with h | h | h <;> simp [isCorrectColorCount, h]
    rw [e1, e2, e3, e4, o3, o4]
    simp
  rw [validateImages2, this]
  rfl

/-- The whole function for even sizes, if at every frequency the kernel's transform is real or the image's transform is 0. -/
theorem gaussian_run {T : Cufft ℝ} (hT : ExactFft T) {ex : ℚ → ℚ} (hex : ∀ q, 0 < ex q) {order : Order ℝ} (ho : Complete order) {d : CudaDevice} {bs : Blocks}
    {inp out : Image} {k : Nat} {sigma : ℚ} (hs : 0 < sigma) {m : Mem ℝ} (r : GaussReady m d bs inp out k) (hw2 : inp.width % 2 = 0) (hh2 : inp.height % 2 = 0)
    (hal : ∀ i j, i < inp.width → j < inp.height →
      (fourier (-1) inp.height inp.width (fun i => ((kernelAt ex inp.width inp.height k sigma i : ℝ) : ℂ)) j i).im = 0 ∨
      fourier (-1) inp.height inp.width (fun i => (m.byte inp.data i : ℂ)) j i = 0) :
    ∃ m', Gaussian T ex id order d bs inp out k sigma m = .ok ⟨bs.result, inp.width, inp.height, 1, inp.width⟩ m' ∧
      GrayImg m' ⟨bs.result, inp.width, inp.height, 1, inp.width⟩ ∧
      (∀ b, b ≠ bs.image → b ≠ bs.vector → b ≠ bs.filter → b ≠ bs.result → m'.size b = m.size b ∧ ∀ i, m'.byte b i = m.byte b i) ∧
      ∀ x y, x < inp.width → y < inp.height →
        (⟨⟨bs.result, inp.width, inp.height, 1, inp.width⟩, 0, 0⟩ : View).get m' ((x + inp.width / 2) % inp.width) ((y + inp.height / 2) % inp.height) 0 =
          (⌊cyclicR inp.height inp.width (fun i => m.byte inp.data i) (fun i => (kernelAt ex inp.width inp.height k sigma i : ℝ))
            ((y * inp.width + x) % inp.height) ((y * inp.width + x) / inp.height) + 1 / 2⌋.toNat : ℝ) := by
  obtain ⟨w, hw⟩ : ∃ w, w = inp.width := ⟨_, rfl⟩
  obtain ⟨h, hh⟩ : ∃ h, h = inp.height := ⟨_, rfl⟩
  obtain ⟨n1, n2, n3, n4⟩ := r.blocks
  obtain ⟨f1, f2, f3, f4⟩ := r.fresh
  obtain ⟨a1, a2, a3, a4, a5, a6⟩ := r.apart
  have hsm : w * h < 4294967296 := by rw [hw, hh]; exact r.size.small
  have hwp : 0 < w := by rw [hw]; exact r.gray.wpos
  have hhp : 0 < h := by rw [hh]; exact r.gray.hpos
  have sv : d.Serves w h := by rw [hw, hh]; exact r.serves
  -- the checks
  have c1 := ready_valid r
  have c2 : throwIf (decide (sigma < 0)) m = .ok () m := by
    rw [decide_eq_false (not_lt.2 hs.le)]
    rfl
  -- the image
  obtain ⟨L1, p1, s1, s2⟩ := C144_set_image_exact (d := d) (b := bs.image) r.gray n1 (Ne.symm f1) r.serves
  obtain ⟨p2, s3, s4, s5, s6⟩ := wait_ok ho s2
  have im2 : ∀ i, i < w * h → cplx p2 bs.image i = (m.byte inp.data i, 0) := by
    intro i hi
    obtain ⟨q1, q2, q3⟩ := div_lt_of hi
    obtain ⟨e1, e2⟩ := s6 (i % w) (i / w) (by rw [← hw]; exact q1) (by rw [← hh]; exact q2)
    rw [reAt] at e1
    rw [imAt] at e2
    simp only [← hw, q3] at e1 e2
    rw [cplx, e1, e2]
  -- the kernel
  obtain ⟨p3, g1, g2, g3, g4, g5⟩ := gaussKernel_ok hex ho (bs := bs) r.serves r.size hs n2 n3 a4 p2
  simp only [← hw, ← hh] at g1 g2 g3 g4 g5 s1 s4 hal hw2 hh2 ⊢
  have im3 : ∀ i, cplx p3 bs.image i = cplx p2 bs.image i := fun i => by
    obtain ⟨-, e⟩ := g4 bs.image a1 a2
    rw [cplx, cplx, e, e]
  have z3 : p3.size bs.image = 2 * (w * h) := by
    rw [(g4 bs.image a1 a2).1]
    exact s4.size
  -- the transforms
  obtain ⟨p4, t1, t2, t3, t4⟩ := transform_ok (T := T) (inverse := false) (c := ⟨w, h, bs.image⟩) (m := p3) n1 z3
  obtain ⟨p5, u1, u2, u3, u4⟩ := transform_ok (T := T) (inverse := false) (c := ⟨w, h, bs.filter⟩) (m := p4) n3 (by rw [t2]; exact g2.size)
  have spec1 : ∀ i j, i < w → j < h → toC (cplx p5 bs.image (i * h + j)) = fourier (-1) h w (fun i => (m.byte inp.data i : ℂ)) j i := by
    intro i j hi hj
    have e : cplx p5 bs.image (i * h + j) = cplx p4 bs.image (i * h + j) := by
      rw [cplx, cplx, u4 bs.image a2, u4 bs.image a2]
    rw [e, t3 _ (mul_add_lt hi hj), hT false w h _ i j hi hj]
    refine fourier_congr (fun l hl => ?_) j i
    rw [im3, im2 l hl]
    rfl
  have spec2 : ∀ i j, i < w → j < h → toC (cplx p5 bs.filter (i * h + j)) = fourier (-1) h w (fun i => ((kernelAt ex w h k sigma i : ℝ) : ℂ)) j i := by
    intro i j hi hj
    rw [u3 _ (mul_add_lt hi hj), hT false w h _ i j hi hj]
    refine fourier_congr (fun l hl => ?_) j i
    have e : cplx p4 bs.filter l = cplx p3 bs.filter l := by
      rw [cplx, cplx, t4 bs.filter (Ne.symm a2), t4 bs.filter (Ne.symm a2)]
    show toC (cplx p4 bs.filter l) = _
    rw [e, g3 l hl]
    rfl
  -- the product
  have z5 : Cplx p5 ⟨w, h, bs.image⟩ := ⟨n1, hwp, hhp, hsm, by rw [u2, t2]; exact z3⟩
  have z5' : Cplx p5 ⟨w, h, bs.filter⟩ := ⟨n3, hwp, hhp, hsm, by rw [u2, t2]; exact g2.size⟩
  obtain ⟨L2, p6, x1, x2, x3, x4, x5⟩ := C157_product_exact id ho sv z5 z5' (Ne.symm a2)
  have prod : ∀ i j, i < w → j < h → toC (cplx p6 bs.image (i * h + j)) =
      fourier (-1) h w (fun i => (m.byte inp.data i : ℂ)) j i * fourier (-1) h w (fun i => ((kernelAt ex w h k sigma i : ℝ) : ℂ)) j i := by
    intro i j hi hj
    obtain ⟨e1, e2⟩ := x4 _ (mul_add_lt hi hj)
    rw [← spec1 i j hi hj, ← spec2 i j hi hj]
    refine alias_product e1 e2 ?_
    rw [spec1 i j hi hj, spec2 i j hi hj]
    exact hal i j hi hj
  -- back
  obtain ⟨p7, y1, y2, y3, y4⟩ := transform_ok (T := T) (inverse := true) (c := ⟨w, h, bs.image⟩) (m := p6) n1 (by rw [x3]; exact z5.size)
  have back : ∀ l, l < w * h → p7.byte bs.image (2 * l) = (w * h : ℝ) *
      cyclicR h w (fun i => m.byte inp.data i) (fun i => (kernelAt ex w h k sigma i : ℝ)) (l % h) (l / h) := by
    intro l hl
    obtain ⟨q1, q2, q3⟩ := div_lt_of (w := h) (h := w) (by rw [Nat.mul_comm]; exact hl)
    have e0 : cplx p7 bs.image (l / h * h + l % h) = T true w h (cplx p6 bs.image) (l / h * h + l % h) := y3 _ (by rw [q3]; exact hl)
    have e := (congrArg toC e0).trans (hT true w h _ _ _ q2 q1)
    rw [q3, if_pos rfl, conv_inverse hhp hwp (fun u v hu hv => prod v u hv hu) q1 q2, cyclic_real] at e
    have e' := congrArg Complex.re e
    have e2 : ((h : ℂ) * w * (cyclicR h w (fun i => m.byte inp.data i) (fun i => (kernelAt ex w h k sigma i : ℝ)) (l % h) (l / h) : ℂ)) =
        (((h : ℝ) * w * cyclicR h w (fun i => m.byte inp.data i) (fun i => (kernelAt ex w h k sigma i : ℝ)) (l % h) (l / h) : ℝ) : ℂ) := by
      push_cast
      rfl
    rw [e2, Complex.ofReal_re] at e'
    rw [mul_comm (w : ℝ)]
    exact e'
  -- the new image
  have z7 : Cplx p7 ⟨w, h, bs.image⟩ := ⟨n1, hwp, hhp, hsm, by rw [y2, x3]; exact z5.size⟩
  have hwh : ((w * h : Nat) : ℝ) ≠ 0 := by
    have := Nat.mul_pos hwp hhp
    exact_mod_cast this.ne'
  have hsum : ∑ y ∈ range w, ∑ x ∈ range h, (kernelAt ex w h k sigma (y * h + x) : ℝ) = 1 := by
    rw [sum_rows (fun i => (kernelAt ex w h k sigma i : ℝ)), Nat.mul_comm]
    exact_mod_cast g5
  have hkn : ∀ i, (0 : ℝ) ≤ (kernelAt ex w h k sigma i : ℝ) := fun i => Rat.cast_nonneg.2 (kernelAt_nonneg hex w h k sigma i)
  have hpix : ∀ x y, x < w → y < h → PixelIs id (reAt p7 ⟨w, h, bs.image⟩ x y) (w * h)
      ((⌊cyclicR h w (fun i => m.byte inp.data i) (fun i => (kernelAt ex w h k sigma i : ℝ)) ((y * w + x) % h) ((y * w + x) / h) + 1 / 2⌋.toNat : ℝ)) := by
    intro x y hx hy
    have hl := ident_lt hx hy
    obtain ⟨q1, q2, q3⟩ := div_lt_of (w := h) (h := w) (by rw [Nat.mul_comm]; exact hl)
    have hr := cyclicR_range (f := fun i => m.byte inp.data i) (g := fun i => (kernelAt ex w h k sigma i : ℝ)) (c := 255) (fun i _ => r.bytes i) (fun i _ => hkn i) hsum q1 q2
    have e : reAt p7 ⟨w, h, bs.image⟩ x y / ((w * h : Nat) : ℝ) =
        cyclicR h w (fun i => m.byte inp.data i) (fun i => (kernelAt ex w h k sigma i : ℝ)) ((y * w + x) % h) ((y * w + x) / h) := by
      rw [reAt, back _ hl]
      push_cast at hwh ⊢
      rw [mul_div_cancel_left₀ _ hwh]
    refine ⟨hwh, ?_, ?_, ?_⟩
    · show -1 < reAt p7 ⟨w, h, bs.image⟩ x y / ((w * h : Nat) : ℝ) + 1 / 2
      rw [e]
      linarith [hr.1]
    · show reAt p7 ⟨w, h, bs.image⟩ x y / ((w * h : Nat) : ℝ) + 1 / 2 < 256
      rw [e]
      linarith [hr.2]
    · show _ = (⌊reAt p7 ⟨w, h, bs.image⟩ x y / ((w * h : Nat) : ℝ) + 1 / 2⌋.toNat : ℝ)
      rw [e]
  obtain ⟨L3, p8, i1, i2⟩ := C144_get_partial (rnd := id) (d := d) (b := bs.result) z7 hw2 hh2 hpix n4 (Ne.symm a3) sv
  obtain ⟨p9, j1, j2, j3, j4⟩ := wait_ok ho i2
  refine ⟨p9, ?_, j2, fun b b1 b2 b3 b4 => ?_, j4⟩
  · rw [Gaussian, bind_ok c1, bind_ok c2, bind_ok s1, bind_ok s3]
    simp only [← hw, ← hh]
    rw [bind_ok g1, bind_ok t1, bind_ok u1, bind_ok x1, bind_ok x2, bind_ok y1, bind_ok i1]
    show ((wait order L3 >>= fun _ => pure _) : M (Mem ℝ) Image) p8 = _
    rw [bind_ok j1]
    rfl
  · obtain ⟨e1, e2⟩ := j3 b b4
    obtain ⟨e3, e4⟩ := g4 b b2 b3
    obtain ⟨e5, e6⟩ := s5 b b1
    refine ⟨?_, fun i => ?_⟩
    · rw [e1, y2, x3, u2, t2, e3, e5]
    · rw [e2, y4 b b1, x5 b b1, u4 b b3, t4 b b1, e4, e6]

theorem weight_neg_x (ex : ℚ → ℚ) (sigma : ℚ) (dx dy : Int) : weight ex sigma (-dx) dy = weight ex sigma dx dy := by
  rw [weight, weight]
  push_cast
  rw [neg_sq]

theorem weight_neg_y (ex : ℚ → ℚ) (sigma : ℚ) (dx dy : Int) : weight ex sigma dx (-dy) = weight ex sigma dx dy := by
  rw [weight, weight]
  push_cast
  rw [neg_sq]

theorem mirror_cases {n x : Nat} (hx : x < n) : (x = 0 ∧ (n - x) % n = 0) ∨ (0 < x ∧ (n - x) % n = n - x) := by
  rcases Nat.eq_zero_or_pos x with h | h
  · exact Or.inl ⟨h, by rw [h, Nat.sub_zero, Nat.mod_self]⟩
  · exact Or.inr ⟨h, Nat.mod_eq_of_lt (by omega)⟩

theorem kernelAt_mirror_x (ex : ℚ → ℚ) (w h k : Nat) (sigma : ℚ) (hw : w % 2 = 0) {x y : Nat} (hx : x < w) :
    kernelAt ex w h k sigma (y * w + (w - x) % w) = kernelAt ex w h k sigma (y * w + x) := by
  rw [kernelAt, kernelAt, (divmod_at hx).1, (divmod_at hx).2, (divmod_at (Nat.mod_lt _ (by omega))).1, (divmod_at (Nat.mod_lt _ (by omega))).2]
  rcases mirror_cases hx with ⟨h1, h2⟩ | ⟨h1, h2⟩
  · rw [h2, h1]
  · rw [h2]
    have e : (((w - x : Nat) : Int) - (w / 2 : Nat)) = -((x : Int) - (w / 2 : Nat)) := by omega
    rw [e, weight_neg_x]
    refine if_congr ?_ rfl rfl
    omega

theorem kernelAt_mirror_y (ex : ℚ → ℚ) (w h k : Nat) (sigma : ℚ) (hh : h % 2 = 0) {x y : Nat} (hx : x < w) (hy : y < h) :
    kernelAt ex w h k sigma ((h - y) % h * w + x) = kernelAt ex w h k sigma (y * w + x) := by
  rw [kernelAt, kernelAt, (divmod_at hx).1, (divmod_at hx).2, (divmod_at hx).1, (divmod_at hx).2]
  rcases mirror_cases hy with ⟨h1, h2⟩ | ⟨h1, h2⟩
  · rw [h2, h1]
  · rw [h2]
    have e : (((h - y : Nat) : Int) - (h / 2 : Nat)) = -((y : Int) - (h / 2 : Nat)) := by omega
    rw [e, weight_neg_y]
    refine if_congr ?_ rfl rfl
    omega

/-- The transform of the kernel is real for even sizes. -/
theorem kernel_real (ex : ℚ → ℚ) (w h k : Nat) (sigma : ℚ) (hw : w % 2 = 0) (hh : h % 2 = 0) (u v : Nat) :
    (fourier (-1) w h (fun i => ((kernelAt ex w h k sigma i : ℝ) : ℂ)) u v).im = 0 := by
  rw [← dftR_direct]
  refine (dftR_real (f := fun i => ((kernelAt ex w h k sigma i : ℝ) : ℂ)) (fun x y _ _ => Complex.conj_ofReal (kernelAt ex w h k sigma (y * w + x) : ℝ)) (fun x y hx _ => ?_) (fun x y hx hy => ?_) u v).im
  · rw [kernelAt_mirror_x ex w h k sigma hw hx]
  · rw [kernelAt_mirror_y ex w h k sigma hh hx hy]

/-- The convolution as a mean over the window -/
theorem cyclicR_blur {ex : ℚ → ℚ} {sigma : ℚ} {k w h : Nat} (sz : GaussSize w h k) (hw : w % 2 = 0) (hh : h % 2 = 0) (f : Nat → ℝ) {x y : Nat} (hx : x < w) (hy : y < h) :
    cyclicR w h f (fun i => (kernelAt ex w h k sigma i : ℝ)) ((x + w / 2) % w) ((y + h / 2) % h) =
      blur ex sigma k w h (fun x y => f (y * w + x)) x y := by
  have s1 := sz.hw
  have s2 := sz.hh
  have idx : ∀ {n x d : Nat}, x < n → n % 2 = 0 → 2 * k + 1 ≤ n → d < 2 * k + 1 → ((x + n / 2) % n + n - (n / 2 - k + d)) % n = (x + n + k - d) % n := by
    intro n x d hx hn hk hd
    by_cases h1 : x + n / 2 < n
    · rw [Nat.mod_eq_of_lt h1]
      congr 1
      omega
    · have e : (x + n / 2) % n = x + n / 2 - n := by rw [Nat.mod_eq_sub_mod (by omega), Nat.mod_eq_of_lt (by omega : x + n / 2 - n < n)]
      rw [e, show x + n + k - d = x + k - d + n by omega, Nat.add_mod_right]
      congr 1
      omega
  have zero : ∀ x' y', x' < w → ¬ ((w / 2 - k ≤ x' ∧ x' < w / 2 - k + (2 * k + 1)) ∧ h / 2 - k ≤ y' ∧ y' < h / 2 - k + (2 * k + 1)) →
      kernelAt ex w h k sigma (y' * w + x') = 0 := by
    intro x' y' hx' hn
    rw [kernelAt, (divmod_at hx').1, (divmod_at hx').2]
    exact if_neg (by omega)
  rw [cyclicR_comm _ _ (Nat.mod_lt _ (by omega)) (Nat.mod_lt _ (by omega)), blur, sum_win (a := h / 2 - k) (t := 2 * k + 1) (by omega)]
  · refine Finset.sum_congr rfl fun dy hdy => ?_
    have hdy := Finset.mem_range.1 hdy
    rw [sum_win (a := w / 2 - k) (t := 2 * k + 1) (by omega)]
    · refine Finset.sum_congr rfl fun dx hdx => ?_
      have hdx := Finset.mem_range.1 hdx
      rw [idx hx hw s1 hdx, idx hy hh s2 hdy, kernelAt, (divmod_at (by omega)).1, (divmod_at (by omega)).2, if_pos (by omega)]
      have e1 : (((w / 2 - k + dx : Nat) : Int) - (w / 2 : Nat)) = (dx : Int) - k := by omega
      have e2 : (((h / 2 - k + dy : Nat) : Int) - (h / 2 : Nat)) = (dy : Int) - k := by omega
      rw [e1, e2]
    · intro x' hx' hn
      rw [zero x' _ hx' (fun h => hn h.1), Rat.cast_zero, mul_zero]
  · intro y' _ hn
    refine Finset.sum_eq_zero fun x' hx' => ?_
    rw [zero x' y' (Finset.mem_range.1 hx') (fun h => hn h.2), Rat.cast_zero, mul_zero]

/-! ### C157 -/

/-- **C157** (partial) Every pixel of the result is the weighted mean of the pixels around it, rounded, for square images of even size, in every
order of the threads; nothing but the new blocks changes.
Missing: other sizes.  For odd sizes the last column or row of the result is never written (`C157_odd_exact`); for images which are not
square the mean is taken over other pixels (`C157_wrong`).  Arithmetic and transforms are exact. -/
theorem C157_gaussian_partial {T : Cufft ℝ} (hT : ExactFft T) {ex : ℚ → ℚ} (hex : ∀ q, 0 < ex q) {order : Order ℝ} (ho : Complete order) {d : CudaDevice} {bs : Blocks}
    {inp out : Image} {k : Nat} {sigma : ℚ} (hs : 0 < sigma) {m : Mem ℝ} (r : GaussReady m d bs inp out k) (hsq : inp.width = inp.height) (heven : inp.width % 2 = 0) :
    ∃ m', Gaussian T ex id order d bs inp out k sigma m = .ok ⟨bs.result, inp.width, inp.height, 1, inp.width⟩ m' ∧
      GrayImg m' ⟨bs.result, inp.width, inp.height, 1, inp.width⟩ ∧
      (∀ b, b ≠ bs.image → b ≠ bs.vector → b ≠ bs.filter → b ≠ bs.result → m'.size b = m.size b ∧ ∀ i, m'.byte b i = m.byte b i) ∧
      ∀ x y, x < inp.width → y < inp.height → (⟨⟨bs.result, inp.width, inp.height, 1, inp.width⟩, 0, 0⟩ : View).get m' x y 0 =
        (⌊blur ex sigma k inp.width inp.height (fun x y => (⟨inp, 0, 0⟩ : View).get m x y 0) x y + 1 / 2⌋.toNat : ℝ) := by
  have heven' : inp.height % 2 = 0 := by rw [← hsq]; exact heven
  obtain ⟨m', h1, h2, h3, h4⟩ := gaussian_run hT hex ho hs r heven heven' (fun i j _ _ => Or.inl (by
    have := kernel_real ex inp.width inp.height k sigma heven heven' j i
    rw [hsq] at this ⊢
    exact this))
  refine ⟨m', h1, h2, h3, fun x y hx hy => ?_⟩
  have back : ∀ {n x : Nat}, x < n → n % 2 = 0 → ((x + n / 2) % n + n / 2) % n = x := by
    intro n x hx hn
    rw [Nat.mod_add_mod, show x + n / 2 + n / 2 = x + n by omega, Nat.add_mod_right, Nat.mod_eq_of_lt hx]
  have e := h4 _ _ (Nat.mod_lt (x + inp.width / 2) (by omega)) (Nat.mod_lt (y + inp.height / 2) (by omega))
  rw [back hx heven, back hy heven'] at e
  rw [e]
  have hv : (fun x y => (⟨inp, 0, 0⟩ : View).get m x y 0) = fun x y => m.byte inp.data (y * inp.width + x) := by
    funext x y
    rw [View.get, View.cell]
    show m.byte inp.data ((0 + y) * inp.rowSize + (0 + x) * inp.cc + 0) = _
    rw [r.row, r.gray.gray, Nat.zero_add, Nat.zero_add, Nat.mul_one, Nat.add_zero]
  rw [hv, ← cyclicR_blur r.size heven heven' (fun i => m.byte inp.data i) hx hy]
  rw [← hsq] at hy ⊢
  rw [(divmod_at (Nat.mod_lt _ (by omega))).1, (divmod_at (Nat.mod_lt _ (by omega))).2]

theorem not_valid2 {inp out : Image} (m : Mem ℝ) (h : inp.data = 0 ∨ out.data = 0 ∨ inp.width ≠ out.width ∨ inp.height ≠ out.height) :
    validateImages2 inp out m = .throw m := by
  have : (inp.empty || out.empty || !isCorrectColorCount inp || !isCorrectColorCount out || inp.width != out.width || inp.height != out.height) = true := by
    rcases h with h | h | h | h <;> simp [Image.empty, h]
  rw [validateImages2, this]
  rfl

/-- What a call that throws before its first allocation does -/
theorem validateImages2_cases (a b : Image) (m : Mem ℝ) : validateImages2 a b m = .ok () m ∨ validateImages2 a b m = .throw m := by
  rw [validateImages2]
  cases (a.empty || b.empty || !isCorrectColorCount a || !isCorrectColorCount b || a.width != b.width || a.height != b.height)
  · exact Or.inl rfl
  · exact Or.inr rfl

/-- Empty images, images of different sizes, coloured images and a negative sigma are refused; nothing changes. -/
theorem C157_rejects {T : Cufft ℝ} {ex : ℚ → ℚ} {rnd : ℝ → ℝ} {order : Order ℝ} {d : CudaDevice} {bs : Blocks} {inp out : Image} {k : Nat} {sigma : ℚ} {m : Mem ℝ}
    (h : inp.data = 0 ∨ out.data = 0 ∨ inp.width ≠ out.width ∨ inp.height ≠ out.height ∨ inp.cc ≠ 1 ∨ sigma < 0) :
    Gaussian T ex rnd order d bs inp out k sigma m = .throw m := by
  by_cases hv : inp.data = 0 ∨ out.data = 0 ∨ inp.width ≠ out.width ∨ inp.height ≠ out.height
  · rw [Gaussian, bind_throw (not_valid2 m hv)]
  · rcases validateImages2_cases inp out m with e | e
    · rw [Gaussian, bind_ok e]
      by_cases hs : sigma < 0
      · have : throwIf (decide (sigma < 0)) m = .throw m := by rw [decide_eq_true hs]; rfl
        rw [bind_throw this]
      · have : throwIf (decide (sigma < 0)) m = .ok () m := by rw [decide_eq_false hs]; rfl
        rw [bind_ok this, bind_throw (C144_set_image_rejects (by tauto))]
    · rw [Gaussian, bind_throw e]

/-- Other parameters of the kernel than those of C79 are refused; only the block of the complex data changes. -/
theorem C157_rejects_kernel {T : Cufft ℝ} {ex : ℚ → ℚ} {rnd : ℝ → ℝ} {order : Order ℝ} (ho : Complete order) {d : CudaDevice} {bs : Blocks} {inp out : Image} {k : Nat}
    {sigma : ℚ} {m : Mem ℝ} (hg : GrayImg m inp) (hb : bs.image ≠ 0) (hne : bs.image ≠ inp.data) (sv : d.Serves inp.width inp.height)
    (h : inp.width < 3 ∨ inp.height < 3 ∨ k = 0 ∨ (k < 2147483648 ∧ (inp.width < 2 * k + 1 ∨ inp.height < 2 * k + 1))) :
    ∃ m', Gaussian T ex rnd order d bs inp out k sigma m = .throw m' ∧ OnlyBlock m m' bs.image := by
  have same : OnlyBlock m m bs.image := fun _ _ => ⟨rfl, fun _ => rfl⟩
  rcases validateImages2_cases inp out m with e | e
  · rw [Gaussian, bind_ok e]
    by_cases hs : sigma < 0
    · have : throwIf (decide (sigma < 0)) m = .throw m := by rw [decide_eq_true hs]; rfl
      exact ⟨m, by rw [bind_throw this], same⟩
    · have : throwIf (decide (sigma < 0)) m = .ok () m := by rw [decide_eq_false hs]; rfl
      rw [bind_ok this]
      obtain ⟨L1, p1, s1, s2⟩ := C144_set_image_exact (d := d) (b := bs.image) hg hb hne sv
      obtain ⟨p2, s3, -, s5, -⟩ := wait_ok ho s2
      refine ⟨p2, ?_, s5⟩
      rw [bind_ok s1, bind_ok s3]
      have hk : hostKernel ex inp.width inp.height k sigma p2 = .throw p2 := by
        rw [hostKernel, C79_rejects id ex _ (by tauto)]
      have : gaussKernel ex order d bs inp.width inp.height k sigma p2 = .throw p2 := by rw [gaussKernel, bind_throw hk]
      rw [bind_throw this]
  · exact ⟨m, by rw [Gaussian, bind_throw e], same⟩

theorem swapped_odd {k n : Nat} (hk : k < n) (h1 : 1 < n) (hodd : n % 2 = 1) (hn : n < 4294967296) : swapped k n < n - 1 := by
  rw [swapped]
  split
  · rw [u32_of_lt (by omega)]
    omega
  · omega

/-- For odd widths `get()` never writes the last column of the new image, for odd heights never the last row: whatever the block held stays. -/
theorem C144_get_odd_exact {rnd : ℝ → ℝ} {d : CudaDevice} {m : Mem ℝ} {c : Fft.Obj} {b : Nat} (hc : Cplx m c) (s : d.Serves c.width c.height) :
    ∃ L m1, getImage rnd d c b m = .ok (⟨b, c.width, c.height, 1, c.width⟩, some L) m1 ∧
      (∀ σ x y, x < c.width → y < c.height →
        (c.width % 2 = 1 ∧ 1 < c.width ∧ x + 1 = c.width) ∨ (c.height % 2 = 1 ∧ 1 < c.height ∧ y + 1 = c.height) →
        ((L.sys m1).exec σ).mem.byte b (y * c.width + x) = m.byte b (y * c.width + x)) := by
  obtain ⟨w, h, p⟩ := c
  have hwp : 0 < w := hc.wpos
  have hhp : 0 < h := hc.hpos
  have hsm : w * h < 4294967296 := hc.small
  have hw : w < 4294967296 := lt_of_le_of_lt (Nat.le_mul_of_pos_right w hhp) hsm
  have hh : h < 4294967296 := lt_of_le_of_lt (Nat.le_mul_of_pos_left h hwp) hsm
  obtain ⟨L, e, hk, -⟩ := vlaunch2D_ok (μ := Mem ℝ) s hwp hhp (vguarded w h (copyToImage rnd p b (rnd ((w * h : Nat) : ℝ)) w h))
  have hsw : ∀ {k n : Nat}, k < n → n < 4294967296 → swapped k n < n := by
    intro k n hk hn
    rw [swapped]
    split
    · rw [u32_of_lt (by omega)]
      omega
    · omega
  refine ⟨L, { m with size := fun k => if k = b then h * w else m.size k }, ?_, fun σ x y hx hy hxy => ?_⟩
  · rw [getImage, if_neg hc.data]
    show (newBlock b (h * w) >>= _) m = _
    rw [u32_of_lt hsm]
    refine (bind_ok (show newBlock b _ m = .ok () _ from rfl)).trans ?_
    rw [e]
    rfl
  · refine exec_frame (b := b) (i := y * w + x) (Rd := fun _ _ => True)
      (Wr := fun t a => L.posX t < w ∧ L.posY t < h ∧ a = (b, swapped (L.posY t) h * w + swapped (L.posX t) w)) ?_ σ (L.sys _) ?_
    · rintro t ⟨h1, h2, h3⟩
      have hx : x < w := hx
      have hxy : (w % 2 = 1 ∧ 1 < w ∧ x + 1 = w) ∨ (h % 2 = 1 ∧ 1 < h ∧ y + 1 = h) := hxy
      have h3 : y * w + x = swapped (L.posY t) h * w + swapped (L.posX t) w := congrArg Prod.snd h3
      have g1 := divmod_at (y := y) hx
      have g2 := divmod_at (y := swapped (L.posY t) h) (hsw h1 hw)
      rw [h3] at g1
      rcases hxy with ⟨o1, o2, o3⟩ | ⟨o1, o2, o3⟩
      · have := swapped_odd h1 o2 o1 hw
        have : x = swapped (L.posX t) w := g1.1.symm.trans g2.1
        omega
      · have := swapped_odd h2 o2 o1 hh
        have : y = swapped (L.posY t) h := g1.2.symm.trans g2.2
        omega
    · intro t
      show (L.kernel (L.posX t) (L.posY t)).Foot _ _
      rw [hk, vguarded]
      split
      · rename_i hlt
        rw [copyToImage]
        refine Prog.foot_bind (Prog.foot_load trivial) fun v => ?_
        cases pixelOf rnd v (rnd ((w * h : Nat) : ℝ)) with
        | none => trivial
        | some q =>
          refine Prog.foot_store q ⟨hlt.1, hlt.2, ?_⟩
          rw [ident_eq hsm (hsw hlt.1 hw) (hsw hlt.2 hh)]
      · trivial

theorem wait_mem {order : Order ℝ} {L : VLaunch ℝ} {m m' : Mem ℝ} (h : wait order L m = .ok () m') : m' = ((L.sys m).exec (order L m)).mem := by
  have h : (if _ then _ else _) = Res.ok () m' := h
  split at h
  · cases h
  · injection h with _ h
    exact h.symm

/-- For odd widths the last column of the result, and for odd heights the last row, is what the memory of the new image held before the
call, for every transform and every rounding. -/
theorem C157_odd_exact {T : Cufft ℝ} {ex : ℚ → ℚ} (hex : ∀ q, 0 < ex q) {rnd : ℝ → ℝ} {order : Order ℝ} (ho : Complete order) {d : CudaDevice} {bs : Blocks}
    {inp out res : Image} {k : Nat} {sigma : ℚ} (hs : 0 < sigma) {m m' : Mem ℝ} (r : GaussReady m d bs inp out k)
    (hrun : Gaussian T ex rnd order d bs inp out k sigma m = .ok res m') {x y : Nat} (hx : x < inp.width) (hy : y < inp.height)
    (hxy : (inp.width % 2 = 1 ∧ x + 1 = inp.width) ∨ (inp.height % 2 = 1 ∧ y + 1 = inp.height)) :
    res = ⟨bs.result, inp.width, inp.height, 1, inp.width⟩ ∧ (⟨res, 0, 0⟩ : View).get m' x y 0 = m.byte bs.result (y * inp.width + x) := by
  obtain ⟨n1, n2, n3, n4⟩ := r.blocks
  obtain ⟨f1, f2, f3, f4⟩ := r.fresh
  obtain ⟨a1, a2, a3, a4, a5, a6⟩ := r.apart
  have c1 := ready_valid r
  have c2 : throwIf (decide (sigma < 0)) m = .ok () m := by
    rw [decide_eq_false (not_lt.2 hs.le)]
    rfl
  obtain ⟨L1, p1, s1, s2⟩ := C144_set_image_exact (d := d) (b := bs.image) r.gray n1 (Ne.symm f1) r.serves
  obtain ⟨p2, s3, s4, s5, -⟩ := wait_ok ho s2
  obtain ⟨p3, g1, g2, -, g4, -⟩ := gaussKernel_ok hex ho (bs := bs) r.serves r.size hs n2 n3 a4 p2
  have z3 : p3.size bs.image = 2 * (inp.width * inp.height) := by
    rw [(g4 bs.image a1 a2).1]
    exact s4.size
  obtain ⟨p4, t1, t2, t3, t4⟩ := transform_ok (T := T) (inverse := false) (c := ⟨inp.width, inp.height, bs.image⟩) (m := p3) n1 z3
  obtain ⟨p5, u1, u2, u3, u4⟩ := transform_ok (T := T) (inverse := false) (c := ⟨inp.width, inp.height, bs.filter⟩) (m := p4) n3 (by rw [t2]; exact g2.size)
  have z5 : Cplx p5 ⟨inp.width, inp.height, bs.image⟩ := ⟨n1, r.gray.wpos, r.gray.hpos, r.size.small, by rw [u2, t2]; exact z3⟩
  have z5' : Cplx p5 ⟨inp.width, inp.height, bs.filter⟩ := ⟨n3, r.gray.wpos, r.gray.hpos, r.size.small, by rw [u2, t2]; exact g2.size⟩
  obtain ⟨L2, p6, x1, x2, x3, x4, x5⟩ := C157_product_exact rnd ho r.serves z5 z5' (Ne.symm a2)
  obtain ⟨p7, y1, y2, y3, y4⟩ := transform_ok (T := T) (inverse := true) (c := ⟨inp.width, inp.height, bs.image⟩) (m := p6) n1 (by rw [x3]; exact z5.size)
  have z7 : Cplx p7 ⟨inp.width, inp.height, bs.image⟩ := ⟨n1, r.gray.wpos, r.gray.hpos, r.size.small, by rw [y2, x3]; exact z5.size⟩
  obtain ⟨L3, p8, i1, i2⟩ := C144_get_odd_exact (rnd := rnd) (d := d) (b := bs.result) z7 r.serves
  rw [Gaussian, bind_ok c1, bind_ok c2, bind_ok s1, bind_ok s3, bind_ok g1, bind_ok t1, bind_ok u1, bind_ok x1, bind_ok x2, bind_ok y1, bind_ok i1] at hrun
  have hrun : ((wait order L3 >>= fun _ => pure _) : M (Mem ℝ) Image) p8 = _ := hrun
  obtain ⟨_, p9, w1, w2⟩ := bind_eq_ok.1 hrun
  injection w2 with w2 w3
  refine ⟨w2.symm, ?_⟩
  have hb : bs.result ≠ bs.image := Ne.symm a3
  have k1 := r.size.hw
  have k2 := r.size.hh
  have k3 := r.size.kpos
  have e := i2 (order L3 p8) x y hx hy (by
    show (inp.width % 2 = 1 ∧ 1 < inp.width ∧ x + 1 = inp.width) ∨ (inp.height % 2 = 1 ∧ 1 < inp.height ∧ y + 1 = inp.height)
    omega)
  rw [← wait_mem w1, w3] at e
  rw [← w2, View.get, View.cell]
  show m'.byte bs.result ((0 + y) * inp.width + (0 + x) * 1 + 0) = _
  rw [Nat.zero_add, Nat.zero_add, Nat.mul_one, Nat.add_zero]
  refine e.trans ?_
  show p7.byte bs.result (y * inp.width + x) = _
  rw [y4 _ hb, x5 _ hb, u4 _ (Ne.symm a6), t4 _ hb, (g4 _ (Ne.symm a5) (Ne.symm a6)).2, (s5 _ hb).2]

/-- The other form of the function makes an image of the same size and is this function with it. -/
theorem C157_returns {T : Cufft ℝ} {ex : ℚ → ℚ} {rnd : ℝ → ℝ} {order : Order ℝ} {d : CudaDevice} {bs : Blocks} {inp : Image} {b k : Nat} {sigma : ℚ} {m : Mem ℝ}
    (hb : b ≠ 0) (hne : b ≠ inp.data) (hnb : b ≠ bs.image ∧ b ≠ bs.vector ∧ b ≠ bs.filter ∧ b ≠ bs.result)
    (r : GaussReady m d bs inp ⟨b, inp.width, inp.height, 1, inp.width⟩ k) :
    ∃ m1, GaussianOf T ex rnd order d bs inp b k sigma m = Gaussian T ex rnd order d bs inp ⟨b, inp.width, inp.height, 1, inp.width⟩ k sigma m1 ∧
      GaussReady m1 d bs inp ⟨b, inp.width, inp.height, 1, inp.width⟩ k ∧ OnlyBlock m m1 b := by
  have c1 : validateImage inp m = .ok () m := by
    have e1 : inp.empty = false := by simpa [Image.empty] using r.gray.data
    have e2 : isCorrectColorCount inp = true := by simp [isCorrectColorCount, r.gray.gray]
    have : (inp.empty || !isCorrectColorCount inp) = false := by rw [e1, e2]; rfl
    rw [validateImage, this]
    rfl
  refine ⟨{ m with size := fun k => if k = b then inp.height * inp.width else m.size k }, ?_, ?_, fun c hc => ⟨if_neg hc, fun _ => rfl⟩⟩
  · rw [GaussianOf, bind_ok c1]
    exact bind_ok (show newBlock b _ m = .ok () _ from rfl)
  · have hsz : (if inp.data = b then inp.height * inp.width else m.size inp.data) = m.size inp.data := if_neg (Ne.symm hne)
    refine ⟨⟨r.gray.data, r.gray.gray, r.gray.wpos, r.gray.hpos, ⟨r.gray.wf.row, ?_, r.gray.wf.small⟩⟩, r.row, r.bytes, r.out, r.serves, r.size, r.blocks, r.fresh, r.apart⟩
    have := r.gray.wf.block
    show _ ≤ (if inp.data = b then inp.height * inp.width else m.size inp.data)
    rw [hsz]
    exact this

/-! ### Concrete cases -/

/-- There are exact transforms. -/
theorem exists_exactFft : ∃ T, ExactFft T :=
  ⟨fun inverse nx ny f l => ((fourier (if inverse then 1 else -1) ny nx (fun j => toC (f j)) (l % ny) (l / ny)).re,
      (fourier (if inverse then 1 else -1) ny nx (fun j => toC (f j)) (l % ny) (l / ny)).im),
    fun inverse nx ny f i k _ hk => by
      refine Complex.ext ?_ ?_
      · show (fourier _ _ _ _ _ _).re = _
        rw [(divmod_at hk).1, (divmod_at hk).2]
      · show (fourier _ _ _ _ _ _).im = _
        rw [(divmod_at hk).1, (divmod_at hk).2]⟩

/-- An image of w x h pixels in block 1 -/
def gaussMem (w h : Nat) (f : Nat → ℝ) : Mem ℝ := ⟨fun b => if b = 1 then w * h else 0, fun b i => if b = 1 then f i else 0⟩
def gaussImg (w h : Nat) : Image := ⟨1, w, h, 1, w⟩

theorem gauss_ready {w h k : Nat} {f : Nat → ℝ} (hf : ∀ i, 0 ≤ f i ∧ f i ≤ 255) (hw : 2 * k + 1 ≤ w) (hh : 2 * k + 1 ≤ h) (hk : 0 < k) (h1 : w ≤ 100) (h2 : h ≤ 100) :
    GaussReady (gaussMem w h f) small ⟨2, 3, 4, 5⟩ (gaussImg w h) (gaussImg w h) k := by
  have hs : w * h ≤ 100 * 100 := Nat.mul_le_mul h1 h2
  have hs' : w * h < 4294967296 := by omega
  refine ⟨⟨Nat.one_ne_zero, rfl, by show 0 < w; omega, by show 0 < h; omega, ⟨Nat.le_of_eq (Nat.mul_one w), Nat.le_refl _, hs'⟩⟩, rfl, fun i => hf i, ⟨Nat.one_ne_zero, Or.inl rfl, rfl, rfl⟩,
    small_serves h1 h2, ⟨hk, hw, hh, hs'⟩, by decide, by show (1 : Nat) ≠ 2 ∧ (1 : Nat) ≠ 3 ∧ (1 : Nat) ≠ 4 ∧ (1 : Nat) ≠ 5; decide, by decide⟩

/-- A constant image and other images of 6 x 6 pixels -/
example {f : Nat → ℝ} (hf : ∀ i, 0 ≤ f i ∧ f i ≤ 255) : ∃ T : Cufft ℝ, ExactFft T ∧ ∃ order : Order ℝ, Complete order ∧
    GaussReady (gaussMem 6 6 f) small ⟨2, 3, 4, 5⟩ (gaussImg 6 6) (gaussImg 6 6) 2 :=
  let ⟨T, hT⟩ := exists_exactFft
  let ⟨order, ho⟩ := exists_complete
  ⟨T, hT, order, ho, gauss_ready hf (by omega) (by omega) (by omega) (by omega) (by omega)⟩

/-- An image of 5 x 6 pixels, and the second form of the function with block 6 -/
example {f : Nat → ℝ} (hf : ∀ i, 0 ≤ f i ∧ f i ≤ 255) : GaussReady (gaussMem 5 6 f) small ⟨2, 3, 4, 5⟩ (gaussImg 5 6) ⟨6, 5, 6, 1, 5⟩ 2 :=
  let r := gauss_ready (k := 2) hf (w := 5) (h := 6) (by omega) (by omega) (by omega) (by omega) (by omega)
  ⟨r.gray, r.row, r.bytes, ⟨by decide, Or.inl rfl, rfl, rfl⟩, r.serves, r.size, r.blocks, r.fresh, r.apart⟩

/-- An image of 4 x 6 pixels whose pixels in memory are six times 200, six times 0, and so on -/
noncomputable def stripes (i : Nat) : ℝ := if i / 6 % 2 = 0 then 200 else 0

theorem kernel46 : ∀ i, i < 24 → kernelAt (fun _ => 1) 4 6 1 1 i = if i ∈ [9, 10, 11, 13, 14, 15, 17, 18, 19] then 1 / 9 else 0 := by
  decide +kernel

theorem weightSum46 : weightSum (fun _ => 1) 1 1 = 9 := by decide +kernel

theorem root_two_mul {n u : Nat} (hn : 0 < n) (hu : u < n) (h0 : u ≠ 0) : ∑ x ∈ range n, Kiss.root false n ^ (x * u) = 0 := by
  have := Kiss.orth (n := n) (x := u) (x' := 0) hu hn
  rw [if_neg h0] at this
  rw [← this]
  refine Finset.sum_congr rfl fun x _ => ?_
  rw [Nat.mul_comm x, Nat.mul_zero, pow_zero, mul_one]

theorem stripes_zero {i j : Nat} (hi : i < 4) (hj : j < 6) : (j = 0 ∧ i % 2 = 0) ∨ fourier (-1) 6 4 (fun l => (stripes l : ℂ)) j i = 0 := by
  have e : fourier (-1) 6 4 (fun l => (stripes l : ℂ)) j i =
      (∑ y ∈ range 4, (stripes (y * 6) : ℂ) * Kiss.root false 4 ^ (y * i)) * ∑ x ∈ range 6, Kiss.root false 6 ^ (x * j) := by
    rw [← dftR_direct, Kiss.dftR, Finset.sum_mul]
    refine Finset.sum_congr rfl fun y _ => ?_
    rw [Finset.mul_sum]
    refine Finset.sum_congr rfl fun x hx => ?_
    have hx := Finset.mem_range.1 hx
    have : stripes (y * 6 + x) = stripes (y * 6) := by
      rw [stripes, stripes, show (y * 6 + x) / 6 = y * 6 / 6 by omega]
    rw [this]
    ring
  by_cases h0 : j = 0
  · by_cases h1 : i % 2 = 0
    · exact Or.inl ⟨h0, h1⟩
    · right
      have h2 : Kiss.root false 4 ^ 2 = -1 := by
        have h3 : (Kiss.root false 4 ^ 2 - 1) * (Kiss.root false 4 ^ 2 + 1) = 0 := by
          have := Kiss.root_one false (n := 4) (by omega)
          linear_combination this
        rcases mul_eq_zero.1 h3 with h | h
        · exfalso
          have h4 := root_two_mul (n := 4) (u := 2) (by omega) (by omega) (by omega)
          have h5 : Kiss.root false 4 ^ 2 = 1 := by linear_combination h
          have h6 : ∀ x, Kiss.root false 4 ^ (x * 2) = 1 := fun x => by rw [Nat.mul_comm, pow_mul, h5, one_pow]
          simp only [h6] at h4
          norm_num at h4
        · linear_combination h
      rw [e]
      have s0 : stripes (0 * 6) = 200 := by norm_num [stripes]
      have s1 : stripes (1 * 6) = 0 := by norm_num [stripes]
      have s2 : stripes (2 * 6) = 200 := by norm_num [stripes]
      have s3 : stripes (3 * 6) = 0 := by norm_num [stripes]
      rw [Finset.sum_range_succ, Finset.sum_range_succ, Finset.sum_range_succ, Finset.sum_range_succ, Finset.sum_range_zero, s0, s1, s2, s3, pow_mul _ 2 i, h2]
      have h3 : ((-1 : ℂ)) ^ i = -1 := Odd.neg_one_pow (Nat.odd_iff.2 (by omega))
      rw [h3]
      simp
  · right
    rw [e, root_two_mul (by omega) hj h0, mul_zero]

theorem kernel46_real {i : Nat} (hi : i % 2 = 0) (g : Nat → ℝ) : (fourier (-1) 6 4 (fun l => (g l : ℂ)) 0 i).im = 0 := by
  have hr : ∀ y, ∃ r : ℝ, Kiss.root false 4 ^ (y * i) = (r : ℂ) := by
    intro y
    obtain ⟨t, ht⟩ : ∃ t, i = 2 * t := ⟨i / 2, by omega⟩
    have h4 := Kiss.root_one false (n := 4) (by omega)
    have h2 : Kiss.root false 4 ^ 2 = ((1 : ℝ) : ℂ) ∨ Kiss.root false 4 ^ 2 = ((-1 : ℝ) : ℂ) := by
      have h3 : (Kiss.root false 4 ^ 2 - 1) * (Kiss.root false 4 ^ 2 + 1) = 0 := by linear_combination h4
      rcases mul_eq_zero.1 h3 with h | h
      · exact Or.inl (by push_cast; linear_combination h)
      · exact Or.inr (by push_cast; linear_combination h)
    have e : Kiss.root false 4 ^ (y * i) = (Kiss.root false 4 ^ 2) ^ (t * y) := by
      rw [← pow_mul, ht]
      congr 1
      ring
    rw [e]
    rcases h2 with h | h
    · exact ⟨1 ^ (t * y), by rw [h]; push_cast; rfl⟩
    · exact ⟨(-1) ^ (t * y), by rw [h]; push_cast; rfl⟩
  rw [← dftR_direct, Kiss.dftR, Complex.im_sum]
  refine Finset.sum_eq_zero fun y _ => ?_
  rw [Complex.im_sum]
  refine Finset.sum_eq_zero fun x _ => ?_
  obtain ⟨r, hr⟩ := hr y
  rw [hr, Nat.mul_zero, pow_zero, one_mul, ← Complex.ofReal_mul, Complex.ofReal_im]

/-- **C157 is wrong for images which are not square**: with equal weights the pixel in column 0 and row 3 of an image of 4 x 6 pixels is made 89,
    the mean of the 3 x 3 pixels around it is 111. -/
theorem C157_wrong {T : Cufft ℝ} (hT : ExactFft T) {order : Order ℝ} (ho : Complete order) :
    ∃ m', Gaussian T (fun _ => 1) id order small ⟨2, 3, 4, 5⟩ (gaussImg 4 6) (gaussImg 4 6) 1 1 (gaussMem 4 6 stripes) = .ok ⟨5, 4, 6, 1, 4⟩ m' ∧
      (⟨⟨5, 4, 6, 1, 4⟩, 0, 0⟩ : View).get m' 0 3 0 = 89 ∧
      ⌊blur (fun _ => 1) 1 1 4 6 (fun x y => (⟨gaussImg 4 6, 0, 0⟩ : View).get (gaussMem 4 6 stripes) x y 0) 0 3 + 1 / 2⌋ = 111 := by
  have hf : ∀ i, 0 ≤ stripes i ∧ stripes i ≤ 255 := by
    intro i
    rw [stripes]
    split <;> norm_num
  obtain ⟨m', h1, -, -, h4⟩ := gaussian_run hT (ex := fun _ => 1) (fun _ => one_pos) ho (sigma := 1) one_pos
    (gauss_ready (w := 4) (h := 6) (k := 1) hf (by omega) (by omega) (by omega) (by omega) (by omega)) rfl rfl (fun i j hi hj => by
      rcases stripes_zero hi hj with ⟨h, h'⟩ | h
      · left
        rw [h]
        exact kernel46_real h' fun l => (kernelAt (fun _ => 1) 4 6 1 1 l : ℝ)
      · exact Or.inr h)
  refine ⟨m', h1, (h4 2 0 (show 2 < 4 by omega) (show 0 < 6 by omega)).trans ?_, ?_⟩
  · have e : cyclicR 6 4 (fun i => (gaussMem 4 6 stripes).byte 1 i) (fun i => (kernelAt (fun _ => 1) 4 6 1 1 i : ℝ)) 2 0 = 800 / 9 := by
      have k0 : ∀ i, i < 24 → (kernelAt (fun _ => 1) 4 6 1 1 i : ℝ) = if i ∈ [9, 10, 11, 13, 14, 15, 17, 18, 19] then 1 / 9 else 0 := fun i hi => by
        rw [kernel46 i hi]
        split <;> norm_num
      have k1 : ∀ i, (gaussMem 4 6 stripes).byte 1 i = stripes i := fun i => rfl
      simp only [cyclicR, k1]
      have k2 : ∀ y' ∈ range 4, ∀ x' ∈ range 6, stripes (y' * 6 + x') * (kernelAt (fun _ => 1) 4 6 1 1 ((0 + 4 - y') % 4 * 6 + (2 + 6 - x') % 6) : ℝ) =
          stripes (y' * 6 + x') * if (0 + 4 - y') % 4 * 6 + (2 + 6 - x') % 6 ∈ [9, 10, 11, 13, 14, 15, 17, 18, 19] then 1 / 9 else 0 := by
        intro y' _ x' _
        rw [k0 _ (by omega)]
      rw [Finset.sum_congr rfl fun y' hy' => Finset.sum_congr rfl fun x' hx' => k2 y' hy' x' hx']
      norm_num [Finset.sum_range_succ, stripes]
    show (⌊cyclicR 6 4 (fun i => (gaussMem 4 6 stripes).byte 1 i) (fun i => (kernelAt (fun _ => 1) 4 6 1 1 i : ℝ)) 2 0 + 1 / 2⌋.toNat : ℝ) = 89
    rw [e]
    have : ⌊(800 / 9 + 1 / 2 : ℝ)⌋ = 89 := by
      rw [Int.floor_eq_iff]
      norm_num
    rw [this]
    show ((89 : Nat) : ℝ) = 89
    norm_num
  · have e : blur (fun _ => 1) 1 1 4 6 (fun x y => (⟨gaussImg 4 6, 0, 0⟩ : View).get (gaussMem 4 6 stripes) x y 0) 0 3 = 1000 / 9 := by
      rw [blur]
      simp only [weight, weightSum46]
      have k1 : ∀ x y, (⟨gaussImg 4 6, 0, 0⟩ : View).get (gaussMem 4 6 stripes) x y 0 = stripes (y * 4 + x) := fun x y => by
        show stripes ((0 + y) * 4 + (0 + x) * 1 + 0) = _
        rw [Nat.zero_add, Nat.zero_add, Nat.mul_one, Nat.add_zero]
      simp only [k1]
      norm_num [Finset.sum_range_succ, stripes]
    rw [e, Int.floor_eq_iff]
    norm_num

end PV.Props
