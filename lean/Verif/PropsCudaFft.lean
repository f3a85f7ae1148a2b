import Verif.CudaFftLemmas
import Verif.PropsCuda
/-
  C144: complex data on CUDA devices are set from and converted to images; C145: complex multiplication on CUDA devices.

  `L.Always m Q`: the threads of the launch make their accesses in any order; nothing goes wrong and at the end `Q` holds.
-/
namespace PV.Props
open PV PV.CudaFft

/- Numbers: the rationals or another ordered field -/
variable {R : Type} [Field R] [LinearOrder R] [FloorRing R]

abbrev QMem := Mem ℚ

/-- An array of `w` x `h` complex numbers (less than 2^32 of them) in the memory of the device. -/
structure Cplx (m : Mem R) (c : Fft.Obj) : Prop where
  data : c.data ≠ 0
  wpos : 0 < c.width
  hpos : 0 < c.height
  small : c.width * c.height < 4294967296
  size : m.size c.data = 2 * (c.width * c.height)

/-- Real and imaginary part of the value at column x and row y -/
def reAt (m : Mem R) (c : Fft.Obj) (x y : Nat) : R := m.byte c.data (2 * (y * c.width + x))
def imAt (m : Mem R) (c : Fft.Obj) (x y : Nat) : R := m.byte c.data (2 * (y * c.width + x) + 1)

/-- A gray-scale image which is not empty. -/
structure GrayImg (m : Mem R) (img : Image) : Prop where
  data : img.data ≠ 0
  gray : img.cc = 1
  wpos : 0 < img.width
  hpos : 0 < img.height
  wf : img.WF m

/-- All other blocks are as before. -/
def OnlyBlock (m m' : Mem R) (b : Nat) : Prop := ∀ b', b' ≠ b → m'.size b' = m.size b' ∧ ∀ i, m'.byte b' i = m.byte b' i

/-! ### C144 -/

/-- **C144.** What `set( image )` stores, for every image: the value at column x and row y is byte `y * width + x` of the image's memory. -/
theorem C144_set_image_exact {d : CudaDevice} {m : Mem R} {img : Image} {b : Nat} (hi : GrayImg m img) (hb : b ≠ 0) (hne : b ≠ img.data)
    (s : d.Serves img.width img.height) :
    ∃ L m1, setImage d img b m = .ok (⟨img.width, img.height, b⟩, L) m1 ∧ L.Always m1 fun m' =>
      Cplx m' ⟨img.width, img.height, b⟩ ∧ OnlyBlock m m' b ∧
      ∀ x y, x < img.width → y < img.height →
        reAt m' ⟨img.width, img.height, b⟩ x y = m.byte img.data (y * img.width + x) ∧ imAt m' ⟨img.width, img.height, b⟩ x y = 0 := by
  have hr : img.width ≤ img.rowSize := by
    have := hi.wf.row
    rw [hi.gray] at this
    omega
  have hle : img.width * img.height ≤ img.rowSize * img.height := Nat.mul_le_mul_right _ hr
  have hsm : img.width * img.height < 4294967296 := by
    have := hi.wf.small
    omega
  have hblk := hi.wf.block
  obtain ⟨L, e, hk, hL⟩ := vlaunch2D_ok (μ := Mem R) s hi.wpos hi.hpos (vguarded img.width img.height (copyFrom (R := R) img.data b img.width))
  refine ⟨L, { m with size := fun k => if k = b then 2 * (img.width * img.height) else m.size k }, ?_, ?_⟩
  · have h1 : (img.empty || img.cc != 1) = false := by
      rw [Image.empty, hi.gray]
      simpa using hi.data
    rw [setImage, h1, throwIf_false, pure_bind', u32_of_lt hsm]
    refine (bind_ok (show newBlock b _ m = .ok () _ from rfl)).trans ?_
    rw [e]
    rfl
  · refine (copyFrom_always (inp := img.data) (out := b) hi.data hb (Ne.symm hne) hsm ?_ ?_ hL hk).mono ?_
    · show _ ≤ if img.data = b then _ else _
      rw [if_neg (Ne.symm hne)]
      omega
    · show _ ≤ if b = b then _ else _
      rw [if_pos rfl]
    · rintro m' ⟨h1, h2, h3⟩
      refine ⟨⟨hb, hi.wpos, hi.hpos, hsm, ?_⟩, fun b' hb' => ⟨?_, fun i => ?_⟩, fun x y hx hy => h2 x y hx hy⟩
      · rw [h1]
        exact if_pos rfl
      · rw [h1]
        exact if_neg hb'
      · exact h3 b' i fun h => hb' h.1

/-- **C144** (partial) `set( image )` stores every pixel as real part with imaginary part 0, and changes nothing else, if the rows of the image
have no padding.
Missing: images with padding; false, see `C144_set_image_wrong`. -/
theorem C144_set_image_partial {d : CudaDevice} {m : Mem R} {img : Image} {b : Nat} (hi : GrayImg m img) (hrow : img.rowSize = img.width)
    (hb : b ≠ 0) (hne : b ≠ img.data) (s : d.Serves img.width img.height) :
    ∃ L m1, setImage d img b m = .ok (⟨img.width, img.height, b⟩, L) m1 ∧ L.Always m1 fun m' =>
      Cplx m' ⟨img.width, img.height, b⟩ ∧ OnlyBlock m m' b ∧
      ∀ x y, x < img.width → y < img.height →
        reAt m' ⟨img.width, img.height, b⟩ x y = (⟨img, 0, 0⟩ : View).get m x y 0 ∧ imAt m' ⟨img.width, img.height, b⟩ x y = 0 := by
  obtain ⟨L, m1, h1, h2⟩ := C144_set_image_exact hi hb hne s
  refine ⟨L, m1, h1, h2.mono ?_⟩
  rintro m' ⟨h3, h4, h5⟩
  refine ⟨h3, h4, fun x y hx hy => ⟨?_, (h5 x y hx hy).2⟩⟩
  rw [(h5 x y hx hy).1, View.get, View.cell]
  show m.byte img.data (y * img.width + x) = m.byte img.data ((0 + y) * img.rowSize + (0 + x) * img.cc + 0)
  rw [hrow, hi.gray, Nat.zero_add, Nat.zero_add, Nat.mul_one, Nat.add_zero]

/-- Empty and coloured images are refused; nothing changes. -/
theorem C144_set_image_rejects {d : CudaDevice} {m : Mem R} {img : Image} {b : Nat} (h : img.data = 0 ∨ img.cc ≠ 1) :
    setImage d img b m = .throw m := by
  have h1 : (img.empty || img.cc != 1) = true := by
    rw [Image.empty]
    simpa using h
  rw [setImage, h1]
  rfl

/-- **C144.** `set( array )` stores the numbers of the array as real parts with imaginary parts 0, and changes nothing else. -/
theorem C144_set_array {d : CudaDevice} {m : Mem R} {c : Fft.Obj} {data : Nat} (hc : Cplx m c) (hd : data ≠ 0) (hne : data ≠ c.data)
    (hsz : m.size data = c.width * c.height) (s : d.Serves c.width c.height) :
    ∃ L, setArray d c data (c.width * c.height) m = .ok L m ∧ L.Always m fun m' =>
      Cplx m' c ∧ OnlyBlock m m' c.data ∧
      ∀ x y, x < c.width → y < c.height → reAt m' c x y = m.byte data (y * c.width + x) ∧ imAt m' c x y = 0 := by
  obtain ⟨L, e, hk, hL⟩ := vlaunch2D_ok (μ := Mem R) s hc.wpos hc.hpos (vguarded c.width c.height (copyFrom (R := R) data c.data c.width))
  refine ⟨L, ?_, ?_⟩
  · have h1 : (c.width * c.height == 0 || c.width == 0 || c.height == 0 || c.width * c.height != u32 (c.width * c.height)) = false := by
      rw [u32_of_lt hc.small]
      have h1 := hc.wpos
      have h2 := hc.hpos
      have h3 := Nat.mul_pos h1 h2
      simp
      omega
    rw [setArray, h1, throwIf_false, pure_bind', e]
    rfl
  · refine (copyFrom_always hd hc.data hne hc.small (by omega) (by rw [hc.size]) hL hk).mono ?_
    rintro m' ⟨h1, h2, h3⟩
    exact ⟨⟨hc.data, hc.wpos, hc.hpos, hc.small, by rw [h1, hc.size]⟩, fun b' hb' => ⟨by rw [h1], fun i => h3 b' i fun h => hb' h.1⟩, h2⟩

/-- Arrays of another size are refused; nothing changes. -/
theorem C144_set_array_rejects {d : CudaDevice} {m : Mem R} {c : Fft.Obj} {data count : Nat} (hs : c.width * c.height < 4294967296)
    (h : count ≠ c.width * c.height ∨ count = 0) : setArray d c data count m = .throw m := by
  have h1 : (count == 0 || c.width == 0 || c.height == 0 || count != u32 (c.width * c.height)) = true := by
    rw [u32_of_lt hs]
    rcases h with h | h <;> simp [h]
  rw [setArray, h1]
  rfl

/-- The pixel of the value r among n values: r / n, rounded. -/
def PixelIs (rnd : R → R) (r : R) (n : Nat) (p : R) : Prop :=
  rnd n ≠ 0 ∧ -1 < rnd (rnd (r / rnd n) + 1 / 2) ∧ rnd (rnd (r / rnd n) + 1 / 2) < 256 ∧ p = (⌊rnd (rnd (r / rnd n) + 1 / 2)⌋.toNat : R)

theorem pixelOf_is {rnd : R → R} {r p : R} {n : Nat} (h : PixelIs rnd r n p) : pixelOf rnd r (rnd n) = some p := by
  obtain ⟨h1, h2, h3, h4⟩ := h
  rw [pixelOf, if_neg h1]
  exact (if_pos ⟨h2, h3⟩).trans (by rw [h4])

theorem swapped_even {k n : Nat} (hk : k < n) (hn : n < 4294967296) (he : n % 2 = 0) : swapped k n = (k + n / 2) % n := by
  rw [swapped]
  split
  · rw [u32_of_lt (by omega), Nat.mod_eq_of_lt (by omega)]
    omega
  · have : k + n / 2 = (k - n / 2) + n := by omega
    rw [this, Nat.add_mod_right, Nat.mod_eq_of_lt (by omega)]

/-- **C144** (partial) `get()` gives an image of the same size whose pixel (x + w/2 mod w, y + h/2 mod h) is the normalised real part at (x, y), and
changes nothing else, if width and height are even and all values are in the range of pixels.
Missing: odd sizes; false, see `C144_get_odd_wrong`. -/
theorem C144_get_partial {rnd : R → R} {d : CudaDevice} {m : Mem R} {c : Fft.Obj} {b : Nat} {P : Nat → Nat → R} (hc : Cplx m c) (hw : c.width % 2 = 0)
    (hh : c.height % 2 = 0) (hP : ∀ x y, x < c.width → y < c.height → PixelIs rnd (reAt m c x y) (c.width * c.height) (P x y))
    (hb : b ≠ 0) (hne : b ≠ c.data) (s : d.Serves c.width c.height) :
    ∃ L m1, getImage rnd d c b m = .ok (⟨b, c.width, c.height, 1, c.width⟩, some L) m1 ∧ L.Always m1 fun m' =>
      GrayImg m' ⟨b, c.width, c.height, 1, c.width⟩ ∧ OnlyBlock m m' b ∧
      ∀ x y, x < c.width → y < c.height →
        (⟨⟨b, c.width, c.height, 1, c.width⟩, 0, 0⟩ : View).get m' ((x + c.width / 2) % c.width) ((y + c.height / 2) % c.height) 0 = P x y := by
  obtain ⟨L, e, hk, hL⟩ := vlaunch2D_ok (μ := Mem R) s hc.wpos hc.hpos
    (vguarded c.width c.height (copyToImage rnd c.data b (rnd ((c.width * c.height : Nat) : R)) c.width c.height))
  refine ⟨L, { m with size := fun k => if k = b then c.height * c.width else m.size k }, ?_, ?_⟩
  · rw [getImage, if_neg hc.data, u32_of_lt hc.small]
    refine (bind_ok (show newBlock b _ m = .ok () _ from rfl)).trans ?_
    rw [e]
    rfl
  · refine (copyTo_always (inp := c.data) (out := b) (P := P) hc.data hb (Ne.symm hne) hc.small hw hh ?_ ?_ hL hk ?_).mono ?_
    · show _ ≤ if c.data = b then _ else _
      rw [if_neg (Ne.symm hne), hc.size]
    · show _ ≤ if b = b then _ else _
      rw [if_pos rfl, Nat.mul_comm]
    · exact fun x y hx hy => pixelOf_is (hP x y hx hy)
    · rintro m' ⟨h1, h2, h3⟩
      refine ⟨⟨hb, rfl, hc.wpos, hc.hpos, ?_, ?_, ?_⟩, fun b' hb' => ⟨?_, fun i => ?_⟩, fun x y hx hy => ?_⟩
      · exact Nat.le_of_eq (Nat.mul_one _)
      · rw [h1]
        show c.width * c.height ≤ if b = b then _ else _
        rw [if_pos rfl, Nat.mul_comm]
      · exact hc.small
      · rw [h1]
        exact if_neg hb'
      · exact h3 b' i fun h => hb' h.1
      · have w1 : c.width * 1 ≤ c.width * c.height := Nat.mul_le_mul_left _ hc.hpos
        have w2 : 1 * c.height ≤ c.width * c.height := Nat.mul_le_mul_right _ hc.wpos
        have hs := hc.small
        rw [← h2 x y hx hy, swapped_even hx (by omega) hw, swapped_even hy (by omega) hh, View.get, View.cell]
        show m'.byte b ((0 + _) * c.width + (0 + _) * 1 + 0) = _
        rw [Nat.zero_add, Nat.zero_add, Nat.mul_one, Nat.add_zero]

/-- An empty object gives an empty image. -/
theorem C144_get_empty {rnd : R → R} {d : CudaDevice} {m : Mem R} {c : Fft.Obj} {b : Nat} (hc : c.data = 0) :
    getImage rnd d c b m = .ok (⟨0, 0, 0, 1, 0⟩, none) m := by
  rw [getImage, if_pos hc]
  rfl

/-! ### Concrete cases -/

/-- Block b has n b cells with the values of the function. -/
def qMem (n : Nat → Nat) (f : Nat → Nat → ℚ) : QMem := ⟨n, f⟩

def taskEnded {A : Type} : Prog ℚ A → Bool
  | .ret _ => true
  | _ => false

/-- The cell after the schedule, if all threads have returned. -/
def vAfter (L : VLaunch ℚ) (m : QMem) (σ : List L.Thread) (b i : Nat) : Option ℚ :=
  if L.threads.all (fun t => taskEnded (((L.sys m).exec σ).task t)) then some (((L.sys m).exec σ).mem.byte b i) else none

/-- One thread after the other, each with n accesses; from the first thread or from the last one. -/
def forthL (L : VLaunch ℚ) (n : Nat) : List L.Thread := L.threads.flatMap (List.replicate n)
def backL (L : VLaunch ℚ) (n : Nat) : List L.Thread := L.threads.reverse.flatMap (List.replicate n)

theorem vAfter_of_always {L : VLaunch ℚ} {m : QMem} {Q : QMem → Prop} {σ : List L.Thread} {b i : Nat} {v : ℚ} (h : L.Always m Q)
    (ha : vAfter L m σ b i = some v) : ∃ m', Q m' ∧ m'.byte b i = v := by
  rw [vAfter] at ha
  split at ha
  · rename_i hc
    refine ⟨_, h.result σ fun t => ?_, Option.some.inj ha⟩
    have := List.all_eq_true.mp hc t (L.mem_threads t)
    revert this
    cases ((L.sys m).exec σ).task t with
    | ret a => exact fun _ => trivial
    | _ => nofun
  · cases ha

/-- A 2 x 2 image with rows of 4 bytes in block 1, with the values 0, 1, ..., 7 -/
def padImg : Image := ⟨1, 2, 2, 1, 4⟩
def padMem : QMem := qMem (fun b => if b = 1 then 8 else 0) (fun _ i => i)

theorem padImg_gray : GrayImg padMem padImg := ⟨by decide, rfl, by decide, by decide, by decide, by decide, by decide⟩

/-- **C144 is wrong for images with padding**: the second row of the data is the padding of the first row. -/
theorem C144_set_image_wrong : ∃ L m1, setImage small padImg 2 padMem = .ok (⟨2, 2, 2⟩, L) m1 ∧
    L.Always m1 fun m' => reAt m' ⟨2, 2, 2⟩ 0 1 = 2 ∧ (⟨padImg, 0, 0⟩ : View).get padMem 0 1 0 = 4 := by
  obtain ⟨L, m1, h1, h2⟩ := C144_set_image_exact (b := 2) padImg_gray (by decide) (by decide) (small_serves (by decide) (by decide))
  refine ⟨L, m1, h1, h2.mono ?_⟩
  rintro m' ⟨-, -, h⟩
  refine ⟨(h 0 1 (by decide) (by decide)).1.trans ?_, ?_⟩
  · show ((_ : Nat) : ℚ) = 2
    norm_num [padImg]
  · show ((_ : Nat) : ℚ) = 4
    norm_num [padImg, View.cell]

/-- Three values 0, 30 and 60 in one row -/
def rowC : Fft.Obj := ⟨3, 1, 1⟩
def rowMem : QMem := qMem (fun b => if b = 1 then 6 else 0) (fun b i => if b = 1 then (if i % 2 = 0 then 15 * i else 0) else 77)

theorem rowC_cplx : Cplx rowMem rowC := ⟨by decide, by decide, by decide, by decide, by decide⟩

/-- The launch of `get()` -/
def rowLaunch : Option (VLaunch ℚ × QMem) :=
  match getImage id small rowC 2 rowMem with
  | .ok (_, some L) m => some (L, m)
  | _ => none

/-- **C144 is wrong for odd sizes**: the pixel in the middle depends on the order of the threads, the last pixel is never written. -/
theorem C144_get_odd_wrong :
    rowLaunch.bind (fun p => vAfter p.1 p.2 (forthL p.1 3) 2 1) = some 20 ∧ rowLaunch.bind (fun p => vAfter p.1 p.2 (backL p.1 3) 2 1) = some 0 ∧
    rowLaunch.bind (fun p => vAfter p.1 p.2 (forthL p.1 3) 2 2) = some 77 ∧ rowLaunch.bind (fun p => vAfter p.1 p.2 (backL p.1 3) 2 2) = some 77 := by
  decide +kernel

/-! ### C145 -/

/-- Three arrays of the same size; the result is not one of the factors. -/
structure Factors (m : Mem R) (p q o : Fft.Obj) : Prop where
  cp : Cplx m p
  cq : Cplx m q
  co : Cplx m o
  pq : p.width = q.width ∧ p.height = q.height
  po : p.width = o.width ∧ p.height = o.height
  pneo : p.data ≠ o.data
  qneo : q.data ≠ o.data

/-- Value k of the array in block o is the product of the values k of the arrays in p and q. -/
def ProductAt (rnd : R → R) (m m' : Mem R) (p q o k : Nat) : Prop :=
  m'.byte o (2 * k) = rnd (rnd (m.byte p (2 * k) * m.byte q (2 * k)) - rnd (m.byte p (2 * k + 1) * m.byte q (2 * k + 1))) ∧
  m'.byte o (2 * k + 1) = rnd (rnd (m.byte p (2 * k) * m.byte q (2 * k + 1)) + rnd (m.byte p (2 * k + 1) * m.byte q (2 * k)))

theorem multiply_launch {rnd : R → R} {d : CudaDevice} {m : Mem R} {w h : Nat} {p q o : Fft.Obj} (hf : Factors m p q o) (hw : 0 < w) (hh : 0 < h)
    (s : d.Serves w h) : ∃ L : VLaunch R, complexMultiplication rnd d w h p q o m = .ok L m ∧
      L.kernel = vguarded w h (multiply rnd p.data q.data o.data w) ∧ L.Covers w h := by
  obtain ⟨L, e, hk, hL⟩ := vlaunch2D_ok (μ := Mem R) s hw hh (vguarded w h (multiply rnd p.data q.data o.data w))
  refine ⟨L, ?_, hk, hL⟩
  have h1 : (!(p.width == q.width && p.height == q.height) || !(p.width == o.width && p.height == o.height) || p.width == 0 || q.height == 0) = false := by
    have h1 : (p.width == 0) = false := by simpa using hf.cp.wpos.ne'
    have h2 : (q.height == 0) = false := by simpa using hf.cq.hpos.ne'
    rw [h1, h2, ← hf.pq.1, ← hf.pq.2, ← hf.po.1, ← hf.po.2]
    simp
  rw [complexMultiplication, h1, throwIf_false, pure_bind', e]
  rfl

/-- **C145.** What an executor of `w` x `h` does with three arrays, which may be larger: the first `w * h` values are products, all others
are not changed. -/
theorem C145_multiply_exact {rnd : R → R} {d : CudaDevice} {m : Mem R} {w h : Nat} {p q o : Fft.Obj} (hf : Factors m p q o) (hw : 0 < w) (hh : 0 < h)
    (hle : w * h ≤ p.width * p.height) (s : d.Serves w h) :
    ∃ L, complexMultiplication rnd d w h p q o m = .ok L m ∧ L.Always m fun m' =>
      m'.size = m.size ∧ (∀ k, k < w * h → ProductAt rnd m m' p.data q.data o.data k) ∧
      ∀ b k, ¬ (b = o.data ∧ k < 2 * (w * h)) → m'.byte b k = m.byte b k := by
  obtain ⟨L, e, hk, hL⟩ := multiply_launch (rnd := rnd) hf hw hh s
  have e1 := hf.cp.size
  have e2 := hf.cq.size
  have e3 := hf.co.size
  rw [← hf.pq.1, ← hf.pq.2] at e2
  rw [← hf.po.1, ← hf.po.2] at e3
  have hs := hf.cp.small
  exact ⟨L, e, multiply_always hf.cp.data hf.cq.data hf.co.data hf.pneo hf.qneo (by omega) (by omega) (by omega) (by omega) hL hk⟩

/-- **C145** (partial) An executor of the size of the arrays makes all products, and changes nothing else.
Missing: executors of other sizes, which are accepted as well; false, see `C145_smaller_wrong` and `C145_larger_exact`. The result in one of
the factors; false, see `C145_alias_wrong`. -/
theorem C145_multiply_partial {rnd : R → R} {d : CudaDevice} {m : Mem R} {p q o : Fft.Obj} (hf : Factors m p q o) (s : d.Serves p.width p.height) :
    ∃ L, complexMultiplication rnd d p.width p.height p q o m = .ok L m ∧ L.Always m fun m' =>
      Cplx m' o ∧ OnlyBlock m m' o.data ∧ ∀ k, k < p.width * p.height → ProductAt rnd m m' p.data q.data o.data k := by
  obtain ⟨L, h1, h2⟩ := C145_multiply_exact (rnd := rnd) hf hf.cp.wpos hf.cp.hpos (Nat.le_refl _) s
  refine ⟨L, h1, h2.mono ?_⟩
  rintro m' ⟨h3, h4, h5⟩
  exact ⟨⟨hf.co.data, hf.co.wpos, hf.co.hpos, hf.co.small, by rw [h3, hf.co.size]⟩, fun b' hb' => ⟨by rw [h3], fun i => h5 b' i fun h => hb' h.1⟩, h4⟩

/-- Arrays of different sizes and empty ones are refused; nothing changes. -/
theorem C145_rejects {rnd : R → R} {d : CudaDevice} {m : Mem R} {w h : Nat} {p q o : Fft.Obj}
    (hb : ¬ (p.width = q.width ∧ p.height = q.height) ∨ ¬ (p.width = o.width ∧ p.height = o.height) ∨ p.width = 0 ∨ p.height = 0) :
    complexMultiplication rnd d w h p q o m = .throw m := by
  have h1 : (!(p.width == q.width && p.height == q.height) || !(p.width == o.width && p.height == o.height) || p.width == 0 || q.height == 0) = true := by
    by_cases hq : p.width = q.width ∧ p.height = q.height
    · rcases hb with hb | hb | hb | hb
      · exact absurd hq hb
      · have : (p.width == o.width && p.height == o.height) = false := by simpa using hb
        rw [this]
        simp
      · simp [hb]
      · rw [hq.2] at hb
        simp [hb]
    · have : (p.width == q.width && p.height == q.height) = false := by simpa using hq
      rw [this]
      simp
  rw [complexMultiplication, h1]
  rfl

/-- **An executor larger than the arrays always accesses memory outside of them** (in some order of the threads at once). -/
theorem C145_larger_exact {rnd : R → R} {d : CudaDevice} {m : Mem R} {w h : Nat} {p q o : Fft.Obj} (hf : Factors m p q o) (hs : w * h < 4294967296)
    (hlt : p.width * p.height < w * h) (s : d.Serves w h) :
    ∃ L, complexMultiplication rnd d w h p q o m = .ok L m ∧ ∃ t : L.Thread, ((L.sys m).exec [t]).task t = .ub := by
  have hw : 0 < w := Nat.pos_of_ne_zero fun h => by rw [h, Nat.zero_mul] at hlt; omega
  have hh : 0 < h := Nat.pos_of_ne_zero fun h => by rw [h, Nat.mul_zero] at hlt; omega
  obtain ⟨L, e, hk, hL⟩ := multiply_launch (rnd := rnd) hf hw hh s
  obtain ⟨n, hn⟩ : ∃ n, n = p.width * p.height := ⟨_, rfl⟩
  rw [← hn] at hlt
  have hx : n % w < w := Nat.mod_lt _ hw
  have hy : n / w < h := by rw [Nat.div_lt_iff_lt_mul hw, Nat.mul_comm]; exact hlt
  have ek : n / w * w + n % w = n := by rw [Nat.mul_comm, Nat.div_add_mod]
  obtain ⟨t, t1, t2⟩ := hL.cover _ _ hx hy
  refine ⟨L, e, t, ?_⟩
  have hb : L.kernel (L.posX t) (L.posY t) = multiply rnd p.data q.data o.data w (n % w) (n / w) := by
    rw [hk, t1, t2, vguarded, if_pos ⟨hx, hy⟩]
  have hnv : ¬ m.Valid p.data (2 * n) := fun hv => by
    have := hv.2
    rw [hf.cp.size, ← hn] at this
    omega
  show (((L.sys m).step t).task t) = .ub
  simp only [Sys.step, ↓reduceIte]
  show ((L.kernel (L.posX t) (L.posY t)).step m).1 = .ub
  rw [hb, multiply, ident_eq hs hx hy, ek]
  show (if m.Valid p.data (2 * n) then _ else ((.ub : Prog R Unit), m)).1 = .ub
  rw [if_neg hnv]

/-- Two arrays of 2 x 1 values, all numbers are 1, and a third one of zeros -/
def mulMem : QMem := qMem (fun b => if b = 1 ∨ b = 2 ∨ b = 3 then 4 else 0) (fun b _ => if b = 3 then 0 else 1)

theorem mul_factors : Factors mulMem ⟨2, 1, 1⟩ ⟨2, 1, 2⟩ ⟨2, 1, 3⟩ :=
  ⟨⟨by decide, by decide, by decide, by decide, by decide⟩, ⟨by decide, by decide, by decide, by decide, by decide⟩,
    ⟨by decide, by decide, by decide, by decide, by decide⟩, ⟨rfl, rfl⟩, ⟨rfl, rfl⟩, by decide, by decide⟩

def mulLaunch (w h o : Nat) : Option (VLaunch ℚ) :=
  match complexMultiplication id small w h ⟨2, 1, 1⟩ ⟨2, 1, 2⟩ ⟨2, 1, o⟩ mulMem with
  | .ok L _ => some L
  | _ => none

/-- (1 + i) (1 + i) = 2i -/
example : (mulLaunch 2 1 3).bind (fun L => vAfter L mulMem (backL L 10) 3 2) = some 0 ∧
    (mulLaunch 2 1 3).bind (fun L => vAfter L mulMem (backL L 10) 3 3) = some 2 := by decide +kernel

/-- **C145 is wrong for executors smaller than the arrays**: the second product is not made. -/
theorem C145_smaller_wrong : (mulLaunch 1 1 3).bind (fun L => vAfter L mulMem (forthL L 10) 3 1) = some 2 ∧
    (mulLaunch 1 1 3).bind (fun L => vAfter L mulMem (forthL L 10) 3 3) = some 0 := by decide +kernel

/-- **C145 is wrong if the result is one of the factors**: the imaginary part is made from the new real part (0 instead of 1, so 1 instead of 2). -/
theorem C145_alias_wrong : (mulLaunch 2 1 1).bind (fun L => vAfter L mulMem (forthL L 10) 1 0) = some 0 ∧
    (mulLaunch 2 1 1).bind (fun L => vAfter L mulMem (forthL L 10) 1 1) = some 1 := by decide +kernel

/-- There are larger executors, and devices for them. -/
example : ∃ L, complexMultiplication id small 2 2 ⟨2, 1, 1⟩ ⟨2, 1, 2⟩ ⟨2, 1, 3⟩ mulMem = .ok L mulMem ∧ ∃ t : L.Thread, ((L.sys mulMem).exec [t]).task t = .ub :=
  C145_larger_exact mul_factors (by decide) (by decide) (small_serves (by decide) (by decide))

end PV.Props
