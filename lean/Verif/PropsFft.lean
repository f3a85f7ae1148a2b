import Verif.Fft
import Verif.PropsReduce
import Verif.PropsLight
/-
  C65: the image of a ComplexData; C82: data set from an image or a vector; C83: complex multiplication.
-/
namespace PV.Props
open PV PV.Fft

/-! ### C65 -/

/-- An object of `w` x `h` values (less than 2^32 of them) -/
structure Filled (c : Data) (d : Arr (ℚ × ℚ)) : Prop where
  data : c.data = some d
  len : d.len = c.width * c.height
  wpos : 0 < c.width
  hpos : 0 < c.height
  small : c.width * c.height < 4294967296

/-- The real part at column x and row y -/
def realAt (c : Data) (d : Arr (ℚ × ℚ)) (x y : Nat) : ℚ := (d.at' (y * c.width + x)).1

/-- All values are small enough to become pixels; F x y is the pixel of the value at (x, y). -/
def Pixels (rnd : ℚ → ℚ) (c : Data) (d : Arr (ℚ × ℚ)) (F : Nat → Nat → UInt8) : Prop :=
  ∀ x y, x < c.width → y < c.height →
    -1 < rnd (rnd (realAt c d x y / ((c.width * c.height : Nat) : ℚ)) + 1 / 2) ∧
    rnd (rnd (realAt c d x y / ((c.width * c.height : Nat) : ℚ)) + 1 / 2) < 256 ∧
    (F x y).toNat = ⌊rnd (rnd (realAt c d x y / ((c.width * c.height : Nat) : ℚ)) + 1 / 2)⌋.toNat

theorem toPixel_ok {rnd : ℚ → ℚ} {r : ℚ} {n : Nat} {v : UInt8} (hn : 0 < n) (h1 : -1 < rnd (rnd (r / (n : ℚ)) + 1 / 2))
    (h2 : rnd (rnd (r / (n : ℚ)) + 1 / 2) < 256) (h3 : v.toNat = ⌊rnd (rnd (r / (n : ℚ)) + 1 / 2)⌋.toNat) (m : BMem) :
    toPixel rnd r n m = .ok v m := by
  have hn' : (n : ℚ) ≠ 0 := by exact_mod_cast hn.ne'
  have e : divD rnd r (n : ℚ) m = .ok (rnd (r / (n : ℚ))) m := by
    rw [divD, if_neg hn']
    rfl
  rw [toPixel, bind_ok e, castU8, if_pos ⟨h1, h2⟩, ← h3, UInt8.ofNat_toNat]
  rfl

theorem shifted_lt {k n : Nat} (hk : k < n) (hn : n < 4294967296) : shifted k (n / 2) < n := by
  rw [shifted]
  split
  · rw [u32_of_lt (by omega)]
    omega
  · omega

theorem shifted_even {k n : Nat} (hk : k < n) (hn : n < 4294967296) (he : n % 2 = 0) : shifted k (n / 2) = (k + n / 2) % n := by
  rw [shifted]
  split
  · rw [u32_of_lt (by omega), Nat.mod_eq_of_lt (by omega)]
    omega
  · have : k + n / 2 = (k - n / 2) + n := by omega
    rw [this, Nat.add_mod_right, Nat.mod_eq_of_lt (by omega)]

/-- Two steps of the shift of an even number of rows or columns come back. -/
theorem shifted_twice {k n : Nat} (hk : k < n) (hn : n < 4294967296) (he : n % 2 = 0) : shifted (shifted k (n / 2)) (n / 2) = k := by
  by_cases h : k < n / 2
  · have e : shifted k (n / 2) = n / 2 + k := by
      rw [shifted, if_pos h, u32_of_lt (by omega)]
    rw [e, shifted, if_neg (by omega)]
    omega
  · have e : shifted k (n / 2) = k - n / 2 := by
      rw [shifted, if_neg h]
    rw [e, shifted, if_pos (by omega), u32_of_lt (by omega)]
    omega

/-- What the loops of get() have done before the value at column x and row y. -/
structure Swapped (c : Data) (b : Nat) (F : Nat → Nat → UInt8) (m m' : BMem) (D : Nat → Nat → Prop) : Prop where
  size : m'.size = m.size
  other : ∀ b' i, (∀ x y, x < c.width → y < c.height → D x y → ¬ (b' = b ∧ i = shifted y (c.height / 2) * c.width + shifted x (c.width / 2))) →
    m'.byte b' i = m.byte b' i
  even : c.width % 2 = 0 → c.height % 2 = 0 → ∀ x y, x < c.width → y < c.height → D x y →
    m'.byte b (shifted y (c.height / 2) * c.width + shifted x (c.width / 2)) = F x y

theorem swapped_step {rnd : ℚ → ℚ} {c : Data} {d : Arr (ℚ × ℚ)} {F : Nat → Nat → UInt8} {b x y : Nat} {m m' : BMem} {D D' : Nat → Nat → Prop}
    (h : Filled c d) (hF : Pixels rnd c d F) (hb : b ≠ 0) (hm : m.size b = c.height * c.width) (hx : x < c.width) (hy : y < c.height)
    (hp : Swapped c b F m m' D) (hD : ∀ x' y', D' x' y' ↔ D x' y' ∨ (x' = x ∧ y' = y)) (hnew : ¬ D x y) :
    ∃ m2, (do
        let a ← d.rd (u32 (u32 (y * c.width) + x))
        let v ← toPixel rnd a.1 (u32 (c.width * c.height))
        writeC b (u32 (u32 (shifted y (c.height / 2) * c.width) + shifted x (c.width / 2))) v : M BMem Unit) m' = .ok () m2 ∧ Swapped c b F m m2 D' := by
  have hw : c.width < 4294967296 := lt_of_le_of_lt (Nat.le_mul_of_pos_right _ h.hpos) h.small
  have hh : c.height < 4294967296 := lt_of_le_of_lt (Nat.le_mul_of_pos_left _ h.wpos) h.small
  have hsx := shifted_lt hx hw
  have hsy := shifted_lt hy hh
  have hin := mul_add_lt hy hx
  have hout := mul_add_lt hsy hsx
  have hcm : c.height * c.width = c.width * c.height := Nat.mul_comm _ _
  have hsm := h.small
  have e1 : u32 (u32 (y * c.width) + x) = y * c.width + x := by
    rw [u32_of_lt (n := y * c.width) (by omega), u32_of_lt (by omega)]
  have e2 : u32 (u32 (shifted y (c.height / 2) * c.width) + shifted x (c.width / 2)) = shifted y (c.height / 2) * c.width + shifted x (c.width / 2) := by
    rw [u32_of_lt (n := shifted y (c.height / 2) * c.width) (by omega), u32_of_lt (by omega)]
  rw [e1, e2, u32_of_lt h.small]
  obtain ⟨g1, g2, g3⟩ := hF x y hx hy
  have hv : m'.Valid b (shifted y (c.height / 2) * c.width + shifted x (c.width / 2)) := ⟨hb, by rw [hp.size, hm]; exact hout⟩
  refine ⟨m'.set b (shifted y (c.height / 2) * c.width + shifted x (c.width / 2)) (F x y), ?_, ?_, ?_, ?_⟩
  · refine (bind_ok (Arr.rd_ok (by rw [h.len]; omega) m')).trans ((bind_ok (toPixel_ok (Nat.mul_pos h.wpos h.hpos) g1 g2 g3 m')).trans ?_)
    exact writeC_ok _ hv
  · rw [Mem.set_size, hp.size]
  · intro b' i hi
    rw [Mem.set_other _ _ (hi x y hx hy ((hD x y).2 (Or.inr ⟨rfl, rfl⟩)))]
    exact hp.other b' i fun x' y' h1 h2 h3 => hi x' y' h1 h2 ((hD x' y').2 (Or.inl h3))
  · intro ew eh x' y' h1 h2 h3
    by_cases hxy : x' = x ∧ y' = y
    · rw [hxy.1, hxy.2, Mem.set_same]
    · have hne : ¬ (b = b ∧ shifted y' (c.height / 2) * c.width + shifted x' (c.width / 2) = shifted y (c.height / 2) * c.width + shifted x (c.width / 2)) := by
        rintro ⟨-, he⟩
        obtain ⟨q1, q2⟩ := mul_add_inj (shifted_lt h1 hw) hsx he
        refine hxy ⟨?_, ?_⟩
        · rw [← shifted_twice h1 hw ew, q2, shifted_twice hx hw ew]
        · rw [← shifted_twice h2 hh eh, q1, shifted_twice hy hh eh]
      rw [Mem.set_other _ _ hne]
      refine hp.even ew eh x' y' h1 h2 ?_
      rcases (hD x' y').1 h3 with h4 | h4
      · exact h4
      · exact absurd h4 hxy

/-- The whole of get() -/
theorem get_run {rnd : ℚ → ℚ} {c : Data} {d : Arr (ℚ × ℚ)} {F : Nat → Nat → UInt8} {b : Nat} (m : BMem)
    (h : Filled c d) (hF : Pixels rnd c d F) (hb : b ≠ 0) :
    ∃ m', getImage rnd c b m = .ok ⟨b, c.width, c.height, 1, c.width⟩ m' ∧
      Swapped c b F { m with size := fun k => if k = b then c.height * c.width else m.size k } m' (fun _ _ => True) := by
  have hw : c.width < 4294967296 := lt_of_le_of_lt (Nat.le_mul_of_pos_right _ h.hpos) h.small
  have hh : c.height < 4294967296 := lt_of_le_of_lt (Nat.le_mul_of_pos_left _ h.wpos) h.small
  obtain ⟨m0, hm0⟩ : ∃ m0 : BMem, m0 = { m with size := fun k => if k = b then c.height * c.width else m.size k } := ⟨_, rfl⟩
  have hms : m0.size b = c.height * c.width := by
    rw [hm0]
    exact if_pos rfl
  have hnew : newGray b c.width c.height m = .ok ⟨b, c.width, c.height, 1, c.width⟩ m0 := by
    rw [hm0]
    rfl
  rw [← hm0]
  obtain ⟨_, m', h1, h2⟩ := forLoop_inv (μ := BMem) (A := Unit) (a := 0) (n := c.height) (x := ()) (m := m0)
    (body := fun inY _ => forLoop 0 c.width (fun inX _ => do
        let a ← d.rd (u32 (u32 (inY * c.width) + inX))
        let v ← toPixel rnd a.1 (u32 (c.width * c.height))
        writeC b (u32 (u32 (shifted inY (c.height / 2) * c.width) + shifted inX (c.width / 2))) v) ())
    (P := fun k _ m' => Swapped c b F m0 m' fun _ y => y < k) (Nat.zero_le _) (by rw [fuelMax]; omega)
    ⟨rfl, fun _ _ _ => rfl, fun _ _ x y _ _ h => absurd h (Nat.not_lt_zero _)⟩
    (by
      intro y _ m1 _ hy hp
      obtain ⟨_, m2, h3, h4⟩ := forLoop_inv (μ := BMem) (A := Unit) (a := 0) (n := c.width) (x := ()) (m := m1)
        (body := fun inX _ => do
          let a ← d.rd (u32 (u32 (y * c.width) + inX))
          let v ← toPixel rnd a.1 (u32 (c.width * c.height))
          writeC b (u32 (u32 (shifted y (c.height / 2) * c.width) + shifted inX (c.width / 2))) v)
        (P := fun k _ m' => Swapped c b F m0 m' fun x' y' => y' < y ∨ (y' = y ∧ x' < k)) (Nat.zero_le _) (by rw [fuelMax]; omega)
        ⟨hp.size, fun b' i hi => hp.other b' i fun x' y' a1 a2 a3 => hi x' y' a1 a2 (Or.inl a3),
          fun ew eh x' y' a1 a2 a3 => hp.even ew eh x' y' a1 a2 (a3.elim id fun q => absurd q.2 (Nat.not_lt_zero _))⟩
        (by
          intro x _ m3 _ hx hp3
          obtain ⟨m4, h5, h6⟩ := swapped_step h hF hb hms hx hy hp3 (D' := fun x' y' => y' < y ∨ (y' = y ∧ x' < x + 1))
            (by intro x' y'; omega) (by omega)
          exact ⟨(), m4, h5, h6⟩)
      refine ⟨(), m2, h3, h4.size, fun b' i hi => h4.other b' i fun x' y' a1 a2 a3 => hi x' y' a1 a2 (by omega),
        fun ew eh x' y' a1 a2 a3 => h4.even ew eh x' y' a1 a2 (by omega)⟩)
  refine ⟨m', ?_, h2.size, fun b' i hi => h2.other b' i fun x' y' a1 a2 _ => hi x' y' a1 a2 trivial,
    fun ew eh x' y' a1 a2 _ => h2.even ew eh x' y' a1 a2 a2⟩
  rw [getImage, h.data]
  dsimp only
  rw [bind_ok hnew]
  exact bind_ok h1

/-- C65 for an even width and an even height: every pixel of the returned image is written, the pixel at (x, y) with the value half
    a picture away, and nothing else changes. -/
theorem C65_get_partial {rnd : ℚ → ℚ} {c : Data} {d : Arr (ℚ × ℚ)} {F : Nat → Nat → UInt8} {b : Nat} (m : BMem)
    (h : Filled c d) (hF : Pixels rnd c d F) (hb : b ≠ 0) (hw : c.width % 2 = 0) (hh : c.height % 2 = 0) :
    ∃ m', getImage rnd c b m = .ok ⟨b, c.width, c.height, 1, c.width⟩ m' ∧ m'.size b = c.height * c.width ∧
      (∀ x y, x < c.width → y < c.height → m'.byte b (y * c.width + x) = F ((x + c.width / 2) % c.width) ((y + c.height / 2) % c.height)) ∧
      (∀ b' i, ¬ (b' = b ∧ i < c.width * c.height) → m'.byte b' i = m.byte b' i) := by
  have hw' : c.width < 4294967296 := lt_of_le_of_lt (Nat.le_mul_of_pos_right _ h.hpos) h.small
  have hh' : c.height < 4294967296 := lt_of_le_of_lt (Nat.le_mul_of_pos_left _ h.wpos) h.small
  obtain ⟨m', h1, h2⟩ := get_run m h hF hb
  refine ⟨m', h1, ?_, ?_, ?_⟩
  · rw [h2.size]
    exact if_pos rfl
  · intro x y hx hy
    have := h2.even hw hh (shifted x (c.width / 2)) (shifted y (c.height / 2)) (shifted_lt hx hw') (shifted_lt hy hh') trivial
    rw [shifted_twice hx hw' hw, shifted_twice hy hh' hh] at this
    rw [this, shifted_even hx hw' hw, shifted_even hy hh' hh]
  · intro b' i hi
    refine h2.other b' i fun x y hx hy _ hc => hi ⟨hc.1, ?_⟩
    rw [hc.2, Nat.mul_comm c.width]
    exact mul_add_lt (shifted_lt hy hh') (shifted_lt hx hw')

/-- For every size get() stays inside of the new image. -/
theorem C65_inside {rnd : ℚ → ℚ} {c : Data} {d : Arr (ℚ × ℚ)} {F : Nat → Nat → UInt8} {b : Nat} (m : BMem)
    (h : Filled c d) (hF : Pixels rnd c d F) (hb : b ≠ 0) :
    ∃ m', getImage rnd c b m = .ok ⟨b, c.width, c.height, 1, c.width⟩ m' ∧
      (∀ b' i, ¬ (b' = b ∧ i < c.width * c.height) → m'.byte b' i = m.byte b' i) := by
  have hw' : c.width < 4294967296 := lt_of_le_of_lt (Nat.le_mul_of_pos_right _ h.hpos) h.small
  have hh' : c.height < 4294967296 := lt_of_le_of_lt (Nat.le_mul_of_pos_left _ h.wpos) h.small
  obtain ⟨m', h1, h2⟩ := get_run m h hF hb
  refine ⟨m', h1, ?_⟩
  intro b' i hi
  refine h2.other b' i fun x y hx hy _ hc => hi ⟨hc.1, ?_⟩
  rw [hc.2, Nat.mul_comm c.width]
  exact mul_add_lt (shifted_lt hy hh') (shifted_lt hx hw')

/-- C65 is false for every odd width above 1: whatever the new memory contained stays in the last column.  (With an odd height the
    same happens to the last row.) -/
theorem C65_wrong_odd {rnd : ℚ → ℚ} {c : Data} {d : Arr (ℚ × ℚ)} {F : Nat → Nat → UInt8} {b : Nat} (m : BMem)
    (h : Filled c d) (hF : Pixels rnd c d F) (hb : b ≠ 0) (hodd : c.width % 2 = 1) (h1 : 1 < c.width) :
    ∃ m', getImage rnd c b m = .ok ⟨b, c.width, c.height, 1, c.width⟩ m' ∧
      ∀ y, y < c.height → m'.byte b (y * c.width + (c.width - 1)) = m.byte b (y * c.width + (c.width - 1)) := by
  have hw' : c.width < 4294967296 := lt_of_le_of_lt (Nat.le_mul_of_pos_right _ h.hpos) h.small
  obtain ⟨m', h2, h3⟩ := get_run m h hF hb
  refine ⟨m', h2, fun y hy => ?_⟩
  refine h3.other b _ fun x' y' hx' hy' _ hc => ?_
  obtain ⟨-, q⟩ := mul_add_inj (by omega) (shifted_lt hx' hw') hc.2
  rw [shifted] at q
  split at q
  · rw [u32_of_lt (by omega)] at q
    omega
  · omega

/-! #### Examples -/

/-- 4 x 2 values 0, 8, 16, …: after division by the number of values they are the pixels 0, 1, 2, … -/
def ramp (w h : Nat) : Data := ⟨w, h, some ⟨w * h, fun k => ((k * (w * h) : Nat), 3)⟩⟩

def fftMem : BMem := ⟨fun b => if b = 1 then 40 else 0, fun b i => UInt8.ofNat (100 * b + i)⟩

/-- The first n bytes of block 2 after get() -/
def pixelsOf (n : Nat) (r : Res BMem Image) : Option (Image × List UInt8) :=
  match r with
  | .ok img m => some (img, (List.range n).map (m.byte img.data))
  | _ => none

theorem ramp_get : pixelsOf 8 (getImage id (ramp 4 2) 2 fftMem) = some (⟨2, 4, 2, 1, 4⟩, [6, 7, 4, 5, 2, 3, 0, 1]) := by
  decide +kernel

example : Filled (ramp 4 2) ⟨4 * 2, fun k => ((k * (4 * 2) : Nat), 3)⟩ := ⟨rfl, rfl, by decide, by decide, by decide⟩

example : Pixels id (ramp 4 2) ⟨4 * 2, fun k => ((k * (4 * 2) : Nat), 3)⟩ fun x y => UInt8.ofNat (y * 4 + x) := by
  intro x y hx hy
  change x < 4 at hx
  change y < 2 at hy
  have : ∀ x : Fin 4, ∀ y : Fin 2, (-1 : ℚ) < ((y.val * 4 + x.val) * (4 * 2) : Nat) / ((4 * 2 : Nat) : ℚ) + 1 / 2 ∧
    (((y.val * 4 + x.val) * (4 * 2) : Nat) : ℚ) / ((4 * 2 : Nat) : ℚ) + 1 / 2 < 256 ∧
    (UInt8.ofNat (y.val * 4 + x.val)).toNat = ⌊(((y.val * 4 + x.val) * (4 * 2) : Nat) : ℚ) / ((4 * 2 : Nat) : ℚ) + 1 / 2⌋.toNat := by
    decide +kernel
  exact this ⟨x, hx⟩ ⟨y, hy⟩

/-- 3 x 1: pixel 1 is written twice, pixel 2 keeps the byte 202 of the new memory. -/
theorem C65_wrong : pixelsOf 3 (getImage id (ramp 3 1) 2 fftMem) = some (⟨2, 3, 1, 1, 3⟩, [1, 2, 202]) := by
  decide +kernel

/-- A negative value is converted to `uint8_t`: undefined. -/
theorem C65_wrong_value : isUb (getImage id ⟨2, 2, some ⟨4, fun _ => (-8, 0)⟩⟩ 2 fftMem) = true := by
  decide +kernel

/-- Nothing allocated: an empty image -/
theorem C65_empty (rnd : ℚ → ℚ) (c : Data) (b : Nat) (m : BMem) (h : c.data = none) : getImage rnd c b m = .ok ⟨0, 0, 0, 1, 0⟩ m := by
  rw [getImage, h]
  rfl

/-! ### C82 -/

/-- C82: the data set from a gray-scale image are its pixels, row by row without padding, with imaginary part 0; the image does not
    change. -/
theorem C82_set_image {m : BMem} {img : Image} (h : LightImage m img) :
    ∃ d, setImage img m = .ok ⟨img.width, img.height, some d⟩ m ∧ d.len = img.width * img.height ∧
      ∀ x y, x < img.width → y < img.height → d.at' (y * img.width + x) = (((pixelOf m img x y).toNat : ℚ), 0) := by
  obtain ⟨hcc, hr, _, hw, hh, hfit, _, _, hwcc, _⟩ := View.facts (v := ⟨img, 0, 0⟩) h.wf h.fits
  dsimp only at hr hw hh hfit
  have hwr : img.width ≤ img.rowSize := by
    have := h.wf.row
    rw [h.gray] at this
    omega
  have hsm : img.width * img.height < 4294967296 := by
    have : img.width * img.height ≤ img.rowSize * img.height := Nat.mul_le_mul_right _ hwr
    have := h.wf.small
    omega
  have hthrow : throwIf (μ := BMem) (img.empty || img.cc != 1) m = .ok () m := by
    have : (img.empty || img.cc != 1) = false := by
      have := h.data
      simp [Image.empty, h.gray, this]
    rw [this]
    rfl
  rw [setImage, bind_ok hthrow]
  have e := rowLoop1_eq (μ := BMem) (row := img.rowSize) (step := 1) (pY := 0) (n := img.width) (height := img.height)
    (body := fun inX (q : Nat × Arr (ℚ × ℚ)) => do
      let a ← readC img.data inX
      let d ← q.2.wr q.1 ((a.toNat : ℚ), 0)
      pure (q.1 + 1, d)) (0, ⟨u32 (img.width * img.height), fun _ => (0, 0)⟩) hr Nat.one_pos hfit (by omega)
  rw [Nat.mul_one] at e
  rw [e, u32_of_lt hsm]
  obtain ⟨r, h1, h2, h3, h4⟩ := fold_prefix (μ := BMem) (m := m) (A := Nat × Arr (ℚ × ℚ)) (all := grid img.height img.width)
    (body := fun p (q : Nat × Arr (ℚ × ℚ)) => do
      let a ← readC img.data (0 + p.1 * img.rowSize + p.2 * 1)
      let d ← q.2.wr q.1 ((a.toNat : ℚ), 0)
      pure (q.1 + 1, d))
    (P := fun (L : List (Nat × Nat)) (r : Nat × Arr (ℚ × ℚ)) => r.1 = L.length ∧ r.2.len = img.width * img.height ∧
      ∀ i (hi : i < L.length), r.2.at' i = (((pixelOf m img L[i].2 L[i].1).toNat : ℚ), 0))
    (by
      rintro pre p post ⟨k, d⟩ hall ⟨g1, g2, g3⟩
      dsimp only at g1 g2 g3
      have hmem : p ∈ grid img.height img.width := by
        rw [← hall]
        simp
      obtain ⟨p1, p2⟩ := mem_grid.1 hmem
      have hlen : pre.length < img.width * img.height := by
        have : (pre ++ p :: post).length = img.height * img.width := by
          rw [hall, length_grid]
        rw [List.length_append, List.length_cons, Nat.mul_comm] at this
        omega
      refine ⟨_, (bind_ok (?_ : _ = Res.ok (pixelOf m img p.2 p.1) m)).trans ((bind_ok (Arr.wr_ok _ (by rw [g2, g1]; exact hlen) m)).trans rfl), ?_, ?_, ?_⟩
      · rw [Nat.zero_add, Nat.mul_one]
        exact h.read rfl p2 p1
      · simp [g1]
      · exact g2
      · intro i hi
        dsimp only
        by_cases hik : i = k
        · rw [if_pos hik]
          subst hik
          subst g1
          simp
        · rw [if_neg hik]
          have hi2 : i < pre.length := by
            rw [List.length_append, List.length_singleton] at hi
            omega
          rw [g3 i hi2, List.getElem_append_left hi2])
    (grid img.height img.width) [] (0, ⟨img.width * img.height, fun _ => (0, 0)⟩) rfl
    ⟨rfl, rfl, fun i hi => absurd hi (Nat.not_lt_zero _)⟩
  refine ⟨r.2, bind_ok h1, h3, fun x y hx hy => ?_⟩
  obtain ⟨hi, he⟩ := grid_index hy hx
  rw [h4 _ hi, he]

/-- An empty or coloured image is refused and nothing changes. -/
theorem C82_set_image_rejects {img : Image} (m : BMem) (h : img.data = 0 ∨ img.cc ≠ 1) : setImage img m = .throw m := by
  have : (img.empty || img.cc != 1) = true := by
    rcases h with h | h <;> simp [Image.empty, h]
  rw [setImage, this]
  rfl

/-- C82: a vector of the right length is copied. -/
theorem C82_set_vector {c : Data} {d : Arr (ℚ × ℚ)} {v : List ℚ} (m : BMem) (h : Filled c d) (hv : v.length = c.width * c.height) :
    ∃ d', setVector v c m = .ok { c with data := some d' } m ∧ d'.len = d.len ∧ ∀ k (hk : k < v.length), d'.at' k = (v[k], 0) := by
  have hpos : 0 < v.length := by
    rw [hv]
    exact Nat.mul_pos h.wpos h.hpos
  have hthrow : throwIf (μ := BMem) (v.isEmpty || c.width == 0 || c.height == 0 || v.length != u32 (c.width * c.height)) m = .ok () m := by
    have : (v.isEmpty || c.width == 0 || c.height == 0 || v.length != u32 (c.width * c.height)) = false := by
      rw [u32_of_lt h.small]
      have h1 := h.wpos.ne'
      have h2 := h.hpos.ne'
      have h3 : v ≠ [] := List.ne_nil_of_length_pos hpos
      simp [h1, h2, h3, hv]
    rw [this]
    rfl
  have e : copyVector v (c.width * c.height) d = fold (fun k d => do
      let a ← orUb v[k]?
      d.wr k (a, 0)) (List.range (c.width * c.height)) d :=
    loop_eq_fold (fun k => k) (c.width * c.height) fuelMax d (by have := h.small; rw [fuelMax]; omega) (fun k hk => by simp; omega) (by simp) (fun _ _ => rfl)
  obtain ⟨r, h1, h2, h3⟩ := fold_prefix (μ := BMem) (m := m) (A := Arr (ℚ × ℚ)) (all := List.range (c.width * c.height))
    (body := fun k d => do
      let a ← orUb v[k]?
      d.wr k (a, 0))
    (P := fun (L : List Nat) (r : Arr (ℚ × ℚ)) => r.len = d.len ∧ ∀ k (hk : k < v.length), k ∈ L → r.at' k = (v[k], 0))
    (by
      rintro pre p post a hall ⟨g1, g2⟩
      have hp : p < c.width * c.height := by
        have : p ∈ List.range (c.width * c.height) := by
          rw [← hall]
          simp
        exact List.mem_range.1 this
      have hpv : p < v.length := by omega
      refine ⟨_, (bind_ok (?_ : _ = Res.ok v[p] m)).trans (Arr.wr_ok _ (by rw [g1, h.len]; exact hp) m), g1, ?_⟩
      · rw [List.getElem?_eq_getElem hpv]
        rfl
      · intro k hk hkm
        dsimp only
        by_cases hkp : k = p
        · subst hkp
          rw [if_pos rfl]
        · rw [if_neg hkp]
          refine g2 k hk ?_
          rcases List.mem_append.1 hkm with h | h
          · exact h
          · exact absurd (List.mem_singleton.1 h) hkp)
    (List.range (c.width * c.height)) [] d rfl ⟨rfl, fun _ _ h => absurd h (by simp)⟩
  refine ⟨r, ?_, h2, fun k hk => h3 k hk (List.mem_range.2 (by omega))⟩
  have hd : orUb (μ := BMem) c.data m = .ok d m := by
    rw [h.data]
    rfl
  rw [setVector, bind_ok hthrow, bind_ok hd, u32_of_lt h.small, e]
  exact bind_ok h1

/-- A vector of any other length is refused and nothing changes. -/
theorem C82_set_vector_rejects {c : Data} {v : List ℚ} (m : BMem) (h : v = [] ∨ c.width = 0 ∨ c.height = 0 ∨ v.length ≠ c.width * c.height)
    (hs : c.width * c.height < 4294967296) : setVector v c m = .throw m := by
  have : (v.isEmpty || c.width == 0 || c.height == 0 || v.length != u32 (c.width * c.height)) = true := by
    rw [u32_of_lt hs]
    rcases h with h | h | h | h <;> simp [h]
  rw [setVector, this]
  rfl

example : LightImage ⟨fun b => if b = 1 then 8 else 0, fun _ i => UInt8.ofNat (i + 5)⟩ ⟨1, 3, 2, 1, 4⟩ :=
  ⟨⟨by decide, by decide, by decide⟩, by decide, rfl, by decide, by decide⟩

/-! ### C83 -/

/-- Three objects of one size -/
structure SameSize (p q o : Obj) (m : Mem (ℚ × ℚ)) : Prop where
  w2 : q.width = p.width
  h2 : q.height = p.height
  w3 : o.width = p.width
  h3 : o.height = p.height
  wpos : 0 < p.width
  hpos : 0 < p.height
  small : p.width * p.height < 4294967296
  b1 : p.data ≠ 0 ∧ m.size p.data = p.width * p.height
  b2 : q.data ≠ 0 ∧ m.size q.data = p.width * p.height
  b3 : o.data ≠ 0 ∧ m.size o.data = p.width * p.height

/-- The product of two complex numbers, each operation rounded -/
def complexProduct (rnd : ℚ → ℚ) (a b : ℚ × ℚ) : ℚ × ℚ :=
  (rnd (rnd (a.1 * b.1) - rnd (a.2 * b.2)), rnd (rnd (a.1 * b.2) + rnd (a.2 * b.1)))

theorem multiplyAt_ok {rnd : ℚ → ℚ} {p q o k : Nat} {m : Mem (ℚ × ℚ)} (hp : m.Valid p k) (hq : m.Valid q k) (ho : m.Valid o k)
    (h1 : o ≠ p) (h2 : o ≠ q) : ∃ m', multiplyAt rnd p q o k m = .ok () m' ∧ m'.size = m.size ∧
      m'.byte o k = complexProduct rnd (m.byte p k) (m.byte q k) ∧ ∀ b i, ¬ (b = o ∧ i = k) → m'.byte b i = m.byte b i := by
  obtain ⟨m1, hm1⟩ : ∃ m1, m1 = m.set o k (rnd (rnd ((m.byte p k).1 * (m.byte q k).1) - rnd ((m.byte p k).2 * (m.byte q k).2)), (m.byte o k).2) := ⟨_, rfl⟩
  have hs1 : m1.size = m.size := by rw [hm1]; rfl
  have hv : ∀ b, m.Valid b k → m1.Valid b k := fun b h => ⟨h.1, by rw [hs1]; exact h.2⟩
  have e1 : m1.byte p k = m.byte p k := by rw [hm1, Mem.set_other _ _ (by rintro ⟨h, -⟩; exact h1 h.symm)]
  have e2 : m1.byte q k = m.byte q k := by rw [hm1, Mem.set_other _ _ (by rintro ⟨h, -⟩; exact h2 h.symm)]
  have e3 : m1.byte o k = (rnd (rnd ((m.byte p k).1 * (m.byte q k).1) - rnd ((m.byte p k).2 * (m.byte q k).2)), (m.byte o k).2) := by
    rw [hm1, Mem.set_same]
  refine ⟨m1.set o k (complexProduct rnd (m.byte p k) (m.byte q k)), ?_, by rw [Mem.set_size, hs1], Mem.set_same _ _ _ _, ?_⟩
  · rw [multiplyAt, bind_ok (readC_ok hp), bind_ok (readC_ok hq), bind_ok (readC_ok ho), bind_ok (writeC_ok _ ho), ← hm1,
      bind_ok (readC_ok (hv p hp)), bind_ok (readC_ok (hv q hq)), bind_ok (readC_ok (hv o ho)), writeC_ok _ (hv o ho), e1, e2, e3]
    rfl
  · intro b i h
    rw [Mem.set_other _ _ h, hm1, Mem.set_other _ _ h]

/-- C83 for an output which is neither of the inputs: every value is the product of the two input values and nothing else changes;
    the two inputs may be the same object. -/
theorem C83_product_partial {rnd : ℚ → ℚ} {p q o : Obj} {m : Mem (ℚ × ℚ)} (h : SameSize p q o m) (h1 : o.data ≠ p.data) (h2 : o.data ≠ q.data) :
    ∃ m', complexMultiplication rnd p q o m = .ok () m' ∧ m'.size = m.size ∧
      (∀ k, k < p.width * p.height → m'.byte o.data k = complexProduct rnd (m.byte p.data k) (m.byte q.data k)) ∧
      ∀ b i, ¬ (b = o.data ∧ i < p.width * p.height) → m'.byte b i = m.byte b i := by
  have hthrow : throwIf (μ := Mem (ℚ × ℚ)) (!(p.width == q.width && p.height == q.height) || !(p.width == o.width && p.height == o.height) || p.width == 0 || p.height == 0) m = .ok () m := by
    have : (!(p.width == q.width && p.height == q.height) || !(p.width == o.width && p.height == o.height) || p.width == 0 || p.height == 0) = false := by
      have a1 := h.wpos.ne'
      have a2 := h.hpos.ne'
      simp [h.w2, h.h2, h.w3, h.h3, a1, a2]
    rw [this]
    rfl
  rw [complexMultiplication, bind_ok hthrow, u32_of_lt h.small]
  have hf : p.width * p.height < fuelMax := by have := h.small; rw [fuelMax]; omega
  rw [loop_eq_fold (fun k => k) (p.width * p.height) fuelMax () hf (fun k hk => by simp; omega) (by simp) (fun _ _ => rfl)]
  suffices hs : ∀ n, n ≤ p.width * p.height → ∃ m', fold (fun k _ => multiplyAt rnd p.data q.data o.data k) (List.range n) () m = .ok () m' ∧ m'.size = m.size ∧
      (∀ k, k < n → m'.byte o.data k = complexProduct rnd (m.byte p.data k) (m.byte q.data k)) ∧
      ∀ b i, ¬ (b = o.data ∧ i < n) → m'.byte b i = m.byte b i from hs _ (Nat.le_refl _)
  intro n
  induction n with
  | zero => exact fun _ => ⟨m, rfl, rfl, fun _ h => absurd h (Nat.not_lt_zero _), fun _ _ _ => rfl⟩
  | succ n ih =>
    intro hn
    obtain ⟨m1, a1, a2, a3, a4⟩ := ih (by omega)
    have hv : ∀ b, b ≠ 0 ∧ m.size b = p.width * p.height → m1.Valid b n := fun b hb => ⟨hb.1, by rw [a2, hb.2]; omega⟩
    obtain ⟨m2, c1, c2, c3, c4⟩ := multiplyAt_ok (rnd := rnd) (hv _ h.b1) (hv _ h.b2) (hv _ h.b3) h1 h2
    refine ⟨m2, ?_, by rw [c2, a2], ?_, ?_⟩
    · rw [List.range_succ, fold_append]
      exact (bind_ok a1).trans ((bind_ok c1).trans rfl)
    · intro k hk
      by_cases hkn : k = n
      · subst hkn
        rw [c3, a4 p.data k (fun hc => h1 hc.1.symm), a4 q.data k (fun hc => h2 hc.1.symm)]
      · rw [c4 _ _ (fun hc => hkn hc.2), a3 k (by omega)]
    · intro b i hb
      rw [c4 b i (fun hc => hb ⟨hc.1, by omega⟩), a4 b i (fun hc => hb ⟨hc.1, by omega⟩)]

/-- Objects of different sizes and empty ones are refused and nothing changes. -/
theorem C83_rejects {rnd : ℚ → ℚ} {p q o : Obj} (m : Mem (ℚ × ℚ))
    (h : p.width ≠ q.width ∨ p.height ≠ q.height ∨ p.width ≠ o.width ∨ p.height ≠ o.height ∨ p.width = 0 ∨ p.height = 0) :
    complexMultiplication rnd p q o m = .throw m := by
  have : (!(p.width == q.width && p.height == q.height) || !(p.width == o.width && p.height == o.height) || p.width == 0 || p.height == 0) = true := by
    rcases h with h | h | h | h | h | h <;> simp [h]
  rw [complexMultiplication, this]
  rfl

/-- Two objects of 2 x 1 values: 1 + 2i, 3 + 4i in block 1 and 5 + 6i, 7 + 8i in block 2; block 3 is another object. -/
def cMem : Mem (ℚ × ℚ) := ⟨fun b => if b < 4 then 2 else 0, fun b i => (4 * b + 2 * i - 3, 4 * b + 2 * i - 2)⟩

def cVals (b : Nat) (r : Res (Mem (ℚ × ℚ)) Unit) : Option (List (ℚ × ℚ)) :=
  match r with
  | .ok _ m => some [m.byte b 0, m.byte b 1]
  | _ => none

example : SameSize ⟨2, 1, 1⟩ ⟨2, 1, 2⟩ ⟨2, 1, 3⟩ cMem :=
  ⟨rfl, rfl, rfl, rfl, by decide, by decide, by decide, by decide, by decide, by decide⟩

theorem cMem_product : cVals 3 (complexMultiplication id ⟨2, 1, 1⟩ ⟨2, 1, 2⟩ ⟨2, 1, 3⟩ cMem) = some [(-7, 16), (-11, 52)] := by
  decide +kernel

/-- C83 is false when the output is one of the inputs: the real part is overwritten before the imaginary part is computed from it.
    (1 + 2i)(5 + 6i) becomes -7 - 32i. -/
theorem C83_wrong : cVals 1 (complexMultiplication id ⟨2, 1, 1⟩ ⟨2, 1, 2⟩ ⟨2, 1, 1⟩ cMem) = some [(-7, -32), (-11, -60)] := by
  decide +kernel

end PV.Props
