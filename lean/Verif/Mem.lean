import Verif.Core
/-
  Memory blocks, image handles, and sequences of writes.
-/
namespace PV

variable {μ α β γ A S ι κ : Type}

/-- Memory made of numbered blocks (block 0 is the null pointer).  `size b` is the
    number of cells of block `b`, `byte b i` the content of cell `i`.  Cells are
    `uint8_t` or `uint16_t` values. -/
structure Mem (α : Type) where
  size : Nat → Nat
  byte : Nat → Nat → α

namespace Mem

/-- Store one cell. Not in the code: machinery of the model. -/
def set (m : Mem α) (b i : Nat) (v : α) : Mem α :=
  { m with byte := fun b' i' => if b' = b ∧ i' = i then v else m.byte b' i' }

@[simp] theorem set_size (m : Mem α) (b i : Nat) (v : α) : (m.set b i v).size = m.size := rfl

theorem set_same (m : Mem α) (b i : Nat) (v : α) : (m.set b i v).byte b i = v := by
  simp [set]

theorem set_other (m : Mem α) {b i b' i' : Nat} (v : α) (h : ¬ (b' = b ∧ i' = i)) :
    (m.set b i v).byte b' i' = m.byte b' i' := by
  simp only [set, if_neg h]

/-- The cell `i` of block `b` may be dereferenced. Not in the code: machinery of the model. -/
def Valid (m : Mem α) (b i : Nat) : Prop := b ≠ 0 ∧ i < m.size b

instance (m : Mem α) (b i : Nat) : Decidable (m.Valid b i) := inferInstanceAs (Decidable (_ ∧ _))

end Mem

/-- `*p` as a value, `p` pointing to cell `i` of block `b`. Not in the code: machinery of the model. -/
def readC (b i : Nat) : M (Mem α) α := fun m =>
  if m.Valid b i then .ok (m.byte b i) m else .ub

/-- `*p = v`. Not in the code: machinery of the model. -/
def writeC (b i : Nat) (v : α) : M (Mem α) Unit := fun m =>
  if m.Valid b i then .ok () (m.set b i v) else .ub

theorem readC_ok {m : Mem α} {b i : Nat} (h : m.Valid b i) : readC b i m = .ok (m.byte b i) m := by
  rw [readC, if_pos h]

theorem writeC_ok {m : Mem α} {b i : Nat} (v : α) (h : m.Valid b i) :
    writeC b i v m = .ok () (m.set b i v) := by
  rw [writeC, if_pos h]

/-- `memset( p, v, n )` : `n` cells starting at cell `i` of block `b`. For example src/image_function.cpp 747. -/
def memsetC (b i : Nat) (v : α) (n : Nat) : M (Mem α) Unit :=
  fold (fun k _ => writeC b (i + k) v) (List.range n) ()

/-- `memcpy( p, q, n )`.  Overlapping regions are undefined behaviour (C11 7.24.2.1). -/
def memcpyC (b i b' i' : Nat) (n : Nat) : M (Mem α) Unit := fun m =>
  if b = b' ∧ i < i' + n ∧ i' < i + n then .ub
  else fold (fun k _ => do
    let v ← readC b' (i' + k)
    writeC b (i + k) v) (List.range n) () m

/-- Image object of `src/image_buffer.h` lines 329-350 as the pixel functions see it:
    `data` is a block number (0 = `nullptr`), all other fields are the C++ members.
    The device type is not part of this structure. -/
structure Image where
  data : Nat
  width : Nat
  height : Nat
  cc : Nat
  rowSize : Nat
deriving DecidableEq, Repr

/-- An image argument together with its start point (`image, startX, startY`), as the
    functions of `src/image_function.h` take them. For example the arguments of src/image_function.cpp 657. -/
structure View where
  img : Image
  x : Nat
  y : Nat
deriving DecidableEq, Repr

namespace View

/-- Index of channel `c` of the pixel at position (x, y) relative to the start point. For example src/image_function.cpp 221. -/
def cell (v : View) (x y c : Nat) : Nat :=
  (v.y + y) * v.img.rowSize + (v.x + x) * v.img.cc + c

/-- Value of channel `c` of the pixel at position (x, y) relative to the start point. Not in the code: machinery of the model. -/
def get (v : View) (m : Mem α) (x y c : Nat) : α := m.byte v.img.data (v.cell x y c)

/-- The rectangle of size `w` x `h` at the start point is a non-empty part of a
    non-empty image with 1, 3 or 4 channels. Not in the code: for statements and proofs. -/
structure Fits (v : View) (w h : Nat) : Prop where
  nonempty : v.img.data ≠ 0
  colors : v.img.cc = 1 ∨ v.img.cc = 3 ∨ v.img.cc = 4
  wpos : 0 < w
  hpos : 0 < h
  inX : v.x + w ≤ v.img.width
  inY : v.y + h ≤ v.img.height

/-- All numbers of a view are `uint32_t` values. -/
structure U32 (v : View) : Prop where
  hx : v.x < 4294967296
  hy : v.y < 4294967296
  hw : v.img.width < 4294967296
  hh : v.img.height < 4294967296

end View

/-- The image object owns its pixels: rows are long enough, the block is large enough,
    and the image has less than 4 GiB. Not in the code: for statements and proofs. -/
structure Image.WF (m : Mem α) (img : Image) : Prop where
  row : img.width * img.cc ≤ img.rowSize
  block : img.rowSize * img.height ≤ m.size img.data
  small : img.rowSize * img.height < 4294967296

/-- Specification of a function that writes exactly a rectangle of one image:
    the value at each position is given by `F`, everything else is untouched. -/
structure WritesRoi (m m' : Mem α) (v : View) (w h : Nat) (F : Nat → Nat → Nat → α) : Prop where
  size_eq : m'.size = m.size
  inside : ∀ x y c, x < w → y < h → c < v.img.cc → v.get m' x y c = F x y c
  outside : ∀ b i, ¬ (b = v.img.data ∧ ∃ x y c, x < w ∧ y < h ∧ c < v.img.cc ∧ i = v.cell x y c) →
    m'.byte b i = m.byte b i

/-- Reading `vi` and writing `vo` position by position do not disturb each other: a
    cell of the input rectangle is a cell of the output rectangle only at the same
    position.  True for different storage, for the same image with the same ROI, and
    for disjoint ROIs (lemmas below). Not in the code: for statements and proofs. -/
def NoClash (vi vo : View) (w h : Nat) : Prop :=
  ∀ x y c x' y' c', x < w → y < h → c < vi.img.cc → x' < w → y' < h → c' < vo.img.cc →
    vi.img.data = vo.img.data → vi.cell x y c = vo.cell x' y' c' → x = x' ∧ y = y' ∧ c = c'

/-- Input and output rectangle have no cell in common. Not in the code: for statements and proofs. -/
def Apart (vi : View) (wi hi : Nat) (vo : View) (wo ho : Nat) : Prop :=
  ∀ x y c x' y' c', x < wi → y < hi → c < vi.img.cc → x' < wo → y' < ho → c' < vo.img.cc →
    vi.img.data = vo.img.data → vi.cell x y c ≠ vo.cell x' y' c'

theorem noClash_of_ne {vi vo : View} (w h : Nat) (hd : vi.img.data ≠ vo.img.data) :
    NoClash vi vo w h := fun _ _ _ _ _ _ _ _ _ _ _ _ hdd => absurd hdd hd

theorem apart_of_ne {vi vo : View} (wi hi wo ho : Nat) (hd : vi.img.data ≠ vo.img.data) :
    Apart vi wi hi vo wo ho := fun _ _ _ _ _ _ _ _ _ _ _ _ hdd => absurd hdd hd

theorem noClash_of_apart {vi vo : View} {w h : Nat} (hd : Apart vi w h vo w h) :
    NoClash vi vo w h := fun _ _ _ _ _ _ a b c d e f hdd hc => absurd hc (hd _ _ _ _ _ _ a b c d e f hdd)

/-! ### Arithmetic of cells -/

theorem mul_add_inj {r a b a' b' : Nat} (hb : b < r) (hb' : b' < r)
    (h : a * r + b = a' * r + b') : a = a' ∧ b = b' := by
  have hr : 0 < r := by omega
  have h1 : (a * r + b) / r = a := by
    rw [Nat.mul_comm, Nat.mul_add_div hr, Nat.div_eq_of_lt hb, Nat.add_zero]
  have h2 : (a' * r + b') / r = a' := by
    rw [Nat.mul_comm, Nat.mul_add_div hr, Nat.div_eq_of_lt hb', Nat.add_zero]
  have ha : a = a' := by rw [← h1, ← h2, h]
  subst ha
  exact ⟨rfl, by omega⟩

theorem mul_add_lt {a b n r : Nat} (ha : a < n) (hb : b < r) : a * r + b < n * r := by
  have : (a + 1) * r ≤ n * r := Nat.mul_le_mul_right r ha
  rw [Nat.succ_mul] at this
  omega

theorem cell_inj {v : View} {w h x y c x' y' c' : Nat}
    (hrow : v.img.width * v.img.cc ≤ v.img.rowSize) (hin : v.x + w ≤ v.img.width)
    (hx : x < w) (hc : c < v.img.cc) (hx' : x' < w) (hc' : c' < v.img.cc)
    (_ : y < h) (_ : y' < h)
    (he : v.cell x y c = v.cell x' y' c') : x = x' ∧ y = y' ∧ c = c' := by
  unfold View.cell at he
  have h1 : (v.x + x) * v.img.cc + c < v.img.width * v.img.cc := mul_add_lt (by omega) hc
  have h2 : (v.x + x') * v.img.cc + c' < v.img.width * v.img.cc := mul_add_lt (by omega) hc'
  have := mul_add_inj (r := v.img.rowSize) (a := v.y + y) (a' := v.y + y')
    (b := (v.x + x) * v.img.cc + c) (b' := (v.x + x') * v.img.cc + c') (by omega) (by omega) (by omega)
  have h3 := mul_add_inj hc hc' this.2
  omega

theorem noClash_self {v : View} {w h : Nat}
    (hrow : v.img.width * v.img.cc ≤ v.img.rowSize) (hin : v.x + w ≤ v.img.width) :
    NoClash v v w h := fun _ _ _ _ _ _ a b c d e f _ hcell =>
  cell_inj hrow hin a c d f b e hcell

/-- Different, non-intersecting rectangles of one image never clash. -/
theorem apart_disjoint {v v' : View} {w h w' h' : Nat} (hi : v'.img = v.img)
    (hrow : v.img.width * v.img.cc ≤ v.img.rowSize)
    (h1 : v.x + w ≤ v.img.width) (h2 : v'.x + w' ≤ v.img.width)
    (hd : v.x + w ≤ v'.x ∨ v'.x + w' ≤ v.x ∨ v.y + h ≤ v'.y ∨ v'.y + h' ≤ v.y) :
    Apart v w h v' w' h' := by
  intro x y c x' y' c' hx hy hc hx' hy' hc' _ he
  rw [hi] at hc'
  unfold View.cell at he
  rw [hi] at he
  have h3 : (v.x + x) * v.img.cc + c < v.img.width * v.img.cc := mul_add_lt (by omega) hc
  have h4 : (v'.x + x') * v.img.cc + c' < v.img.width * v.img.cc := mul_add_lt (by omega) hc'
  have := mul_add_inj (r := v.img.rowSize) (a := v.y + y) (a' := v'.y + y')
    (b := (v.x + x) * v.img.cc + c) (b' := (v'.x + x') * v.img.cc + c') (by omega) (by omega) (by omega)
  have h5 := mul_add_inj hc hc' this.2
  omega

theorem View.cell_valid {m : Mem α} {v : View} {w h x y c : Nat} (wf : v.img.WF m)
    (fit : v.Fits w h) (hx : x < w) (hy : y < h) (hc : c < v.img.cc) :
    m.Valid v.img.data (v.cell x y c) := by
  refine ⟨fit.nonempty, ?_⟩
  have h1 : (v.x + x) * v.img.cc + c < v.img.width * v.img.cc :=
    mul_add_lt (by have := fit.inX; omega) hc
  have h2 : (v.y + y) * v.img.rowSize + ((v.x + x) * v.img.cc + c) < v.img.height * v.img.rowSize :=
    mul_add_lt (by have := fit.inY; omega) (by have := wf.row; omega)
  have h3 := wf.block
  rw [Nat.mul_comm] at h3
  unfold View.cell
  omega

/-! ### A sequence of single-cell writes

The final memory of a sequence of writes to different cells, whose values do not depend
on the cells the other steps write, is determined completely and does not depend on the
order of the steps. -/

/-- `m'` is `m` except possibly for the cells written by steps of `L` other than `p`. Not in the code: for statements and proofs. -/
def AgreeExcept (dst : ι → Nat × Nat) (L : List ι) (p : ι) (m m' : Mem α) : Prop :=
  m'.size = m.size ∧
  ∀ b i, (∀ q ∈ L, q ≠ p → dst q ≠ (b, i)) → m'.byte b i = m.byte b i

theorem fold_writes {L : List ι} {body : ι → Unit → M (Mem α) Unit} {dst : ι → Nat × Nat}
    {val : ι → α} {m : Mem α} (hnd : L.Nodup)
    (hinj : ∀ p ∈ L, ∀ q ∈ L, dst p = dst q → p = q)
    (hbody : ∀ p ∈ L, ∀ m', AgreeExcept dst L p m m' →
      body p () m' = .ok () (m'.set (dst p).1 (dst p).2 (val p))) :
    ∃ m', fold body L () m = .ok () m' ∧ m'.size = m.size ∧
      (∀ p ∈ L, m'.byte (dst p).1 (dst p).2 = val p) ∧
      (∀ b i, (∀ p ∈ L, dst p ≠ (b, i)) → m'.byte b i = m.byte b i) := by
  suffices h : ∀ (rest done : List ι) (mc : Mem α), done ++ rest = L → mc.size = m.size →
      (∀ p ∈ done, mc.byte (dst p).1 (dst p).2 = val p) →
      (∀ b i, (∀ p ∈ done, dst p ≠ (b, i)) → mc.byte b i = m.byte b i) →
      ∃ m', fold body rest () mc = .ok () m' ∧ m'.size = m.size ∧
        (∀ p ∈ L, m'.byte (dst p).1 (dst p).2 = val p) ∧
        (∀ b i, (∀ p ∈ L, dst p ≠ (b, i)) → m'.byte b i = m.byte b i) by
    exact h L [] m rfl rfl (by simp) (by simp)
  intro rest
  induction rest with
  | nil =>
    intro done mc hL hs h1 h2
    rw [List.append_nil] at hL
    subst hL
    exact ⟨mc, rfl, hs, h1, h2⟩
  | cons p ps ih =>
    intro done mc hL hs h1 h2
    have hpL : p ∈ L := by rw [← hL]; simp
    have hdL : ∀ q ∈ done, q ∈ L := fun q hq => by rw [← hL]; simp [hq]
    have hpnd : p ∉ done := by
      intro hpd
      rw [← hL, List.nodup_append] at hnd
      exact hnd.2.2 p hpd p (List.mem_cons_self ..) rfl
    have hag : AgreeExcept dst L p m mc := by
      refine ⟨hs, fun b i hq => h2 b i fun q hqd => hq q (hdL q hqd) ?_⟩
      intro hqp
      exact hpnd (hqp ▸ hqd)
    rw [fold_cons, bind_ok (hbody p hpL mc hag)]
    refine ih (done ++ [p]) _ (by rw [← hL]; simp) hs ?_ ?_
    · intro q hq
      by_cases hqp : q = p
      · subst hqp
        exact Mem.set_same ..
      · have hqd : q ∈ done := by simpa [hqp] using hq
        rw [Mem.set_other]
        · exact h1 q hqd
        · intro ⟨ha, hb⟩
          exact hqp (hinj q (hdL q hqd) p hpL (Prod.ext ha hb))
    · intro b i hne
      rw [Mem.set_other]
      · exact h2 b i fun q hq => hne q (by simp [hq])
      · intro ⟨ha, hb⟩
        exact hne p (by simp) (Prod.ext ha.symm hb.symm)

end PV
