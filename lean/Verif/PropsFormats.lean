import Verif.FormatsLemmas
/-
  C124: PNG files.  C125: JPEG files.  C126: the format of a file is chosen by its name.  C127: colours in files.
-/
namespace PV.Props
open PV PV.Raw PV.Formats

/-! ### What is expected of the libraries -/

/-- The largest width and height libpng accepts by default -/
def pngLimit : Nat := 1000000

/-- A picture libpng accepts -/
structure Picture.Valid (p : Picture) : Prop where
  width : 0 < p.width ∧ p.width ≤ pngLimit
  height : 0 < p.height ∧ p.height ≤ pngLimit
  rows : p.rows.length = p.height
  row : ∀ r ∈ p.rows, r.length = p.width * (if p.gray then 1 else 3)

/-- libpng: PNG is lossless, and the rows it gives have four bytes for each pixel. -/
structure PngLaw (L : PngLib) : Prop where
  back : ∀ p : Picture, Picture.Valid p → L.decode (L.encode p) = some (expand p)
  width : ∀ l d, L.decode l = some d → 0 < d.width ∧ d.width ≤ pngLimit
  height : ∀ l d, L.decode l = some d → 0 < d.height ∧ d.height ≤ pngLimit
  rows : ∀ l d, L.decode l = some d → d.rows.length = d.height
  row : ∀ l d, L.decode l = some d → ∀ r ∈ d.rows, r.length = 4 * d.width

/-- libjpeg: nothing is known of the relation between lines compressed and lines decompressed, only their number and length. -/
structure JpegLaw (L : JpegLib) : Prop where
  width : ∀ l s, L.decode l = some s → 0 < s.width ∧ s.width ≤ 65500
  height : ∀ l s, L.decode l = some s → 0 < s.height ∧ s.height ≤ 65500
  components : ∀ l s, L.decode l = some s → 1 ≤ s.components ∧ s.components ≤ 4
  rows : ∀ l s, L.decode l = some s → s.rows.length = s.height
  row : ∀ l s, L.decode l = some s → ∀ r ∈ s.rows, r.length = s.width * s.components

/-- The value `c` - red, green, blue, alpha - of a pixel of a PNG file -/
def Decoded.at (d : Decoded) (x y c : Nat) : Option UInt8 := d.rows[y]?.bind fun r => r[4 * x + c]?

/-- The value `c` of a pixel in the lines of a JPEG file -/
def Scan.at (s : Scan) (x y c : Nat) : Option UInt8 := s.rows[y]?.bind fun r => r[x * s.components + c]?

/-! ### C124 -/

/-- The rectangle is part of the image and libpng accepts its size. -/
structure PngSavable (v : View) (w h : Nat) (d : Disk) : Prop where
  fits : v.Fits w h
  wf : v.img.WF d.mem
  wide : w ≤ pngLimit
  high : h ≤ pngLimit

/-- The file can be created and has room for every picture of the size. -/
structure PngRoom (L : PngLib) (E : Env) (path : String) (w h : Nat) : Prop where
  creates : E.creates path = true
  room : ∀ p : Picture, Picture.Valid p → p.width = w → p.height = h → (L.encode p).length ≤ E.room path

/-- The file can be created and has room for all lines of the size. -/
structure JpegRoom (L : JpegLib) (q : Int) (E : Env) (path : String) (w h cc : Nat) : Prop where
  creates : E.creates path = true
  room : ∀ s : Scan, s.width = w → s.height = h → s.components = cc → s.rows.length = h → (∀ r ∈ s.rows, r.length = w * cc) →
    (L.encode q s).length ≤ E.room path

theorem pngBytes_le {v : View} {w h : Nat} (fits : v.Fits w h) : pngBytes v.img.cc ≤ v.img.cc := by
  rw [pngBytes]
  rcases fits.colors with h | h | h <;> rw [h] <;> decide

theorem putAll_ok {E : Env} {path : String} {l : List UInt8} (h : l.length ≤ E.room path) (d : Disk) :
    putAll E path l d = .ok () { d with file := fun q => if q = path then some l else d.file q } := by
  rw [putAll, if_pos h]
  rfl

/-- What Save gives to libpng -/
theorem save_png {L : PngLib} {E : Env} {path : String} {v : View} {w h : Nat} {d : Disk} (s : PngSavable v w h d) (hc : E.creates path = true) :
    ∃ p : Picture, Picture.Valid p ∧ p.width = w ∧ p.height = h ∧ p.gray = (v.img.cc == 1) ∧
      (∀ y, y < h → ∃ r, p.rows[y]? = some r ∧ r.length = w * pngBytes v.img.cc ∧ ∀ x c, x < w → c < pngBytes v.img.cc →
        r[x * pngBytes v.img.cc + c]? = some (d.mem.byte v.img.data (v.cell 0 y 0 + x * pngBytes v.img.cc + (pngBytes v.img.cc - 1 - c)))) ∧
      ((L.encode p).length ≤ E.room path → ∃ d', pngSave L E path v w h d = .ok () d' ∧ OnlyFile path d d' ∧ d'.file path = some (L.encode p)) := by
  obtain ⟨-, -, f3, f4, f5, -, f7, f8, f9, f10⟩ := View.facts s.wf s.fits
  have h1 := s.fits.inX
  have h2 := s.fits.inY
  have h3 := Nat.mul_le_mul_left w (pngBytes_le s.fits)
  have hcell : ∀ y, v.y * v.img.rowSize + v.x * v.img.cc + y * v.img.rowSize = v.cell 0 y 0 := by
    intro y
    rw [View.cell, Nat.add_mul, Nat.add_zero, Nat.add_zero]
    omega
  obtain ⟨rs, g1, g2, g3, g4⟩ := pngRows_ok (img := v.img) (m := d.mem) (w := w) s.fits.nonempty h (v.y * v.img.rowSize + v.x * v.img.cc) (fun y hy => by
    have := cell_in s.fits s.wf hy
    rw [hcell]
    omega)
  have hbytes : pngBytes v.img.cc = if (v.img.cc == 1) = true then 1 else 3 := by
    rw [pngBytes]
    by_cases e : v.img.cc = 1
    · rw [if_pos e, if_pos (by simpa using e)]
    · rw [if_neg e, if_neg (by simpa using e)]
  refine ⟨⟨w, h, v.img.cc == 1, rs⟩, ⟨⟨s.fits.wpos, s.wide⟩, ⟨s.fits.hpos, s.high⟩, g2, fun r hr => ?_⟩, rfl, rfl, rfl, fun y hy => ?_, fun hroom => ?_⟩
  · rw [g3 r hr, hbytes]
  · obtain ⟨r, q1, q2⟩ := g4 y hy
    refine ⟨r, q1, g3 r (List.mem_of_getElem? q1), fun x c hx hc => ?_⟩
    rw [q2 x c hx hc, hcell]
  · refine ⟨{ d with file := fun q => if q = path then some (L.encode ⟨w, h, v.img.cc == 1, rs⟩) else d.file q }, ?_, ⟨rfl, rfl, fun q hq => by dsimp only; rw [if_neg hq]⟩, by dsimp only; rw [if_pos rfl]⟩
    rw [pngSave, bind_ok (validateRoi_ok d s.fits (by omega) (by omega)), hc]
    refine (bind_ok (show throwIf (!true) d = .ok () d from rfl)).trans ?_
    refine (bind_ok (show setFile path [] d = .ok () { d with file := fun q => if q = path then some [] else d.file q } from rfl)).trans ?_
    rw [u32_of_lt f7, u32_of_lt f8]
    refine (bind_ok (onMem_ok (d := { d with file := fun q => if q = path then some [] else d.file q }) g1)).trans ?_
    refine (putAll_ok hroom _).trans ?_
    congr 2
    funext q
    by_cases e : q = path
    · dsimp only
      rw [if_pos e, if_pos e]
    · dsimp only
      rw [if_neg e, if_neg e, if_neg e]

/-- The values of pixels in a PNG file made by Save -/
theorem decoded_at {m : BMem} {v : View} {w h : Nat} {p : Picture} (hv : Picture.Valid p) (hw : p.width = w) (hg : p.gray = (v.img.cc == 1))
    (hr : ∀ y, y < h → ∃ r, p.rows[y]? = some r ∧ r.length = w * pngBytes v.img.cc ∧ ∀ x c, x < w → c < pngBytes v.img.cc →
        r[x * pngBytes v.img.cc + c]? = some (m.byte v.img.data (v.cell 0 y 0 + x * pngBytes v.img.cc + (pngBytes v.img.cc - 1 - c)))) :
    ∀ x y c, x < w → y < h → c < pngBytes v.img.cc →
      Decoded.at (expand p) x y (pngBytes v.img.cc - 1 - c) = some (m.byte v.img.data (v.cell 0 y 0 + x * pngBytes v.img.cc + c)) := by
  intro x y c hx hy hc
  obtain ⟨r, q1, q2, q3⟩ := hr y hy
  have hrow : (expand p).rows[y]? = some ((if p.gray then expandGray else expandRgb) r) := by
    rw [expand]
    dsimp only
    rw [List.getElem?_map, q1]
    rfl
  rw [Decoded.at, hrow, Option.bind_some]
  by_cases e : v.img.cc = 1
  · have hk : pngBytes v.img.cc = 1 := by rw [pngBytes, if_pos e]
    rw [hk] at q2 q3 hc ⊢
    rw [hg, if_pos (by simpa using e)]
    have := q3 x 0 hx (by omega)
    rw [show 4 * x + (1 - 1 - c) = 4 * x by omega, (expandGray_get r).2 x (by omega), show x = x * 1 + 0 by omega, this]
    congr 2
    omega
  · have hk : pngBytes v.img.cc = 3 := by rw [pngBytes, if_neg e]
    rw [hk] at q2 q3 hc ⊢
    rw [hg, if_neg (by simpa using e), (expandRgb_get w r q2).2 x (3 - 1 - c) hx (by omega), q3 x (3 - 1 - c) hx (by omega)]
    congr 2
    omega

/-- C124: for every PNG file, Load gives an image of the size of the picture, with one colour for gray-scale pictures and blue, green and red
    in this order otherwise; nothing else changes. -/
theorem C124_png_load {L : PngLib} (law : PngLaw L) {path : String} {d : Disk} {l : List UInt8} {p : Decoded} (hp : path ≠ "")
    (hf : d.file path = some l) (hl : L.decode l = some p) (hn : d.next ≠ 0) :
    ∃ d' img, pngLoad L path d = .ok img d' ∧ img.data = d.next ∧ img.width = p.width ∧ img.height = p.height ∧ img.cc = (if p.gray then 1 else 3) ∧
      img.rowSize = img.width * img.cc ∧ img.rowSize * img.height = d'.mem.size img.data ∧
      (p.gray = true → ∀ x y, x < p.width → y < p.height → Decoded.at p x y 0 = some (View.get ⟨img, 0, 0⟩ d'.mem x y 0)) ∧
      (p.gray = false → ∀ x y, x < p.width → y < p.height → Decoded.at p x y 0 = some (View.get ⟨img, 0, 0⟩ d'.mem x y 2) ∧
        Decoded.at p x y 1 = some (View.get ⟨img, 0, 0⟩ d'.mem x y 1) ∧ Decoded.at p x y 2 = some (View.get ⟨img, 0, 0⟩ d'.mem x y 0)) ∧
      (∀ b i, b ≠ d.next → d'.mem.byte b i = d.mem.byte b i) ∧ (∀ b, b ≠ d.next → d'.mem.size b = d.mem.size b) ∧ d'.file = d.file := by
  have hw := law.width l p hl
  have hh := law.height l p hl
  have hlim : pngLimit = 1000000 := rfl
  have hcc : (if p.gray = true then 1 else 3) = pngColors p.gray := rfl
  have hk : pngColors p.gray ≤ 3 := by
    rw [pngColors]
    split <;> omega
  have hsmall : p.width * pngColors p.gray < 4294967296 := by
    have := Nat.mul_le_mul hw.2 hk
    omega
  obtain ⟨m', h1, h2, h3, h4⟩ := pngPixels_ok (img := ⟨d.next, p.width, p.height, pngColors p.gray, p.width * pngColors p.gray⟩) (gray := p.gray) hn (Nat.le_refl _) p.rows 0
    { d.mem with size := fun b => if b = d.next then p.height * u32 (p.width * pngColors p.gray) * 1 else d.mem.size b }
    (by dsimp only; rw [if_pos rfl, law.rows l p hl, u32_of_lt hsmall, Nat.mul_one, Nat.mul_comm]; omega) (law.row l p hl)
  have hget : ∀ x y c, x < p.width → y < p.height → c < pngColors p.gray → Decoded.at p x y (pngColors p.gray - 1 - c)
      = some (View.get ⟨⟨d.next, p.width, p.height, pngColors p.gray, p.width * pngColors p.gray⟩, 0, 0⟩ m' x y c) := by
    intro x y c hx hy hc
    have hlt : y < p.rows.length := by rw [law.rows l p hl]; exact hy
    have hr : p.rows[y]? = some p.rows[y] := List.getElem?_eq_getElem hlt
    rw [Decoded.at, hr, Option.bind_some, h3 y _ hr x c hx hc, View.get, View.cell]
    dsimp only
    rw [Nat.zero_add, Nat.zero_add, Nat.zero_add]
  refine ⟨⟨m', d.next + 1, d.file⟩, ⟨d.next, p.width, p.height, pngColors p.gray, p.width * pngColors p.gray⟩, ?_, rfl, rfl, rfl, rfl, rfl, ?_, fun hg x y hx hy => ?_,
    fun hg x y hx hy => ?_, fun b i hb => ?_, fun b hb => ?_, rfl⟩
  · rw [pngLoad, show (path == "") = false by simpa using hp, throwIf_false, pure_bind']
    refine (bind_ok (show getFile path d = .ok (d.file path) d from rfl)).trans ?_
    rw [hf]
    dsimp only
    rw [hl]
    refine (bind_ok (show orUb (some p) d = .ok p d from rfl)).trans ?_
    rw [hcc]
    refine (bind_ok (show newImage 1 p.width p.height (pngColors p.gray) d = .ok ⟨d.next, p.width, p.height, pngColors p.gray, u32 (p.width * pngColors p.gray)⟩ _ from rfl)).trans ?_
    rw [u32_of_lt hsmall] at h1 ⊢
    refine (bind_ok (onMem_ok (d := ⟨{ d.mem with size := fun b => if b = d.next then p.height * (p.width * pngColors p.gray) * 1 else d.mem.size b }, d.next + 1, d.file⟩) h1)).trans ?_
    rfl
  · dsimp only
    rw [h2]
    dsimp only
    rw [if_pos rfl, u32_of_lt hsmall, Nat.mul_one, Nat.mul_comm]
  · have := hget x y 0 hx hy (by rw [hg]; decide)
    rw [show pngColors p.gray - 1 - 0 = 0 by rw [hg]; rfl] at this
    exact this
  · have h0 := hget x y 0 hx hy (by rw [hg]; decide)
    have h1 := hget x y 1 hx hy (by rw [hg]; decide)
    have h2 := hget x y 2 hx hy (by rw [hg]; decide)
    rw [show pngColors p.gray - 1 - 0 = 2 by rw [hg]; rfl] at h0
    rw [show pngColors p.gray - 1 - 1 = 1 by rw [hg]; rfl] at h1
    rw [show pngColors p.gray - 1 - 2 = 0 by rw [hg]; rfl] at h2
    exact ⟨h2, h1, h0⟩
  · exact h4 b i (by intro h; exact hb h.1)
  · dsimp only
    rw [h2]
    dsimp only
    rw [if_neg hb]

/-- Save followed by Load, for any number of colours -/
theorem png_round {L : PngLib} (law : PngLaw L) {E : Env} {path : String} {v : View} {w h : Nat} {d : Disk} (s : PngSavable v w h d) (hp : path ≠ "")
    (hn : d.next ≠ 0) (hE : PngRoom L E path w h) :
    ∃ d1 d2 img, pngSave L E path v w h d = .ok () d1 ∧ OnlyFile path d d1 ∧ pngLoad L path d1 = .ok img d2 ∧
      img.data = d.next ∧ img.width = w ∧ img.height = h ∧ img.cc = pngBytes v.img.cc ∧ img.WF d2.mem ∧
      (∀ x y c, x < w → y < h → c < pngBytes v.img.cc → View.get ⟨img, 0, 0⟩ d2.mem x y c = d.mem.byte v.img.data (v.cell 0 y 0 + x * pngBytes v.img.cc + c)) ∧
      (∀ b i, b ≠ d.next → d2.mem.byte b i = d.mem.byte b i) ∧ (∀ b, b ≠ d.next → d2.mem.size b = d.mem.size b) ∧ d2.file = d1.file := by
  obtain ⟨p, v1, v2, v3, v4, v5, v6⟩ := save_png (L := L) (E := E) (path := path) s hE.creates
  obtain ⟨d1, s1, s2, s3⟩ := v6 (hE.room p v1 v2 v3)
  obtain ⟨d2, img, l1, l2, l3, l4, l5, l6, l7, l8, l9, l10, l11, l12⟩ := C124_png_load law hp s3 (law.back p v1) (by rw [s2.2.1]; exact hn)
  have hat := decoded_at v1 v2 v4 v5
  obtain ⟨-, -, -, -, -, -, -, -, -, f10⟩ := View.facts s.wf s.fits
  have hE1 : (expand p).width = w := v2
  have hE2 : (expand p).height = h := v3
  have hE3 : (expand p).gray = (v.img.cc == 1) := v4
  rw [hE1] at l3 l8 l9
  rw [hE2] at l4 l8 l9
  rw [hE3] at l5 l8 l9
  have hcc : img.cc = pngBytes v.img.cc := by
    rw [l5, pngBytes]
    by_cases e : v.img.cc = 1
    · rw [if_pos e, if_pos (by simpa using e)]
    · rw [if_neg e, if_neg (by simpa using e)]
  rw [s2.2.1] at l2 l10 l11
  refine ⟨d1, d2, img, s1, s2, l1, l2, l3, l4, hcc, ⟨by rw [l6], by rw [l7], ?_⟩, fun x y c hx hy hc => ?_, fun b i hb => ?_, fun b hb => ?_, l12⟩
  · have h1 := Nat.mul_le_mul_left w (pngBytes_le s.fits)
    have h2 := s.fits.inY
    have h3 : img.rowSize * img.height ≤ v.img.rowSize * v.img.height := Nat.mul_le_mul (by rw [l6, l3, hcc]; omega) (by omega)
    have := s.wf.small
    omega
  · have hc' := hat x y c hx hy hc
    apply Option.some.inj
    rw [← hc']
    by_cases e : v.img.cc = 1
    · have hk : pngBytes v.img.cc = 1 := by rw [pngBytes, if_pos e]
      rw [hk] at hc ⊢
      obtain rfl : c = 0 := by omega
      exact (l8 (by simpa using e) x y hx hy).symm
    · have hk : pngBytes v.img.cc = 3 := by rw [pngBytes, if_neg e]
      rw [hk] at hc ⊢
      obtain ⟨q0, q1, q2⟩ := l9 (by simpa using e) x y hx hy
      rcases (by omega : c = 0 ∨ c = 1 ∨ c = 2) with rfl | rfl | rfl
      · exact q2.symm
      · exact q1.symm
      · exact q0.symm
  · rw [l10 b i hb, s2.1]
  · rw [l11 b hb, s2.1]

/-- C124: a rectangle of an image with one or three colours that is saved as PNG file and loaded again has the same pixels; Save changes
    nothing but the file, Load nothing but new memory.  Missing: images with four colours, sizes above 1 000 000 and disks without room. -/
theorem C124_png_partial {L : PngLib} (law : PngLaw L) {E : Env} {path : String} {v : View} {w h : Nat} {d : Disk} (s : PngSavable v w h d) (hp : path ≠ "")
    (hcc : v.img.cc ≠ 4) (hn : d.next ≠ 0) (hE : PngRoom L E path w h) :
    ∃ d1 d2 img, pngSave L E path v w h d = .ok () d1 ∧ OnlyFile path d d1 ∧ pngLoad L path d1 = .ok img d2 ∧
      img.data = d.next ∧ img.width = w ∧ img.height = h ∧ img.cc = v.img.cc ∧ img.WF d2.mem ∧
      (∀ x y c, x < w → y < h → c < v.img.cc → View.get ⟨img, 0, 0⟩ d2.mem x y c = v.get d.mem x y c) ∧
      (∀ b i, b ≠ d.next → d2.mem.byte b i = d.mem.byte b i) ∧ (∀ b, b ≠ d.next → d2.mem.size b = d.mem.size b) ∧ d2.file = d1.file := by
  have hk : pngBytes v.img.cc = v.img.cc := by
    rw [pngBytes]
    rcases s.fits.colors with e | e | e
    · rw [if_pos e, e]
    · rw [e]
      rfl
    · exact absurd e hcc
  obtain ⟨d1, d2, img, a1, a2, a3, a4, a5, a6, a7, a8, a9, a10⟩ := png_round law s hp hn hE
  rw [hk] at a7 a9
  refine ⟨d1, d2, img, a1, a2, a3, a4, a5, a6, a7, a8, fun x y c hx hy hc => ?_, a10⟩
  rw [a9 x y c hx hy hc, View.get, View.cell, View.cell]
  congr 1
  rw [Nat.add_mul v.x x, Nat.add_zero, Nat.add_zero]
  omega

/-- C124: what happens to images with four colours: the image loaded has three, and value `c` of pixel `x` is byte `3 * x + c` of the row. -/
theorem C124_four_exact {L : PngLib} (law : PngLaw L) {E : Env} {path : String} {v : View} {w h : Nat} {d : Disk} (s : PngSavable v w h d) (hp : path ≠ "")
    (hcc : v.img.cc = 4) (hn : d.next ≠ 0) (hE : PngRoom L E path w h) :
    ∃ d1 d2 img, pngSave L E path v w h d = .ok () d1 ∧ pngLoad L path d1 = .ok img d2 ∧ img.width = w ∧ img.height = h ∧ img.cc = 3 ∧
      ∀ x y c, x < w → y < h → c < 3 → View.get ⟨img, 0, 0⟩ d2.mem x y c = v.get d.mem ((3 * x + c) / 4) y ((3 * x + c) % 4) := by
  have hk : pngBytes v.img.cc = 3 := by rw [pngBytes, if_neg (by omega)]
  obtain ⟨d1, d2, img, a1, a2, a3, a4, a5, a6, a7, a8, a9, a10⟩ := png_round law s hp hn hE
  rw [hk] at a7 a9
  refine ⟨d1, d2, img, a1, a3, a5, a6, a7, fun x y c hx hy hc => ?_⟩
  rw [a9 x y c hx hy hc, View.get, View.cell, View.cell, hcc]
  congr 1
  omega

/-- C124: a wrong rectangle is not saved, a file that cannot be created is reported, no path is not loaded, a missing file gives an image without
    pixels. -/
theorem C124_rejects (L : PngLib) (E : Env) (path : String) (v : View) (w h : Nat) (d : Disk) :
    (v.U32 → w < 4294967296 → h < 4294967296 → ¬ v.Fits w h → pngSave L E path v w h d = .throw d) ∧
    (v.img.WF d.mem → v.Fits w h → E.creates path = false → pngSave L E path v w h d = .throw d) ∧
    pngLoad L "" d = .throw d ∧ (path ≠ "" → d.file path = none → pngLoad L path d = .ok noImage d) := by
  refine ⟨fun hu hw hh hf => ?_, fun wf hf hc => ?_, rfl, fun hp hf => ?_⟩
  · rw [pngSave]
    exact bind_throw (validateRoi_throw d hf hu hw hh)
  · obtain ⟨-, -, -, f4, f5, -⟩ := View.facts wf hf
    rw [pngSave, bind_ok (validateRoi_ok d hf (by omega) (by omega)), hc]
    exact bind_throw (throwIf_true d)
  · rw [pngLoad, show (path == "") = false by simpa using hp, throwIf_false, pure_bind']
    refine (bind_ok (show getFile path d = .ok (d.file path) d from rfl)).trans ?_
    rw [hf]
    rfl

/-! ### C125 -/

/-- What Save gives to libjpeg: the rows from the corner of the image, wherever the rectangle is -/
theorem save_jpeg {L : JpegLib} {q : Int} {E : Env} {path : String} {v : View} {w h : Nat} {d : Disk} (fits : v.Fits w h) (wf : v.img.WF d.mem) (hcc : v.img.cc ≠ 4)
    (hE : JpegRoom L q E path w h v.img.cc) :
    ∃ d' s, jpegSave L q E path v w h d = .ok () d' ∧ OnlyFile path d d' ∧ d'.file path = some (L.encode q s) ∧
      s.width = w ∧ s.height = h ∧ s.components = v.img.cc ∧ s.rows.length = h ∧ (∀ r ∈ s.rows, r.length = w * v.img.cc) ∧
      ∀ x y c, x < w → y < h → c < v.img.cc → Scan.at s x y c = some (View.get ⟨v.img, 0, 0⟩ d.mem x y c) := by
  obtain ⟨-, -, f3, f4, f5, -, f7, f8, f9, f10⟩ := View.facts wf fits
  have h1 := fits.inX
  have h2 := fits.inY
  have h3 := wf.small
  have h4 := wf.block
  have hrow : ∀ y, y < h → v.img.rowSize * y + v.img.rowSize ≤ v.img.rowSize * v.img.height := by
    intro y hy
    have := Nat.mul_le_mul_left v.img.rowSize (show y + 1 ≤ v.img.height by omega)
    rwa [Nat.mul_add, Nat.mul_one] at this
  obtain ⟨rs, g1, g2, g3⟩ := jpegRows_ok (img := v.img) (m := d.mem) (w := w) fits.nonempty h 0 (fun y hy => by
    have := hrow y hy
    rw [Nat.zero_add]
    omega)
  have hlen : ∀ r ∈ rs, r.length = w * v.img.cc := by
    intro r hr
    obtain ⟨y, hy, rfl⟩ := List.getElem_of_mem hr
    have := g3 y (by omega)
    rw [List.getElem?_eq_getElem hy, Option.some.injEq] at this
    rw [this, List.length_map, List.length_range']
  refine ⟨{ d with file := fun p => if p = path then some (L.encode q ⟨w, h, v.img.cc, rs⟩) else d.file p }, ⟨w, h, v.img.cc, rs⟩, ?_,
    ⟨rfl, rfl, fun p hp => by dsimp only; rw [if_neg hp]⟩, by dsimp only; rw [if_pos rfl], rfl, rfl, rfl, g2, hlen, fun x y c hx hy hc => ?_⟩
  · rw [jpegSave, bind_ok (validateRoi_ok d fits (by omega) (by omega)), hE.creates]
    refine (bind_ok (show throwIf (!true) d = .ok () d from rfl)).trans ?_
    refine (bind_ok (show setFile path [] d = .ok () { d with file := fun q => if q = path then some [] else d.file q } from rfl)).trans ?_
    rw [if_neg hcc]
    refine (bind_ok (onMem_ok (d := { d with file := fun q => if q = path then some [] else d.file q }) g1)).trans ?_
    refine (putAll_ok (hE.room ⟨w, h, v.img.cc, rs⟩ rfl rfl rfl g2 hlen) _).trans ?_
    congr 2
    funext p
    by_cases e : p = path
    · dsimp only
      rw [if_pos e, if_pos e]
    · dsimp only
      rw [if_neg e, if_neg e, if_neg e]
  · have hi : x * v.img.cc + c < w * v.img.cc := mul_add_lt hx hc
    rw [Scan.at]
    dsimp only
    rw [g3 y hy, Option.bind_some, List.getElem?_map, List.getElem?_range' hi, View.get, View.cell]
    dsimp only
    rw [Option.map_some, Nat.one_mul, Nat.zero_add, Nat.zero_add, Nat.mul_comm v.img.rowSize, Nat.add_assoc]

/-- C125: the lines libjpeg compresses are the rows of the rectangle, when it begins in the corner of the image and the image has one or three
    colours; nothing but the file changes.  Missing: rectangles elsewhere, images with four colours and disks without room. -/
theorem C125_jpeg_save_partial {L : JpegLib} {q : Int} {E : Env} {path : String} {v : View} {w h : Nat} {d : Disk} (fits : v.Fits w h) (wf : v.img.WF d.mem)
    (hcc : v.img.cc ≠ 4) (hx : v.x = 0) (hy : v.y = 0) (hE : JpegRoom L q E path w h v.img.cc) :
    ∃ d' s, jpegSave L q E path v w h d = .ok () d' ∧ OnlyFile path d d' ∧ d'.file path = some (L.encode q s) ∧
      s.width = w ∧ s.height = h ∧ s.components = v.img.cc ∧ s.rows.length = h ∧ (∀ r ∈ s.rows, r.length = w * v.img.cc) ∧
      ∀ x y c, x < w → y < h → c < v.img.cc → Scan.at s x y c = some (v.get d.mem x y c) := by
  obtain ⟨img, x0, y0⟩ := v
  dsimp only at hx hy
  subst hx hy
  exact save_jpeg fits wf hcc hE

/-- C125: what happens to any rectangle: the lines are those of the rectangle of the same size in the corner of the image. -/
theorem C125_jpeg_save_exact {L : JpegLib} {q : Int} {E : Env} {path : String} {v : View} {w h : Nat} {d : Disk} (fits : v.Fits w h) (wf : v.img.WF d.mem) :
    jpegSave L q E path v w h d = jpegSave L q E path ⟨v.img, 0, 0⟩ w h d := by
  have fits' : (View.mk v.img 0 0).Fits w h := ⟨fits.nonempty, fits.colors, fits.wpos, fits.hpos,
    by have := fits.inX; dsimp only; omega, by have := fits.inY; dsimp only; omega⟩
  obtain ⟨-, -, f3, f4, f5, -⟩ := View.facts wf fits
  have h1 := fits.inX
  have h2 := fits.inY
  rw [jpegSave, jpegSave, bind_ok (validateRoi_ok d fits (by omega) (by omega)), bind_ok (validateRoi_ok d fits' (by omega) (by omega))]

/-- C125: for every JPEG file below 4 GiB of pixels Load gives an image whose values are those of the lines. Missing: files from 4 GiB on. -/
theorem C125_jpeg_load_partial {L : JpegLib} (law : JpegLaw L) {path : String} {d : Disk} {l : List UInt8} {s : Scan} (hp : path ≠ "")
    (hf : d.file path = some l) (hl : L.decode l = some s) (hn : d.next ≠ 0) (small : s.width * s.components * s.height < 4294967296) :
    ∃ d' img, jpegLoad L path d = .ok img d' ∧ img.data = d.next ∧ img.width = s.width ∧ img.height = s.height ∧ img.cc = s.components ∧ img.WF d'.mem ∧
      (∀ x y c, x < s.width → y < s.height → c < s.components → Scan.at s x y c = some (View.get ⟨img, 0, 0⟩ d'.mem x y c)) ∧
      (∀ b i, b ≠ d.next → d'.mem.byte b i = d.mem.byte b i) ∧ (∀ b, b ≠ d.next → d'.mem.size b = d.mem.size b) ∧ d'.file = d.file := by
  have hw := law.width l s hl
  have hh := law.height l s hl
  have hc := law.components l s hl
  have hsmall : s.width * s.components < 4294967296 := by
    have := Nat.mul_le_mul hw.2 hc.2
    omega
  obtain ⟨m', h1, h2, h3, h4⟩ := jpegLines_ok (img := ⟨d.next, s.width, s.height, s.components, s.width * s.components⟩) hn s.rows 0
    { d.mem with size := fun b => if b = d.next then s.height * u32 (s.width * s.components) * 1 else d.mem.size b }
    (law.row l s hl) (by dsimp only; rw [law.rows l s hl, Nat.zero_add]; exact small)
    (by dsimp only; rw [if_pos rfl, law.rows l s hl, u32_of_lt hsmall, Nat.mul_one, Nat.zero_add, Nat.mul_comm])
  refine ⟨⟨m', d.next + 1, d.file⟩, ⟨d.next, s.width, s.height, s.components, s.width * s.components⟩, ?_, rfl, rfl, rfl, rfl, ⟨Nat.le_refl _, ?_, small⟩,
    fun x y c hx hy hc => ?_, fun b i hb => ?_, fun b hb => ?_, rfl⟩
  · rw [jpegLoad, show (path == "") = false by simpa using hp, throwIf_false, pure_bind']
    refine (bind_ok (show getFile path d = .ok (d.file path) d from rfl)).trans ?_
    rw [hf]
    dsimp only
    rw [hl]
    refine (bind_ok (show orUb (some s) d = .ok s d from rfl)).trans ?_
    rw [if_pos (by omega)]
    refine (bind_ok (show newImage 1 s.width s.height s.components d = .ok ⟨d.next, s.width, s.height, s.components, u32 (s.width * s.components)⟩ _ from rfl)).trans ?_
    rw [u32_of_lt hsmall] at h1 ⊢
    refine (bind_ok (onMem_ok (d := ⟨{ d.mem with size := fun b => if b = d.next then s.height * (s.width * s.components) * 1 else d.mem.size b }, d.next + 1, d.file⟩) h1)).trans ?_
    rfl
  · dsimp only
    rw [h2]
    dsimp only
    rw [if_pos rfl, u32_of_lt hsmall, Nat.mul_one, Nat.mul_comm]
  · have hlt : y < s.rows.length := by rw [law.rows l s hl]; exact hy
    have hr : s.rows[y]? = some s.rows[y] := List.getElem?_eq_getElem hlt
    rw [Scan.at, hr, Option.bind_some, h3 y _ hr _ (mul_add_lt hx hc), View.get, View.cell]
    dsimp only
    rw [Nat.zero_add, Nat.zero_add, Nat.mul_comm y, Nat.add_assoc]
  · exact h4 b i (by intro h; exact hb h.1)
  · dsimp only
    rw [h2]
    dsimp only
    rw [if_neg hb]

/-- C125 is false for files with 4 GiB of pixels and more: what is behind the first 4 GiB and one row is not loaded; the image keeps there what was
    in memory before. -/
theorem C125_wrong_big {L : JpegLib} (law : JpegLaw L) {path : String} {d : Disk} {l : List UInt8} {s : Scan} (hp : path ≠ "")
    (hf : d.file path = some l) (hl : L.decode l = some s) (hn : d.next ≠ 0) (big : 4294967296 ≤ s.width * s.components * (s.height - 1)) :
    ∃ d' img, jpegLoad L path d = .ok img d' ∧ img.data = d.next ∧ img.width = s.width ∧ img.height = s.height ∧ img.cc = s.components ∧
      ∀ x y c, x < s.width → y < s.height → c < s.components → 4294967296 + s.width * s.components ≤ s.width * s.components * y →
        View.get ⟨img, 0, 0⟩ d'.mem x y c = d.mem.byte d.next (s.width * s.components * y + x * s.components + c) := by
  have hw := law.width l s hl
  have hh := law.height l s hl
  have hc := law.components l s hl
  have hsmall : s.width * s.components < 4294967296 := by
    have := Nat.mul_le_mul hw.2 hc.2
    omega
  obtain ⟨m', h1, h2, h3⟩ := jpegLines_low (img := ⟨d.next, s.width, s.height, s.components, s.width * s.components⟩) s.rows 0
    { d.mem with size := fun b => if b = d.next then s.height * u32 (s.width * s.components) * 1 else d.mem.size b } hn (law.row l s hl)
    (by
      dsimp only
      rw [if_pos rfl, u32_of_lt hsmall, Nat.mul_one]
      rw [Nat.mul_comm] at big
      have := Nat.add_mul (s.height - 1) 1 (s.width * s.components)
      rw [show s.height - 1 + 1 = s.height by omega, Nat.one_mul] at this
      omega)
  refine ⟨⟨m', d.next + 1, d.file⟩, ⟨d.next, s.width, s.height, s.components, s.width * s.components⟩, ?_, rfl, rfl, rfl, rfl, fun x y c hx hy hc hbig => ?_⟩
  · rw [jpegLoad, show (path == "") = false by simpa using hp, throwIf_false, pure_bind']
    refine (bind_ok (show getFile path d = .ok (d.file path) d from rfl)).trans ?_
    rw [hf]
    dsimp only
    rw [hl]
    refine (bind_ok (show orUb (some s) d = .ok s d from rfl)).trans ?_
    rw [if_pos (by omega)]
    refine (bind_ok (show newImage 1 s.width s.height s.components d = .ok ⟨d.next, s.width, s.height, s.components, u32 (s.width * s.components)⟩ _ from rfl)).trans ?_
    rw [u32_of_lt hsmall] at h1 ⊢
    refine (bind_ok (onMem_ok (d := ⟨{ d.mem with size := fun b => if b = d.next then s.height * (s.width * s.components) * 1 else d.mem.size b }, d.next + 1, d.file⟩) h1)).trans ?_
    rfl
  · rw [View.get, View.cell]
    dsimp only
    rw [Nat.zero_add, Nat.zero_add, Nat.mul_comm y, h3 _ _ (by dsimp only; omega)]

/-- The numbers of C125_wrong_big are those of files libjpeg accepts. -/
example : 4294967296 ≤ 65500 * 3 * (65500 - 1) ∧ 4294967296 + 65500 * 3 ≤ 65500 * 3 * 65499 := by decide

/-- A call whose exception is caught -/
def attempt {μ : Type} (x : M μ Unit) : M μ Unit := fun s =>
  match x s with
  | .ok _ s => .ok () s
  | .throw s => .ok () s
  | .ub => .ub

/-- C125: after any history of calls the quality is the last value set between 1 and 100; other values are refused and change nothing. -/
theorem C125_quality (q0 : Int) (qs : List Int) :
    (qs.foldlM (fun _ q => attempt (setImageQuality q)) () >>= fun _ => getImageQuality) q0
      = .ok ((qs.filter fun q => decide (1 ≤ q) && decide (q ≤ 100)).getLast?.getD q0) ((qs.filter fun q => decide (1 ≤ q) && decide (q ≤ 100)).getLast?.getD q0) ∧
    ∀ q, (1 ≤ q ∧ q ≤ 100 → setImageQuality q q0 = .ok () q) ∧ (¬ (1 ≤ q ∧ q ≤ 100) → setImageQuality q q0 = .throw q0) := by
  have hset : ∀ q q0, (1 ≤ q ∧ q ≤ 100 → setImageQuality q q0 = .ok () q) ∧ (¬ (1 ≤ q ∧ q ≤ 100) → setImageQuality q q0 = .throw q0) := by
    refine fun q q0 => ⟨fun hq => ?_, fun hq => ?_⟩
    · rw [setImageQuality, decide_eq_false (by omega), decide_eq_false (by omega)]
      rfl
    · rw [setImageQuality]
      rcases (by omega : q < 1 ∨ q > 100) with h | h
      · rw [decide_eq_true h]
        exact bind_throw (throwIf_true q0)
      · rw [decide_eq_true h, Bool.or_true]
        exact bind_throw (throwIf_true q0)
  refine ⟨?_, fun q => hset q q0⟩
  induction qs generalizing q0 with
  | nil => rfl
  | cons a l ih =>
    rw [List.foldlM_cons, bind_assoc']
    by_cases ha : 1 ≤ a ∧ a ≤ 100
    · refine (bind_ok (show attempt (setImageQuality a) q0 = .ok () a by rw [attempt, (hset a q0).1 ha])).trans ?_
      refine (ih a).trans ?_
      rw [List.filter_cons_of_pos (by simpa using ha), List.getLast?_cons]
      rfl
    · refine (bind_ok (show attempt (setImageQuality a) q0 = .ok () q0 by rw [attempt, (hset a q0).2 ha])).trans ?_
      refine (ih q0).trans ?_
      rw [List.filter_cons_of_neg (by simpa using ha)]

/-- C125: a wrong rectangle is not saved, a file that cannot be created is reported, no path and a missing file are not loaded. -/
theorem C125_rejects (L : JpegLib) (q : Int) (E : Env) (path : String) (v : View) (w h : Nat) (d : Disk) :
    (v.U32 → w < 4294967296 → h < 4294967296 → ¬ v.Fits w h → jpegSave L q E path v w h d = .throw d) ∧
    (v.img.WF d.mem → v.Fits w h → E.creates path = false → jpegSave L q E path v w h d = .throw d) ∧
    jpegLoad L "" d = .throw d ∧ (d.file path = none → jpegLoad L path d = .throw d) := by
  refine ⟨fun hu hw hh hf => ?_, fun wf hf hc => ?_, rfl, fun hf => ?_⟩
  · rw [jpegSave]
    exact bind_throw (validateRoi_throw d hf hu hw hh)
  · obtain ⟨-, -, -, f4, f5, -⟩ := View.facts wf hf
    have := hf.inX
    have := hf.inY
    rw [jpegSave, bind_ok (validateRoi_ok d hf (by omega) (by omega)), hc]
    exact bind_throw (throwIf_true d)
  · rw [jpegLoad]
    by_cases hp : path = ""
    · subst hp
      rfl
    · rw [show (path == "") = false by simpa using hp, throwIf_false, pure_bind']
      refine (bind_ok (show getFile path d = .ok (d.file path) d from rfl)).trans ?_
      rw [hf]
      rfl

end PV.Props
