import Verif.PropsFormats
/-
  C126: the format of a file is chosen by its name.  C127: colours in files.  Cases for C124 - C127.
-/
namespace PV.Props
open PV PV.Raw PV.Bmp PV.Formats

/-! ### C126 -/

theorem sameExtension_iff (path ext : String) : sameExtension path ext = true ↔ ∃ name : String, path = name ++ ext := by
  rw [sameExtension, Bool.and_eq_true, decide_eq_true_iff, beq_iff_eq]
  constructor
  · rintro ⟨h1, h2⟩
    refine ⟨String.ofList (path.toList.take (path.toList.length - ext.toList.length)), ?_⟩
    rw [← String.toList_inj, String.toList_append, String.toList_ofList]
    conv_lhs => rw [← List.take_append_drop (path.toList.length - ext.toList.length) path.toList]
    rw [h2]
  · rintro ⟨name, rfl⟩
    rw [String.toList_append, List.length_append, Nat.add_sub_cancel, List.drop_left]
    exact ⟨by omega, rfl⟩

/-- The name of a JPEG file, for programs with libjpeg -/
def JpegName (B : Build) (path : String) : Prop := B.jpeg = true ∧ ∃ name : String, path = name ++ ".jpg" ∨ path = name ++ ".jpeg"

/-- The name of a PNG file, for programs with libpng -/
def PngName (B : Build) (path : String) : Prop := B.png = true ∧ ∃ name : String, path = name ++ ".png"

theorem isJpeg_iff (B : Build) (path : String) : isJpeg B path = true ↔ JpegName B path := by
  rw [isJpeg, Bool.and_eq_true, Bool.or_eq_true, sameExtension_iff, sameExtension_iff, JpegName, exists_or]

theorem isPng_iff (B : Build) (path : String) : isPng B path = true ↔ PngName B path := by
  rw [isPng, Bool.and_eq_true, sameExtension_iff, PngName]

theorem not_both {B : Build} {path : String} : JpegName B path → PngName B path → False := by
  rintro ⟨-, name, h⟩ ⟨-, name', rfl⟩
  have key : ∀ a b c e : String, (a ++ b).toList.reverse[1]? = (c ++ e).toList.reverse[1]? → 2 ≤ b.toList.length → 2 ≤ e.toList.length →
      b.toList.reverse[1]? = e.toList.reverse[1]? := by
    intro a b c e h h1 h2
    rw [String.toList_append, String.toList_append, List.reverse_append, List.reverse_append, List.getElem?_append_left (by rw [List.length_reverse]; omega),
      List.getElem?_append_left (by rw [List.length_reverse]; omega)] at h
    exact h
  rcases h with h | h
  · exact absurd (key _ _ _ _ (congrArg (fun s : String => s.toList.reverse[1]?) h) (by decide) (by decide)) (by decide)
  · exact absurd (key _ _ _ _ (congrArg (fun s : String => s.toList.reverse[1]?) h) (by decide) (by decide)) (by decide)

/-- C126: the end of the name decides about the format, for Save and Load alike: .jpg and .jpeg are JPEG files and .png is a PNG file, for programs with
    the library; everything else is a bitmap file. -/
theorem C126_format (B : Build) (L : Libs) (path : String) :
    (JpegName B path → Formats.load B L path = jpegLoad L.jpeg path ∧ ∀ E v w h, Formats.save B L E path v w h = jpegSave L.jpeg L.quality E path v w h) ∧
    (PngName B path → Formats.load B L path = pngLoad L.png path ∧ ∀ E v w h, Formats.save B L E path v w h = pngSave L.png E path v w h) ∧
    (¬ JpegName B path → ¬ PngName B path → Formats.load B L path = Bmp.Load path ∧ ∀ E v w h, Formats.save B L E path v w h = Bmp.Save E path v w h) := by
  refine ⟨fun hj => ?_, fun hp => ?_, fun hj hp => ?_⟩
  · have h1 := (isJpeg_iff B path).2 hj
    exact ⟨by rw [load, if_pos h1], fun E v w h => by rw [save, if_pos h1]⟩
  · have h1 : ¬ isJpeg B path = true := fun h => not_both ((isJpeg_iff B path).1 h) hp
    have h2 := (isPng_iff B path).2 hp
    exact ⟨by rw [load, if_neg h1, if_pos h2], fun E v w h => by rw [save, if_neg h1, if_pos h2]⟩
  · have h1 : ¬ isJpeg B path = true := fun h => hj ((isJpeg_iff B path).1 h)
    have h2 : ¬ isPng B path = true := fun h => hp ((isPng_iff B path).1 h)
    exact ⟨by rw [load, if_neg h1, if_neg h2], fun E v w h => by rw [save, if_neg h1, if_neg h2]⟩

/-- C126: an image saved under any name but that of a JPEG file and loaded from it has the same pixels.  Missing: JPEG files, which are lossy, and what is
    missing in C58 and C124. -/
theorem C126_round_trip_partial (B : Build) (L : Libs) (law : PngLaw L.png) {E : Env} {path : String} {v : View} {w h : Nat} {d : Disk} (s : Savable v w h d)
    (hp : path ≠ "") (hj : ¬ JpegName B path) (hpng : PngName B path → w ≤ pngLimit ∧ h ≤ pngLimit ∧ v.img.cc ≠ 4 ∧ PngRoom L.png E path w h)
    (hc : E.creates path = true) (hroom : bmpOffset v.img.cc + bmpLine w v.img.cc * h ≤ E.room path) :
    ∃ d1 d2 img, Formats.save B L E path v w h d = .ok () d1 ∧ OnlyFile path d d1 ∧ Formats.load B L path d1 = .ok img d2 ∧
      img.data = d.next ∧ img.width = w ∧ img.height = h ∧ img.cc = v.img.cc ∧ img.WF d2.mem ∧
      (∀ x y c, x < w → y < h → c < v.img.cc → View.get ⟨img, 0, 0⟩ d2.mem x y c = v.get d.mem x y c) ∧
      (∀ b i, b ≠ d.next → d2.mem.byte b i = d.mem.byte b i) ∧ (∀ b, b ≠ d.next → d2.mem.size b = d.mem.size b) ∧ d2.file = d1.file := by
  obtain ⟨-, f2, f3⟩ := C126_format B L path
  by_cases hn : PngName B path
  · obtain ⟨q1, q2, q3, q4⟩ := hpng hn
    rw [(f2 hn).1, (f2 hn).2]
    exact C124_png_partial law ⟨s.fits, s.wf, q1, q2⟩ hp q3 (by have := s.fresh; omega) q4
  · rw [(f3 hj hn).1, (f3 hj hn).2]
    rcases C58_bmp_partial (E := E) (path := path) s hp with ⟨d', -, -, hbad⟩ | hgood
    · rcases hbad with hbad | hbad
      · rw [hc] at hbad
        exact absurd hbad (by decide)
      · omega
    · exact hgood

/-- C126 is false for missing files: with one name Load throws, with any other it gives an image without pixels. -/
theorem C126_missing (B : Build) (L : Libs) (path : String) (d : Disk) (hp : path ≠ "") (hf : d.file path = none) :
    (JpegName B path → Formats.load B L path d = .throw d) ∧ (¬ JpegName B path → Formats.load B L path d = .ok noImage d) := by
  obtain ⟨f1, f2, f3⟩ := C126_format B L path
  refine ⟨fun hj => ?_, fun hj => ?_⟩
  · rw [(f1 hj).1]
    exact (C125_rejects L.jpeg 0 ⟨fun _ => true, fun _ => 0⟩ path ⟨noImage, 0, 0⟩ 0 0 d).2.2.2 hf
  · by_cases hn : PngName B path
    · rw [(f2 hn).1]
      exact (C124_rejects L.png ⟨fun _ => true, fun _ => 0⟩ path ⟨noImage, 0, 0⟩ 0 0 d).2.2.2 hp hf
    · rw [(f3 hj hn).1]
      exact (C58_rejects ⟨fun _ => true, fun _ => 0⟩ path ⟨noImage, 0, 0⟩ 0 0 d).2.2 hp hf

/-! ### C127 -/

/-- Red (0), green (1) and blue (2) of a pixel in a bitmap file of 24 bits per pixel: rows from bottom to top, blue first -/
def bmpAt (l : List UInt8) (w h x y c : Nat) : Option UInt8 := l[54 + (h - 1 - y) * ((w * 3 + 3) / 4 * 4) + 3 * x + (2 - c)]?

theorem bmpBytes_at {m : BMem} {v : View} {w h : Nat} (hcc : v.img.cc = 3) : ∀ x y c, x < w → y < h → c < 3 →
    bmpAt (bmpBytes m v w h) w h x y c = some (v.get m x y (2 - c)) := by
  intro x y c hx hy hc
  have hl := bmpLine_ge w 3
  have g := rowsBytes_get (m := m) (v := v) (w := w) (h := h) (diff := bmpLine w 3 - w * 3) (k := h - 1 - y) (i := 3 * x + (2 - c)) h (by omega) (by rw [hcc]; omega)
  rw [hcc, show w * 3 + (bmpLine w 3 - w * 3) = bmpLine w 3 by omega, show h - 1 - (h - 1 - y) = y by omega] at g
  have hp : palleteOf v.img.cc = [] := by rw [palleteOf, if_neg (by omega)]
  have e1 : (fileHeaderBytes (fileHeader (palleteOf v.img.cc).length (bmpLine w v.img.cc) h)).length = 14 := length_fileHeaderBytes _
  have e2 : (infoHeaderBytes (infoHeader w h v.img.cc (bmpLine w v.img.cc))).length = 40 := length_infoHeaderBytes _
  rw [bmpAt, show (w * 3 + 3) / 4 * 4 = bmpLine w 3 from rfl, bmpBytes, List.getElem?_append_right (by omega), List.getElem?_append_right (by omega), e1, e2, hp,
    List.nil_append, hcc, show 54 + (h - 1 - y) * bmpLine w 3 + 3 * x + (2 - c) - 14 - 40 = (h - 1 - y) * bmpLine w 3 + (3 * x + (2 - c)) by omega, g, View.get,
    View.cell, View.cell, hcc]
  congr 2
  omega

/-- C127: bitmap and PNG files made of the same rectangle of three colours have the same red, green and blue for each pixel.  Missing: JPEG files. -/
theorem C127_colors_partial {L : PngLib} (law : PngLaw L) {E : Env} {pathB pathP : String} {v : View} {w h : Nat} {d : Disk} (s : Storable v w h d) (hcc : v.img.cc = 3)
    (wide : w ≤ pngLimit) (high : h ≤ pngLimit) (hB : E.creates pathB = true ∧ 54 + bmpLine w 3 * h ≤ E.room pathB) (hP : PngRoom L E pathP w h) :
    ∃ dB dP lB lP pic, Bmp.Save E pathB v w h d = .ok () dB ∧ dB.file pathB = some lB ∧ pngSave L E pathP v w h d = .ok () dP ∧ dP.file pathP = some lP ∧
      L.decode lP = some pic ∧ pic.width = w ∧ pic.height = h ∧ pic.gray = false ∧
      ∀ x y c, x < w → y < h → c < 3 → bmpAt lB w h x y c = Decoded.at pic x y c ∧ bmpAt lB w h x y c = some (v.get d.mem x y (2 - c)) := by
  rcases save_bmp (E := E) (path := pathB) s with ⟨dB, a1, -, a3⟩ | ⟨d', -, -, hbad⟩
  · obtain ⟨p, v1, v2, v3, v4, v5, v6⟩ := save_png (L := L) (E := E) (path := pathP) (d := d) ⟨s.fits, s.wf, wide, high⟩ hP.creates
    obtain ⟨dP, b1, -, b3⟩ := v6 (hP.room p v1 v2 v3)
    refine ⟨dB, dP, _, _, expand p, a1, a3, b1, b3, law.back p v1, v2, v3, v4.trans (by rw [hcc]; rfl), fun x y c hx hy hc => ?_⟩
    have hk : pngBytes v.img.cc = 3 := by rw [pngBytes, if_neg (by omega)]
    have hat := decoded_at v1 v2 v4 v5 x y (2 - c) hx hy (by omega)
    rw [hk, show 3 - 1 - (2 - c) = c by omega] at hat
    rw [bmpBytes_at hcc x y c hx hy hc, hat]
    refine ⟨?_, rfl⟩
    rw [View.get, View.cell, View.cell, hcc]
    congr 2
    omega
  · rw [hcc] at hbad
    rcases hbad with hbad | hbad
    · rw [hB.1] at hbad
      exact absurd hbad (by decide)
    · have : bmpOffset 3 = 54 := rfl
      omega

/-- C127: what happens with JPEG files: libjpeg is given blue as red and red as blue. -/
theorem C127_jpeg_exact {L : JpegLib} {q : Int} {E : Env} {pathB pathJ : String} {v : View} {w h : Nat} {d : Disk} (s : Storable v w h d) (hcc : v.img.cc = 3)
    (hx : v.x = 0) (hy : v.y = 0) (hB : E.creates pathB = true ∧ 54 + bmpLine w 3 * h ≤ E.room pathB) (hJ : JpegRoom L q E pathJ w h 3) :
    ∃ dB dJ lB scan, Bmp.Save E pathB v w h d = .ok () dB ∧ dB.file pathB = some lB ∧ jpegSave L q E pathJ v w h d = .ok () dJ ∧
      dJ.file pathJ = some (L.encode q scan) ∧ scan.width = w ∧ scan.height = h ∧ scan.components = 3 ∧
      ∀ x y, x < w → y < h → Scan.at scan x y 0 = bmpAt lB w h x y 2 ∧ Scan.at scan x y 1 = bmpAt lB w h x y 1 ∧ Scan.at scan x y 2 = bmpAt lB w h x y 0 := by
  rcases save_bmp (E := E) (path := pathB) s with ⟨dB, a1, -, a3⟩ | ⟨d', -, -, hbad⟩
  · obtain ⟨dJ, sc, b1, -, b3, b4, b5, b6, -, -, b7⟩ := C125_jpeg_save_partial (L := L) (q := q) (E := E) (path := pathJ) s.fits s.wf (by omega) hx hy (by rw [hcc]; exact hJ)
    refine ⟨dB, dJ, _, sc, a1, a3, b1, b3, b4, b5, b6.trans hcc, fun x y hx hy => ?_⟩
    rw [b7 x y 0 hx hy (by omega), b7 x y 1 hx hy (by omega), b7 x y 2 hx hy (by omega), bmpBytes_at hcc x y 0 hx hy (by decide),
      bmpBytes_at hcc x y 1 hx hy (by decide), bmpBytes_at hcc x y 2 hx hy (by decide)]
    exact ⟨rfl, rfl, rfl⟩
  · rw [hcc] at hbad
    rcases hbad with hbad | hbad
    · rw [hB.1] at hbad
      exact absurd hbad (by decide)
    · have : bmpOffset 3 = 54 := rfl
      omega

/-! ### Libraries that satisfy what is expected of them -/

/-- A list cut into `h` pieces of `n` bytes -/
def pieces (n : Nat) : Nat → List UInt8 → List (List UInt8)
  | 0, _ => []
  | h + 1, l => l.take n :: pieces n h (l.drop n)

theorem pieces_flatten (n : Nat) : ∀ rs : List (List UInt8), (∀ r ∈ rs, r.length = n) → pieces n rs.length rs.flatten = rs := by
  intro rs
  induction rs with
  | nil => intro _; rfl
  | cons r rs ih =>
    intro h
    have hr := h r (List.mem_cons_self ..)
    rw [List.length_cons, pieces, List.flatten_cons, List.take_left' hr, List.drop_left' hr, ih fun r hr => h r (List.mem_cons_of_mem _ hr)]

theorem length_pieces (n : Nat) : ∀ (h : Nat) (l : List UInt8), (pieces n h l).length = h := by
  intro h
  induction h with
  | zero => intro l; rfl
  | succ h ih => intro l; rw [pieces, List.length_cons, ih]

theorem pieces_row (n : Nat) : ∀ (h : Nat) (l : List UInt8), l.length = h * n → ∀ r ∈ pieces n h l, r.length = n := by
  intro h
  induction h with
  | zero => intro l _ r hr; exact absurd hr List.not_mem_nil
  | succ h ih =>
    intro l hl r hr
    rw [Nat.add_mul, Nat.one_mul] at hl
    rw [pieces] at hr
    rcases List.mem_cons.1 hr with rfl | hr
    · rw [List.length_take]
      omega
    · exact ih (l.drop n) (by rw [List.length_drop]; omega) r hr

theorem length_flatten (n : Nat) : ∀ rs : List (List UInt8), (∀ r ∈ rs, r.length = n) → rs.flatten.length = rs.length * n := by
  intro rs
  induction rs with
  | nil => intro _; rw [List.length_nil, Nat.zero_mul]; rfl
  | cons r rs ih =>
    intro h
    rw [List.flatten_cons, List.length_append, h r (List.mem_cons_self ..), ih fun r hr => h r (List.mem_cons_of_mem _ hr), List.length_cons, Nat.add_mul, Nat.one_mul]
    omega

/-- Two numbers, another one and the rows one after another -/
def plainEncode (w h k : Nat) (rows : List (List UInt8)) : List UInt8 := le 4 w ++ (le 4 h ++ (le 1 k ++ rows.flatten))

theorem plain_fields {w h k : Nat} {rows : List (List UInt8)} (hw : w < 4294967296) (hh : h < 4294967296) (hk : k < 256) :
    field 4 0 (plainEncode w h k rows) = w ∧ field 4 4 (plainEncode w h k rows) = h ∧ field 1 8 (plainEncode w h k rows) = k ∧
      (plainEncode w h k rows).drop 9 = rows.flatten := by
  refine ⟨field_here4 hw, ?_, ?_, ?_⟩
  · rw [plainEncode, field_skip (by decide)]
    exact field_here4 hh
  · rw [plainEncode, field_skip (by decide), field_skip (by decide)]
    exact field_at (n := 1) (o := 0) (pre := []) rfl hk
  · rw [plainEncode, ← List.append_assoc, ← List.append_assoc, List.drop_left']
    simp [length_le]

/-- A format without compression -/
def plainPng : PngLib where
  encode p := plainEncode p.width p.height (if p.gray then 1 else 3) p.rows
  decode l :=
    if 0 < field 4 0 l ∧ field 4 0 l ≤ pngLimit ∧ 0 < field 4 4 l ∧ field 4 4 l ≤ pngLimit ∧ (field 1 8 l = 1 ∨ field 1 8 l = 3) ∧
        (l.drop 9).length = field 4 4 l * (field 4 0 l * field 1 8 l) then
      some (expand ⟨field 4 0 l, field 4 4 l, field 1 8 l == 1, pieces (field 4 0 l * field 1 8 l) (field 4 4 l) (l.drop 9)⟩)
    else none

theorem expand_row {p : Picture} (hr : ∀ r ∈ p.rows, r.length = p.width * (if p.gray then 1 else 3)) : ∀ r ∈ (expand p).rows, r.length = 4 * p.width := by
  intro r h
  rw [expand] at h
  dsimp only at h
  obtain ⟨r0, h1, rfl⟩ := List.mem_map.1 h
  have := hr r0 h1
  cases hg : p.gray with
  | true =>
    rw [hg, if_pos rfl, Nat.mul_one] at this
    rw [if_pos rfl, (expandGray_get r0).1, this]
  | false =>
    rw [hg, if_neg (by decide)] at this
    rw [if_neg (by decide), (expandRgb_get p.width r0 this).1]

/-- The expectations of libpng can be met. -/
theorem plainPng_law : PngLaw plainPng := by
  have some_of : ∀ l d, plainPng.decode l = some d → (0 < d.width ∧ d.width ≤ pngLimit) ∧ (0 < d.height ∧ d.height ≤ pngLimit) ∧ d.rows.length = d.height ∧
      ∀ r ∈ d.rows, r.length = 4 * d.width := by
    intro l d h
    rw [plainPng] at h
    dsimp only at h
    split at h
    · next hc =>
      obtain ⟨h1, h2, h3, h4, h5, h6⟩ := hc
      have hd := Option.some.inj h
      subst hd
      refine ⟨⟨h1, h2⟩, ⟨h3, h4⟩, ?_, expand_row ?_⟩
      · rw [expand]
        dsimp only
        rw [List.length_map, length_pieces]
      · intro r hr
        dsimp only at hr ⊢
        rw [pieces_row _ _ _ h6 r hr]
        rcases h5 with e | e <;> rw [e] <;> rfl
    · exact absurd h (by simp)
  refine ⟨fun p hv => ?_, fun l d h => (some_of l d h).1, fun l d h => (some_of l d h).2.1, fun l d h => (some_of l d h).2.2.1, fun l d h => (some_of l d h).2.2.2⟩
  have hlim : pngLimit = 1000000 := rfl
  obtain ⟨w1, w2⟩ := hv.width
  obtain ⟨h1, h2⟩ := hv.height
  obtain ⟨f1, f2, f3, f4⟩ := plain_fields (w := p.width) (h := p.height) (k := if p.gray then 1 else 3) (rows := p.rows) (by omega) (by omega) (by split <;> decide)
  rw [plainPng]
  dsimp only
  rw [f1, f2, f3, f4, if_pos ⟨w1, w2, h1, h2, by split <;> simp, by rw [length_flatten _ _ hv.row, hv.rows]⟩, ← hv.rows, pieces_flatten _ _ hv.row]
  obtain ⟨w, h, g, rows⟩ := p
  cases g <;> rw [hv.rows] <;> rfl

/-- A format without compression, for any quality -/
def plainJpeg : JpegLib where
  encode _ s := plainEncode s.width s.height s.components s.rows
  decode l :=
    if 0 < field 4 0 l ∧ field 4 0 l ≤ 65500 ∧ 0 < field 4 4 l ∧ field 4 4 l ≤ 65500 ∧ 1 ≤ field 1 8 l ∧ field 1 8 l ≤ 4 ∧
        (l.drop 9).length = field 4 4 l * (field 4 0 l * field 1 8 l) then
      some ⟨field 4 0 l, field 4 4 l, field 1 8 l, pieces (field 4 0 l * field 1 8 l) (field 4 4 l) (l.drop 9)⟩
    else none

/-- The expectations of libjpeg can be met. -/
theorem plainJpeg_law : JpegLaw plainJpeg := by
  have some_of : ∀ l d, plainJpeg.decode l = some d → (0 < d.width ∧ d.width ≤ 65500) ∧ (0 < d.height ∧ d.height ≤ 65500) ∧ (1 ≤ d.components ∧ d.components ≤ 4) ∧
      d.rows.length = d.height ∧ ∀ r ∈ d.rows, r.length = d.width * d.components := by
    intro l d h
    rw [plainJpeg] at h
    dsimp only at h
    split at h
    · next hc =>
      obtain ⟨h1, h2, h3, h4, h5, h6, h7⟩ := hc
      have hd := Option.some.inj h
      subst hd
      exact ⟨⟨h1, h2⟩, ⟨h3, h4⟩, ⟨h5, h6⟩, length_pieces _ _ _, pieces_row _ _ _ h7⟩
    · exact absurd h (by simp)
  exact ⟨fun l d h => (some_of l d h).1, fun l d h => (some_of l d h).2.1, fun l d h => (some_of l d h).2.2.1, fun l d h => (some_of l d h).2.2.2.1,
    fun l d h => (some_of l d h).2.2.2.2⟩

/-! ### Cases -/

def plainLibs : Libs := ⟨plainPng, plainJpeg, 95⟩

def bothLibs : Build := ⟨true, true⟩

/-- Save and Load; the image loaded and its bytes. -/
def fileLoad (path : String) (v : View) (w h n : Nat) : Option (Image × List UInt8) :=
  match (Formats.save bothLibs plainLibs ⟨fun _ => true, fun _ => 5000⟩ path v w h >>= fun _ => Formats.load bothLibs plainLibs path) bmpDisk with
  | .ok i d => some (i, bytesOf d.mem 3 n)
  | _ => none

/-- The case of C58 as PNG file -/
theorem fileLoad_png : fileLoad "a.png" bmpImg 2 3 18 = some (⟨3, 2, 3, 3, 6⟩, [13, 14, 15, 16, 17, 18, 25, 26, 27, 28, 29, 30, 37, 38, 39, 40, 41, 42]) := by
  decide +kernel

theorem fileLoad_png_gray : fileLoad "a.png" ⟨⟨1, 9, 4, 1, 9⟩, 2, 1⟩ 3 2 6 = some (⟨3, 3, 2, 1, 3⟩, [21, 22, 23, 30, 31, 32]) := by
  decide +kernel

/-- The name is compared with small letters only: this is a bitmap file. -/
theorem fileLoad_upper : fileLoad "a.PNG" bmpImg 2 3 24 = bmpSaveLoad bmpImg 2 3 24 := by
  decide +kernel

/-- C124 is false for images with four colours: the second pixel (14, 15, 16, 17) becomes (13, 14, 15). -/
theorem C124_wrong : fileLoad "a.png" ⟨⟨1, 3, 3, 4, 12⟩, 0, 0⟩ 2 1 6 = some (⟨3, 2, 1, 3, 6⟩, [10, 11, 12, 13, 14, 15]) := by
  decide +kernel

/-- C125 is false for rectangles elsewhere than in the corner, though nothing is lost by this format: the first column of the image is 10, 11, 12,
    the rectangle begins with 13, 14, 15. -/
theorem C125_wrong : fileLoad "a.jpg" bmpImg 2 3 18 = some (⟨3, 2, 3, 3, 6⟩, [10, 11, 12, 13, 14, 15, 22, 23, 24, 25, 26, 27, 34, 35, 36, 37, 38, 39]) := by
  decide +kernel

/-- The lines libjpeg is given for the whole image: red of the first pixel is 10, the bitmap file has 12 (C127_colors_partial). -/
theorem C127_wrong : (match jpegSave plainJpeg 95 ⟨fun _ => true, fun _ => 5000⟩ "a.jpg" ⟨bmpImg.img, 0, 0⟩ 3 3 bmpDisk with
    | .ok _ d => ((d.file "a.jpg").bind plainJpeg.decode).bind fun s => Scan.at s 0 0 0
    | _ => none) = some 10 ∧ (match Bmp.Save ⟨fun _ => true, fun _ => 5000⟩ "a.bmp" ⟨bmpImg.img, 0, 0⟩ 3 3 bmpDisk with
    | .ok _ d => (d.file "a.bmp").bind fun l => bmpAt l 3 3 0 0 0
    | _ => none) = some 12 := by
  decide +kernel

example : PngSavable bmpImg 2 3 bmpDisk :=
  ⟨⟨by decide, by decide, by decide, by decide, by decide, by decide⟩, ⟨by decide, by decide, by decide⟩, by decide, by decide⟩

/-- The files of C124_png_load and C125_jpeg_load_partial: 1 x 2 pixels -/
theorem pngFile : (plainPng.decode (plainEncode 1 2 3 [[1, 2, 3], [4, 5, 6]])).map Decoded.rows = some [[1, 2, 3, 255], [4, 5, 6, 255]] := by
  decide +kernel

theorem jpegFile : (plainJpeg.decode (plainEncode 1 2 3 [[1, 2, 3], [4, 5, 6]])).map Scan.rows = some [[1, 2, 3], [4, 5, 6]] := by
  decide +kernel

example : PngRoom plainPng ⟨fun _ => true, fun _ => 5000⟩ "a.png" 2 3 := by
  refine ⟨rfl, fun p hv hw hh => ?_⟩
  have h1 := length_flatten _ _ hv.row
  have h2 : 2 * (if p.gray then 1 else 3) ≤ 6 := by split <;> decide
  rw [hv.rows, hw, hh] at h1
  show (plainEncode _ _ _ _).length ≤ 5000
  rw [plainEncode, List.length_append, List.length_append, List.length_append, length_le, length_le, length_le, h1]
  omega

example : JpegRoom plainJpeg 95 ⟨fun _ => true, fun _ => 5000⟩ "a.jpg" 3 3 3 := by
  refine ⟨rfl, fun s hw hh hc hn hr => ?_⟩
  show (plainEncode _ _ _ _).length ≤ 5000
  rw [plainEncode, List.length_append, List.length_append, List.length_append, length_le, length_le, length_le, length_flatten _ _ hr, hn]
  decide

example : JpegName bothLibs "a.jpg" ∧ PngName bothLibs "a.png" ∧ ¬ JpegName bothLibs "a.bmp" ∧ ¬ PngName ⟨true, false⟩ "a.png" :=
  ⟨⟨rfl, "a", Or.inl rfl⟩, ⟨rfl, "a", rfl⟩, fun h => absurd ((isJpeg_iff _ _).2 h) (by decide), fun h => absurd h.1 (by decide)⟩

/-- A history for C125_quality -/
example : ([80, 0, 70, 101, -5] : List Int).filter (fun q => decide (1 ≤ q) && decide (q ≤ 100)) = [80, 70] := by decide

end PV.Props
