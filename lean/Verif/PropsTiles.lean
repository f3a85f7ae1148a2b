import Verif.PropsParts
/-
  C190, C191: doing a rectangle in two parts is doing it at once.
-/
namespace PV.Props
open PV.Laws

/-- The rectangle `dx` columns to the right and `dy` rows below -/
def partAt (v : View) (dx dy : Nat) : View := ⟨v.img, v.x + dx, v.y + dy⟩

/-- A rectangle of size `w` x `h` is cut into one of size `w1` x `h1` at its start and one of size `w2` x `h2`
    at `(dx, dy)`: left and right, or upper and lower. -/
inductive Cut : (w h w1 h1 dx dy w2 h2 : Nat) → Prop
  | columns (a b h : Nat) (ha : 0 < a) (hb : 0 < b) : Cut (a + b) h a h a 0 b h
  | rows (w a b : Nat) (ha : 0 < a) (hb : 0 < b) : Cut w (a + b) w a 0 a w b

theorem cell_partAt (v : View) (dx dy x y c : Nat) : (partAt v dx dy).cell x y c = v.cell (dx + x) (dy + y) c := by
  simp only [View.cell, partAt, Nat.add_assoc]

theorem Cut.fits1 {v : View} {w h w1 h1 dx dy w2 h2 : Nat} (k : Cut w h w1 h1 dx dy w2 h2) (f : v.Fits w h) : v.Fits w1 h1 := by
  have a1 := f.inX; have a2 := f.inY; have a3 := f.wpos; have a4 := f.hpos
  cases k <;> exact ⟨f.nonempty, f.colors, by omega, by omega, by omega, by omega⟩

theorem Cut.fits2 {v : View} {w h w1 h1 dx dy w2 h2 : Nat} (k : Cut w h w1 h1 dx dy w2 h2) (f : v.Fits w h) : (partAt v dx dy).Fits w2 h2 := by
  have a1 := f.inX; have a2 := f.inY; have a3 := f.wpos; have a4 := f.hpos
  cases k <;> exact ⟨f.nonempty, f.colors, by omega, by omega, by simp only [partAt]; omega, by simp only [partAt]; omega⟩

theorem Cut.in1 {w h w1 h1 dx dy w2 h2 x y : Nat} (k : Cut w h w1 h1 dx dy w2 h2) (hx : x < w1) (hy : y < h1) : x < w ∧ y < h := by
  cases k <;> omega

theorem Cut.in2 {w h w1 h1 dx dy w2 h2 x y : Nat} (k : Cut w h w1 h1 dx dy w2 h2) (hx : x < w2) (hy : y < h2) : dx + x < w ∧ dy + y < h := by
  cases k <;> omega

theorem Cut.disjoint {w h w1 h1 dx dy w2 h2 x y x' y' : Nat} (k : Cut w h w1 h1 dx dy w2 h2) (hx : x < w1) (hy : y < h1) :
    ¬ (x = dx + x' ∧ y = dy + y') := by
  cases k <;> omega

theorem Cut.cover {w h w1 h1 dx dy w2 h2 x y : Nat} (k : Cut w h w1 h1 dx dy w2 h2) (hx : x < w) (hy : y < h) :
    (x < w1 ∧ y < h1) ∨ ∃ x' y', x' < w2 ∧ y' < h2 ∧ x = dx + x' ∧ y = dy + y' := by
  cases k
  · exact (Nat.lt_or_ge x w1).imp (fun g => ⟨g, hy⟩) fun g => ⟨x - w1, y, by omega, hy, by omega, by omega⟩
  · exact (Nat.lt_or_ge y h1).imp (fun g => ⟨hx, g⟩) fun g => ⟨x, y - h1, hx, by omega, by omega, by omega⟩

theorem Cut.clash1 {i o : View} {w h w1 h1 dx dy w2 h2 : Nat} (k : Cut w h w1 h1 dx dy w2 h2) (n : NoClash i o w h) : NoClash i o w1 h1 :=
  fun _ _ _ _ _ _ a b c d e f => n _ _ _ _ _ _ (k.in1 a b).1 (k.in1 a b).2 c (k.in1 d e).1 (k.in1 d e).2 f

theorem Cut.clash2 {i o : View} {w h w1 h1 dx dy w2 h2 : Nat} (k : Cut w h w1 h1 dx dy w2 h2) (n : NoClash i o w h) :
    NoClash (partAt i dx dy) (partAt o dx dy) w2 h2 := by
  intro x y c x' y' c' a b hc d e hc' hd he
  rw [cell_partAt, cell_partAt] at he
  have := n _ _ _ _ _ _ (k.in2 a b).1 (k.in2 a b).2 hc (k.in2 d e).1 (k.in2 d e).2 hc' hd he
  omega

/-- Two writes to the parts are one write to the whole -/
theorem glue {m m1 m2 : BMem} {v : View} {w h w1 h1 dx dy w2 h2 : Nat} {F G : Nat → Nat → Nat → UInt8} (k : Cut w h w1 h1 dx dy w2 h2)
    (wf : v.img.WF m) (fit : v.Fits w h) (a : WritesRoi m m1 v w1 h1 F) (b : WritesRoi m1 m2 (partAt v dx dy) w2 h2 G)
    (hG : ∀ x y c, x < w2 → y < h2 → c < v.img.cc → G x y c = F (dx + x) (dy + y) c) : WritesRoi m m2 v w h F := by
  refine ⟨b.size_eq.trans a.size_eq, fun x y c hx hy hc => ?_, fun d i hn => ?_⟩
  · rcases k.cover hx hy with ⟨g1, g2⟩ | ⟨x', y', g1, g2, rfl, rfl⟩
    · rw [← a.inside x y c g1 g2 hc]
      refine b.outside _ _ ?_
      rintro ⟨-, x', y', c', p1, p2, p3, e⟩
      rw [cell_partAt] at e
      obtain ⟨e1, e2, -⟩ := cell_inj (h := h) wf.row fit.inX hx hc (k.in2 p1 p2).1 p3 hy (k.in2 p1 p2).2 e
      exact k.disjoint g1 g2 ⟨e1, e2⟩
    · rw [← hG x' y' c g1 g2 hc, ← b.inside x' y' c g1 g2 hc]
      simp only [View.get, cell_partAt]; rfl
  · rw [b.outside d i, a.outside d i]
    · rintro ⟨rfl, x, y, c, p1, p2, p3, rfl⟩
      exact hn ⟨rfl, x, y, c, (k.in1 p1 p2).1, (k.in1 p1 p2).2, p3, rfl⟩
    · rintro ⟨rfl, x, y, c, p1, p2, p3, rfl⟩
      exact hn ⟨rfl, _, _, c, (k.in2 p1 p2).1, (k.in2 p1 p2).2, p3, cell_partAt ..⟩

/-- What the second call reads is what it would have read at first -/
theorem Cut.unread {m m1 : BMem} {i o : View} {w h w1 h1 dx dy w2 h2 x y c : Nat} {F : Nat → Nat → Nat → UInt8} (k : Cut w h w1 h1 dx dy w2 h2)
    (n : NoClash i o w h) (a : WritesRoi m m1 o w1 h1 F) (hx : x < w2) (hy : y < h2) (hc : c < i.img.cc) :
    (partAt i dx dy).get m1 x y c = i.get m (dx + x) (dy + y) c := by
  simp only [View.get, cell_partAt]
  refine a.outside _ _ ?_
  rintro ⟨hd, x', y', c', p1, p2, p3, e⟩
  obtain ⟨e1, e2, -⟩ := n _ _ _ _ _ _ (k.in2 hx hy).1 (k.in2 hx hy).2 hc (k.in1 p1 p2).1 (k.in1 p1 p2).2 p3 hd e
  exact k.disjoint p1 p2 ⟨e1.symm, e2.symm⟩

/-- `op` does the two parts as it does the whole -/
def InParts1 (op : View → View → Nat → Nat → M BMem Unit) (m : BMem) (inp out : View) (w h w1 h1 dx dy w2 h2 : Nat) : Prop :=
  ∃ m1 m2, op inp out w1 h1 m = .ok () m1 ∧ op (partAt inp dx dy) (partAt out dx dy) w2 h2 m1 = .ok () m2 ∧ op inp out w h m = .ok () m2

def InParts2 (op : View → View → View → Nat → Nat → M BMem Unit) (m : BMem) (p q out : View) (w h w1 h1 dx dy w2 h2 : Nat) : Prop :=
  ∃ m1 m2, op p q out w1 h1 m = .ok () m1 ∧ op (partAt p dx dy) (partAt q dx dy) (partAt out dx dy) w2 h2 m1 = .ok () m2 ∧
    op p q out w h m = .ok () m2

theorem inParts1 {op : View → View → Nat → Nat → M BMem Unit} {f : UInt8 → UInt8} {P : Image → Prop}
    (hop : ∀ {m : BMem} {inp out : View} {w h : Nat}, Ready1 m inp out w h → P inp.img → ∃ m', op inp out w h m = .ok () m' ∧
      WritesRoi m m' out w h fun x y c => f (inp.get m x y c))
    {m : BMem} {inp out : View} {w h w1 h1 dx dy w2 h2 : Nat} (k : Cut w h w1 h1 dx dy w2 h2) (r : Ready1 m inp out w h) (hP : P inp.img) :
    InParts1 op m inp out w h w1 h1 dx dy w2 h2 := by
  obtain ⟨m', e, s⟩ := hop r hP
  obtain ⟨m1, e1, s1⟩ := hop (m := m) (inp := inp) (out := out) (w := w1) (h := h1)
    ⟨r.wfi, r.wfo, k.fits1 r.fiti, k.fits1 r.fito, r.co, k.clash1 r.n1⟩ hP
  obtain ⟨m2, e2, s2⟩ := hop (m := m1) (inp := partAt inp dx dy) (out := partAt out dx dy) (w := w2) (h := h2)
    ⟨Image.WF.of_size r.wfi s1.size_eq, Image.WF.of_size r.wfo s1.size_eq, k.fits2 r.fiti, k.fits2 r.fito, r.co, k.clash2 r.n1⟩ hP
  refine ⟨m1, m2, e1, e2, ?_⟩
  rw [e, s.unique (glue k r.wfo r.fito s1 s2 fun x y c hx hy hc => congrArg f (k.unread r.n1 s1 hx hy (r.co ▸ hc)))]

theorem inParts2 {op : View → View → View → Nat → Nat → M BMem Unit} {f : UInt8 → UInt8 → UInt8} (hop : Puts op f)
    {m : BMem} {p q out : View} {w h w1 h1 dx dy w2 h2 : Nat} (k : Cut w h w1 h1 dx dy w2 h2) (r : Ready2 m p q out w h) :
    InParts2 op m p q out w h w1 h1 dx dy w2 h2 := by
  obtain ⟨m', e, s⟩ := hop r
  obtain ⟨m1, e1, s1⟩ := hop (m := m) (a := p) (b := q) (out := out) (w := w1) (h := h1)
    ⟨r.wf1, r.wf2, r.wfo, k.fits1 r.fit1, k.fits1 r.fit2, k.fits1 r.fito, r.c2, r.co, k.clash1 r.n1, k.clash1 r.n2⟩
  obtain ⟨m2, e2, s2⟩ := hop (m := m1) (a := partAt p dx dy) (b := partAt q dx dy) (out := partAt out dx dy) (w := w2) (h := h2)
    ⟨Image.WF.of_size r.wf1 s1.size_eq, Image.WF.of_size r.wf2 s1.size_eq, Image.WF.of_size r.wfo s1.size_eq, k.fits2 r.fit1, k.fits2 r.fit2, k.fits2 r.fito, r.c2, r.co,
      k.clash2 r.n1, k.clash2 r.n2⟩
  refine ⟨m1, m2, e1, e2, ?_⟩
  rw [e, s.unique (glue k r.wfo r.fito s1 s2 fun x y c hx hy hc => congrArg₂ f (k.unread r.n1 s1 hx hy (r.co ▸ hc))
    (k.unread r.n2 s1 hx hy (r.c2 ▸ r.co ▸ hc)))]

/-- C190: functions of one image done in two parts, in place as well. -/
theorem C190_one {m : BMem} {inp out : View} {w h w1 h1 dx dy w2 h2 : Nat} (k : Cut w h w1 h1 dx dy w2 h2) (r : Ready1 m inp out w h) :
    InParts1 Invert m inp out w h w1 h1 dx dy w2 h2 ∧
    (∀ table, table.length = 256 → InParts1 (LookupTable · · · · table) m inp out w h w1 h1 dx dy w2 h2) ∧
    (inp.img.cc = 1 → ∀ t, InParts1 (Threshold · · · · t) m inp out w h w1 h1 dx dy w2 h2) ∧
    (inp.img.cc = 1 → ∀ lo hi, lo ≤ hi → InParts1 (Threshold2 · · · · lo hi) m inp out w h w1 h1 dx dy w2 h2) :=
  ⟨inParts1 (f := fun b => UInt8.ofNat (255 - b.toNat)) (P := fun _ => True) (fun r _ => C13_invert r) k r trivial,
    fun table hl => inParts1 (f := fun b => table[b.toNat]'(by rw [hl]; exact UInt8.toNat_lt _)) (P := fun _ => True)
      (fun r _ => C15_lookupTable table hl r) k r trivial,
    fun g t => inParts1 (f := fun b => if t.toNat ≤ b.toNat then 255 else 0) (P := fun i => i.cc = 1) (fun r g => C14_threshold t r g) k r g,
    fun g lo hi hlh => inParts1 (f := fun b => if lo.toNat ≤ b.toNat ∧ b.toNat ≤ hi.toNat then 255 else 0) (P := fun i => i.cc = 1)
      (fun r g => C14_threshold2 lo hi hlh r g) k r g⟩

/-- C190: functions of two images done in two parts, in place as well. -/
theorem C190_two {m : BMem} {p q out : View} {w h w1 h1 dx dy w2 h2 : Nat} (k : Cut w h w1 h1 dx dy w2 h2) (r : Ready2 m p q out w h) :
    InParts2 BitwiseAnd m p q out w h w1 h1 dx dy w2 h2 ∧ InParts2 BitwiseOr m p q out w h w1 h1 dx dy w2 h2 ∧
    InParts2 BitwiseXor m p q out w h w1 h1 dx dy w2 h2 ∧ InParts2 Maximum m p q out w h w1 h1 dx dy w2 h2 ∧
    InParts2 Minimum m p q out w h w1 h1 dx dy w2 h2 ∧ InParts2 AbsoluteDifference m p q out w h w1 h1 dx dy w2 h2 :=
  ⟨inParts2 puts_and k r, inParts2 puts_or k r, inParts2 puts_xor k r, inParts2 (fun r => C11_maximum r) k r,
    inParts2 (fun r => C11_minimum r) k r, inParts2 (fun r => C09_absoluteDifference r) k r⟩

/-- C190: Fill done in two parts. -/
theorem C190_fill {m : BMem} {v : View} {w h w1 h1 dx dy w2 h2 : Nat} (k : Cut w h w1 h1 dx dy w2 h2) (wf : v.img.WF m) (fit : v.Fits w h)
    (value : UInt8) : ∃ m1 m2, Fill v w1 h1 value m = .ok () m1 ∧ Fill (partAt v dx dy) w2 h2 value m1 = .ok () m2 ∧ Fill v w h value m = .ok () m2 := by
  obtain ⟨m', e, s⟩ := C17_fill wf fit value
  obtain ⟨m1, e1, s1⟩ := C17_fill wf (k.fits1 fit) value
  obtain ⟨m2, e2, s2⟩ := C17_fill (v := partAt v dx dy) (m := m1) (Image.WF.of_size wf s1.size_eq) (k.fits2 fit) value
  exact ⟨m1, m2, e1, e2, by rw [e, s.unique (glue k wf fit s1 s2 fun _ _ _ _ _ _ => rfl)]⟩

/-- C190: Copy done in two parts. -/
theorem C190_copy {m : BMem} {inp out : View} {w h w1 h1 dx dy w2 h2 : Nat} (k : Cut w h w1 h1 dx dy w2 h2) (wfi : inp.img.WF m)
    (wfo : out.img.WF m) (fiti : inp.Fits w h) (fito : out.Fits w h) (co : out.img.cc = inp.img.cc) (hap : Apart inp w h out w h) :
    InParts1 CopyRoi m inp out w h w1 h1 dx dy w2 h2 := by
  have n : NoClash inp out w h := fun _ _ _ _ _ _ a b c d e f hd he => (hap _ _ _ _ _ _ a b c d e f hd he).elim
  obtain ⟨m', e, s⟩ := C16_copy wfi wfo fiti fito co hap
  obtain ⟨m1, e1, s1⟩ := C16_copy wfi wfo (k.fits1 fiti) (k.fits1 fito) co
    fun _ _ _ _ _ _ a b c d e f => hap _ _ _ _ _ _ (k.in1 a b).1 (k.in1 a b).2 c (k.in1 d e).1 (k.in1 d e).2 f
  obtain ⟨m2, e2, s2⟩ := C16_copy (m := m1) (inp := partAt inp dx dy) (out := partAt out dx dy) (Image.WF.of_size wfi s1.size_eq)
    (Image.WF.of_size wfo s1.size_eq) (k.fits2 fiti) (k.fits2 fito) co (by
      intro x y c x' y' c' a b hc d e hc'
      rw [cell_partAt, cell_partAt]
      exact hap _ _ _ _ _ _ (k.in2 a b).1 (k.in2 a b).2 hc (k.in2 d e).1 (k.in2 d e).2 hc')
  refine ⟨m1, m2, e1, e2, ?_⟩
  rw [e, s.unique (glue k wfo fito s1 s2 fun x y c hx hy hc => k.unread n s1 hx hy (co ▸ hc))]

/-- C191 when the rows of its two inputs have the same length. What is missing: rows of different length, for which it
    can be false (`C191_subtract_wrong`). -/
theorem C191_subtract_partial {m : BMem} {p q out : View} {w h w1 h1 dx dy w2 h2 : Nat} (k : Cut w h w1 h1 dx dy w2 h2)
    (r : Ready2 m p q out w h) (hrow : q.img.rowSize = p.img.rowSize) : InParts2 Subtract m p q out w h w1 h1 dx dy w2 h2 := by
  obtain ⟨m', e, s⟩ := C12_subtract_partial r (.inl hrow)
  obtain ⟨m1, e1, s1⟩ := C12_subtract_partial (m := m) (in1 := p) (in2 := q) (out := out) (w := w1) (h := h1)
    ⟨r.wf1, r.wf2, r.wfo, k.fits1 r.fit1, k.fits1 r.fit2, k.fits1 r.fito, r.c2, r.co, k.clash1 r.n1, k.clash1 r.n2⟩ (.inl hrow)
  obtain ⟨m2, e2, s2⟩ := C12_subtract_partial (m := m1) (in1 := partAt p dx dy) (in2 := partAt q dx dy) (out := partAt out dx dy) (w := w2) (h := h2)
    ⟨Image.WF.of_size r.wf1 s1.size_eq, Image.WF.of_size r.wf2 s1.size_eq, Image.WF.of_size r.wfo s1.size_eq, k.fits2 r.fit1, k.fits2 r.fit2,
      k.fits2 r.fito, r.c2, r.co, k.clash2 r.n1, k.clash2 r.n2⟩ (.inl hrow)
  refine ⟨m1, m2, e1, e2, ?_⟩
  rw [e, s.unique (glue k r.wfo r.fito s1 s2 fun x y c hx hy hc => congrArg₂ specSub (k.unread r.n1 s1 hx hy (r.co ▸ hc))
    (k.unread r.n2 s1 hx hy (r.c2 ▸ r.co ▸ hc)))]

/-! Rows and columns of images of two by two pixels, also in place -/
def tile (b : Nat) : View := ⟨tight b, 0, 0⟩

example := C190_one (inp := tile 1) (out := tile 1) (.columns 1 1 2 (by decide) (by decide)) ⟨wf_tight 1 (by decide), wf_tight 1 (by decide),
  fits_tight 1 (by decide), fits_tight 1 (by decide), rfl, noClash_self (by decide) (by decide)⟩
example := C190_two (p := tile 1) (q := tile 2) (out := tile 1) (.rows 2 1 1 (by decide) (by decide)) ⟨wf_tight 1 (by decide),
  wf_tight 2 (by decide), wf_tight 1 (by decide), fits_tight 1 (by decide), fits_tight 2 (by decide), fits_tight 1 (by decide), rfl, rfl,
  noClash_self (by decide) (by decide), noClash_of_ne _ _ (by decide)⟩
example := C191_subtract_partial (p := tile 1) (q := tile 2) (out := tile 1) (.rows 2 1 1 (by decide) (by decide)) ⟨wf_tight 1 (by decide),
  wf_tight 2 (by decide), wf_tight 1 (by decide), fits_tight 1 (by decide), fits_tight 2 (by decide), fits_tight 1 (by decide), rfl, rfl,
  noClash_self (by decide) (by decide), noClash_of_ne _ _ (by decide)⟩ rfl
example := C190_fill (v := tile 1) (.rows 2 1 1 (by decide) (by decide)) (wf_tight 1 (by decide)) (fits_tight 1 (by decide)) 7
example := C190_copy (inp := tile 1) (out := tile 2) (.columns 1 1 2 (by decide) (by decide)) (wf_tight 1 (by decide)) (wf_tight 2 (by decide))
  (fits_tight 1 (by decide)) (fits_tight 2 (by decide)) rfl fun _ _ _ _ _ _ _ _ _ _ _ _ hd => absurd hd (by decide)

/-- C191 is false: with a padded second input the two rows one after the other give another image than both at once. -/
theorem C191_subtract_wrong : Ready2 subMem (tile 1) ⟨padded 2, 0, 0⟩ (tile 3) 2 2 ∧ Cut 2 2 2 1 0 1 2 1 ∧
    ¬ InParts2 Subtract subMem (tile 1) ⟨padded 2, 0, 0⟩ (tile 3) 2 2 2 1 0 1 2 1 := by
  refine ⟨C12_subtract_wrong.1, .rows 2 1 1 (by decide) (by decide), ?_⟩
  rintro ⟨m1, m2, e1, e2, e⟩
  have a : after (Subtract (tile 1) ⟨padded 2, 0, 0⟩ (tile 3) 2 2 subMem) 3 2 = some 50 := by decide
  have b : after (match Subtract (tile 1) ⟨padded 2, 0, 0⟩ (tile 3) 2 1 subMem with
      | .ok _ m1 => Subtract (partAt (tile 1) 0 1) (partAt ⟨padded 2, 0, 0⟩ 0 1) (partAt (tile 3) 0 1) 2 1 m1
      | r => r) 3 2 = some 200 := by decide
  simp only [e, e1, e2, after] at a b
  exact absurd (a.symm.trans b) (by decide)

/-- The right column alone, and then the whole -/
example : after (Invert (partAt (tile 1) 1 0) (partAt (tile 1) 1 0) 1 2 exMem) 1 0 = some (exMem.byte 1 0) ∧
    after (Invert (tile 1) (tile 1) 2 2 exMem) 1 0 ≠ some (exMem.byte 1 0) := by decide

end PV.Props
