import Verif.PropsFilterLaws
/-
  C187: functions of colours and channels together.
-/
namespace PV.Props
open PV PV.Laws PV.Steps

theorem specMean_swap (a b c : UInt8) : specMean a b c = specMean c b a := by
  rw [specMean, specMean, show a.toNat + b.toNat + c.toNat = c.toNat + b.toNat + a.toNat by omega]

/-- **C187.** The gray image is the same for both orders of the colours. -/
theorem C187_gray_bgr {m : BMem} {w h : Nat} {a p q s : View} (oa : Own m w h 3 a) (op : Own m w h 3 p) (oq : Own m w h 1 q) (os : Own m w h 1 s)
    (hd : [a.img.data, p.img.data, q.img.data, s.img.data].Nodup) :
    ∃ m1 m2 m3, RgbToBgr a p w h m = .ok () m1 ∧ ConvertToGrayScale p q w h m1 = .ok () m2 ∧ ConvertToGrayScale a s w h m2 = .ok () m3 ∧
      IsEqual q s w h m3 = .ok true m3 := by
  simp only [List.nodup_cons, List.mem_cons, List.not_mem_nil, not_or, or_false, not_false_eq_true, List.nodup_nil, and_true] at hd
  obtain ⟨⟨ap, aq, as⟩, ⟨pq, ps⟩, qs⟩ := hd
  obtain ⟨m1, e1, w1⟩ := C21_rgbToBgr_partial (Own.pair oa op ap) oa.colors op.colors
  have k1 := w1.size_eq
  obtain ⟨m2, e2, w2⟩ := C22_convertToGrayScale_rgb (Own.pair (Own.keep op k1) (Own.keep oq k1) pq) op.colors oq.colors
  have k2 := w2.size_eq.trans k1
  obtain ⟨m3, e3, w3⟩ := C22_convertToGrayScale_rgb (Own.pair (Own.keep oa k2) (Own.keep os k2) as) oa.colors os.colors
  have k3 := w3.size_eq.trans k2
  refine ⟨m1, m2, m3, e1, e2, e3, equal_of (Own.keep oq k3) (Own.keep os k3) fun x y c hx hy hc => ?_⟩
  have hp : ∀ c, c < 3 → p.get m1 x y c = a.get m x y (2 - c) := fun c hc => w1.inside x y c hx hy (by rw [op.colors]; exact hc)
  rw [keeps w3 qs, w2.inside x y c hx hy (by rw [oq.colors]; exact hc), w3.inside x y c hx hy (by rw [os.colors]; exact hc), hp 0 (by decide),
    hp 1 (by decide), hp 2 (by decide), specMean_swap]
  simp only [keeps w2 aq, keeps w1 ap, Nat.sub_self, Nat.sub_zero, Nat.reduceSub]

/-- **C187.** A channel of the image with the colours in the other order is the opposite channel of the image. -/
theorem C187_channel_bgr {m : BMem} {w h : Nat} {a p q s : View} (oa : Own m w h 3 a) (op : Own m w h 3 p) (oq : Own m w h 1 q) (os : Own m w h 1 s)
    (hd : [a.img.data, p.img.data, q.img.data, s.img.data].Nodup) {ch : Nat} (hch : ch < 3) :
    ∃ m1 m2 m3, RgbToBgr a p w h m = .ok () m1 ∧ ExtractChannel p q w h ch m1 = .ok () m2 ∧ ExtractChannel a s w h (2 - ch) m2 = .ok () m3 ∧
      IsEqual q s w h m3 = .ok true m3 := by
  simp only [List.nodup_cons, List.mem_cons, List.not_mem_nil, not_or, or_false, not_false_eq_true, List.nodup_nil, and_true] at hd
  obtain ⟨⟨ap, aq, as⟩, ⟨pq, ps⟩, qs⟩ := hd
  obtain ⟨m1, e1, w1⟩ := C21_rgbToBgr_partial (Own.pair oa op ap) oa.colors op.colors
  have k1 := w1.size_eq
  obtain ⟨m2, e2, w2⟩ := C20_extractChannel (ch := ch) (Own.pair (Own.keep op k1) (Own.keep oq k1) pq) oq.colors (by rw [op.colors]; exact hch)
  have k2 := w2.size_eq.trans k1
  obtain ⟨m3, e3, w3⟩ := C20_extractChannel (ch := 2 - ch) (Own.pair (Own.keep oa k2) (Own.keep os k2) as) os.colors (by rw [oa.colors]; omega)
  have k3 := w3.size_eq.trans k2
  refine ⟨m1, m2, m3, e1, e2, e3, equal_of (Own.keep oq k3) (Own.keep os k3) fun x y c hx hy hc => ?_⟩
  rw [keeps w3 qs, w2.inside x y c hx hy (by rw [oq.colors]; exact hc), w3.inside x y c hx hy (by rw [os.colors]; exact hc),
    w1.inside x y ch hx hy (by rw [op.colors]; exact hch), keeps w2 aq, keeps w1 ap]

/-- **C187.** Merging three channels in the other order is merging and then exchanging the colours. -/
theorem C187_merge_bgr {m : BMem} {w h : Nat} {i1 i2 i3 p q s : View} (o1 : Own m w h 1 i1) (o2 : Own m w h 1 i2) (o3 : Own m w h 1 i3)
    (op : Own m w h 3 p) (oq : Own m w h 3 q) (os : Own m w h 3 s)
    (d1 : [i1.img.data, p.img.data, q.img.data, s.img.data].Nodup) (d2 : [i2.img.data, p.img.data, q.img.data, s.img.data].Nodup)
    (d3 : [i3.img.data, p.img.data, q.img.data, s.img.data].Nodup) :
    ∃ m1 m2 m3, Merge i1 i2 i3 p w h m = .ok () m1 ∧ RgbToBgr p q w h m1 = .ok () m2 ∧ Merge i3 i2 i1 s w h m2 = .ok () m3 ∧
      IsEqual q s w h m3 = .ok true m3 := by
  simp only [List.nodup_cons, List.mem_cons, List.not_mem_nil, not_or, or_false, not_false_eq_true, List.nodup_nil, and_true] at d1 d2 d3
  obtain ⟨⟨p1, q1, s1⟩, ⟨pq, ps⟩, qs⟩ := d1
  obtain ⟨⟨p2, q2, s2⟩, _⟩ := d2
  obtain ⟨⟨p3, q3, s3⟩, _⟩ := d3
  obtain ⟨m1, e1, w1⟩ := C20_merge (Own.pair o1 op p1) (Own.pair o2 op p2) (Own.pair o3 op p3) op.colors o1.colors o2.colors o3.colors
  have k1 := w1.size_eq
  obtain ⟨m2, e2, w2⟩ := C21_rgbToBgr_partial (Own.pair (Own.keep op k1) (Own.keep oq k1) pq) op.colors oq.colors
  have k2 := w2.size_eq.trans k1
  obtain ⟨m3, e3, w3⟩ := C20_merge (Own.pair (Own.keep o3 k2) (Own.keep os k2) s3) (Own.pair (Own.keep o2 k2) (Own.keep os k2) s2)
    (Own.pair (Own.keep o1 k2) (Own.keep os k2) s1) os.colors o3.colors o2.colors o1.colors
  have k3 := w3.size_eq.trans k2
  refine ⟨m1, m2, m3, e1, e2, e3, equal_of (Own.keep oq k3) (Own.keep os k3) fun x y c hx hy hc => ?_⟩
  rw [keeps w3 qs, w2.inside x y c hx hy (by rw [oq.colors]; exact hc), w3.inside x y c hx hy (by rw [os.colors]; exact hc),
    w1.inside x y (2 - c) hx hy (by rw [op.colors]; omega)]
  obtain rfl | rfl | rfl : c = 0 ∨ c = 1 ∨ c = 2 := by omega
  · exact (by rw [keeps w2 q3, keeps w1 p3] : i3.get m x y 0 = i3.get m2 x y 0)
  · exact (by rw [keeps w2 q2, keeps w1 p2] : i2.get m x y 0 = i2.get m2 x y 0)
  · exact (by rw [keeps w2 q1, keeps w1 p1] : i1.get m x y 0 = i1.get m2 x y 0)

/-- **C187.** Changing values by a lookup table and taking a channel can be exchanged. -/
theorem C187_channel_table {m : BMem} {w h cc : Nat} {a p q s t : View} (oa : Own m w h cc a) (op : Own m w h cc p) (oq : Own m w h 1 q)
    (os : Own m w h 1 s) (ot : Own m w h 1 t) (hd : [a.img.data, p.img.data, q.img.data, s.img.data, t.img.data].Nodup) {ch : Nat} (hch : ch < cc)
    (table : List UInt8) (hl : table.length = 256) :
    ∃ m1 m2 m3 m4, LookupTable a p w h table m = .ok () m1 ∧ ExtractChannel p q w h ch m1 = .ok () m2 ∧ ExtractChannel a s w h ch m2 = .ok () m3 ∧
      LookupTable s t w h table m3 = .ok () m4 ∧ IsEqual q t w h m4 = .ok true m4 := by
  simp only [List.nodup_cons, List.mem_cons, List.not_mem_nil, not_or, or_false, not_false_eq_true, List.nodup_nil, and_true] at hd
  obtain ⟨⟨ap, aq, as, _⟩, ⟨pq, _, _⟩, ⟨qs, qt⟩, st⟩ := hd
  obtain ⟨m1, e1, w1⟩ := C15_lookupTable table hl (oa.ready1 op ap)
  have k1 := w1.size_eq
  obtain ⟨m2, e2, w2⟩ := C20_extractChannel (ch := ch) (Own.pair (Own.keep op k1) (Own.keep oq k1) pq) oq.colors (by rw [op.colors]; exact hch)
  have k2 := w2.size_eq.trans k1
  obtain ⟨m3, e3, w3⟩ := C20_extractChannel (ch := ch) (Own.pair (Own.keep oa k2) (Own.keep os k2) as) os.colors (by rw [oa.colors]; exact hch)
  have k3 := w3.size_eq.trans k2
  obtain ⟨m4, e4, w4⟩ := C15_lookupTable table hl ((Own.keep os k3).ready1 (Own.keep ot k3) st)
  have k4 := w4.size_eq.trans k3
  refine ⟨m1, m2, m3, m4, e1, e2, e3, e4, equal_of (Own.keep oq k4) (Own.keep ot k4) fun x y c hx hy hc => ?_⟩
  rw [keeps w4 qt, keeps w3 qs, w2.inside x y c hx hy (by rw [oq.colors]; exact hc), w4.inside x y c hx hy (by rw [ot.colors]; exact hc),
    w1.inside x y ch hx hy (by rw [op.colors]; exact hch)]
  simp only [w3.inside x y c hx hy (by rw [os.colors]; exact hc), keeps w2 aq, keeps w1 ap]

/-- **C187.** After a channel was replaced, that channel is the new one and the others are as before. -/
theorem C187_replaced_channel {m : BMem} {w h : Nat} {b a q s : View} (ob : Own m w h 1 b) (oa : Own m w h 3 a) (oq : Own m w h 1 q) (os : Own m w h 1 s)
    (hd : [b.img.data, a.img.data, q.img.data, s.img.data].Nodup) {ch ch' : Nat} (hch : ch < 3) (hch' : ch' < 3) :
    ∃ m1 m2 m3, ExtractChannel a q w h ch' m = .ok () m1 ∧ ReplaceChannel b a w h ch m1 = .ok () m2 ∧ ExtractChannel a s w h ch' m2 = .ok () m3 ∧
      IsEqual s (if ch' = ch then b else q) w h m3 = .ok true m3 := by
  simp only [List.nodup_cons, List.mem_cons, List.not_mem_nil, not_or, or_false, not_false_eq_true, List.nodup_nil, and_true] at hd
  obtain ⟨⟨ba, bq, bs⟩, ⟨aq, as⟩, qs⟩ := hd
  obtain ⟨m1, e1, w1⟩ := C20_extractChannel (ch := ch') (Own.pair oa oq aq) oq.colors (by rw [oa.colors]; exact hch')
  have k1 := w1.size_eq
  obtain ⟨m2, e2, w2⟩ := C67_replaceChannel (ch := ch) (Own.pair (Own.keep ob k1) (Own.keep oa k1) ba) ob.colors oa.colors hch
  have k2 := w2.size_eq.trans k1
  obtain ⟨m3, e3, w3⟩ := C20_extractChannel (ch := ch') (Own.pair (Own.keep oa k2) (Own.keep os k2) as) os.colors (by rw [oa.colors]; exact hch')
  have k3 := w3.size_eq.trans k2
  have o : Own m3 w h 1 (if ch' = ch then b else q) := by
    split
    · exact Own.keep ob k3
    · exact Own.keep oq k3
  refine ⟨m1, m2, m3, e1, e2, e3, equal_of (Own.keep os k3) o fun x y c hx hy hc => ?_⟩
  obtain rfl : c = 0 := by omega
  rw [w3.inside x y 0 hx hy (by rw [os.colors]; exact hc), w2.inside x y ch' hx hy (by rw [oa.colors]; exact hch')]
  by_cases h1 : ch' = ch
  · rw [if_pos h1, if_pos h1, keeps w3 bs, keeps w2 ba]
  · rw [if_neg h1, if_neg h1, keeps w3 qs, keeps w2 (Ne.symm aq), w1.inside x y 0 hx hy (by rw [oq.colors]; exact hc), keeps w1 aq]

/-! ### Concrete cases: images of 5 x 5 pixels with rows of 7 bytes, images of three colours with rows of 17 bytes -/

def coloursMem : BMem := ⟨fun _ => 85, fun b i => UInt8.ofNat (b * 10 + i * i)⟩
def colourView (b : Nat) : View := ⟨⟨b, 5, 5, 3, 17⟩, 0, 0⟩

theorem colour_own (b : Nat) (hb : b ≠ 0) : Own coloursMem 5 5 3 (colourView b) :=
  ⟨⟨by simp [colourView], by simp [colourView, coloursMem], by simp [colourView]⟩,
    ⟨by simpa [colourView] using hb, by simp [colourView], by decide, by decide, by simp [colourView], by simp [colourView]⟩, rfl⟩

theorem gray_own (b : Nat) (hb : b ≠ 0) : Own coloursMem 5 5 1 (fiveView b) :=
  ⟨⟨by simp [fiveView], by simp [fiveView, coloursMem], by simp [fiveView]⟩,
    ⟨by simpa [fiveView] using hb, by simp [fiveView], by decide, by decide, by simp [fiveView], by simp [fiveView]⟩, rfl⟩

example := C187_gray_bgr (colour_own 1 (by decide)) (colour_own 2 (by decide)) (gray_own 3 (by decide)) (gray_own 4 (by decide)) (by decide)
example := C187_channel_bgr (colour_own 1 (by decide)) (colour_own 2 (by decide)) (gray_own 3 (by decide)) (gray_own 4 (by decide)) (by decide)
  (ch := 2) (by decide)
example := C187_merge_bgr (gray_own 1 (by decide)) (gray_own 2 (by decide)) (gray_own 3 (by decide)) (colour_own 4 (by decide))
  (colour_own 5 (by decide)) (colour_own 6 (by decide)) (by decide) (by decide) (by decide)
example := C187_channel_table (colour_own 1 (by decide)) (colour_own 2 (by decide)) (gray_own 3 (by decide)) (gray_own 4 (by decide))
  (gray_own 5 (by decide)) (by decide) (ch := 1) (by decide) ((List.range 256).map fun k => UInt8.ofNat (k / 2)) (by simp)
example := C187_replaced_channel (gray_own 1 (by decide)) (colour_own 2 (by decide)) (gray_own 3 (by decide)) (gray_own 4 (by decide)) (by decide)
  (ch := 1) (ch' := 1) (by decide) (by decide)

/-- The channels of the first image differ. -/
example : (List.range 3).map (fun ch => after (ExtractChannel (colourView 1) (fiveView 2) 5 5 ch coloursMem) 2 8) = [some 154, some 195, some 238] := by
  decide +kernel

end PV.Props
