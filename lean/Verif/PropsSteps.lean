import Verif.PropsLaws
import Verif.PropsResize
import Mathlib.Data.List.Perm.Basic
/-
  C183: calls in a row which can be replaced by other calls: tables, mirror images, quarter turns, sizes, accumulation.
-/
namespace PV.Steps
open PV PV.Props PV.Laws

theorem Own.keep {m m' : BMem} {w h cc : Nat} {v : View} (o : Own m w h cc v) (hs : m'.size = m.size) : Own m' w h cc v :=
  ⟨Image.WF.of_size o.wf hs, o.fit, o.colors⟩

theorem Own.pair {m : BMem} {w h w' h' cc cc' : Nat} {a b : View} (oa : Own m w h cc a) (ob : Own m w' h' cc' b) (hd : a.img.data ≠ b.img.data) :
    Pair m a w h b w' h' := ⟨oa.wf, ob.wf, oa.fit, ob.fit, apart_of_ne _ _ _ _ hd⟩

theorem mirror_two {n i : Nat} (h : i < n) (a b : Bool) : mirror a n (mirror b n i) = mirror (a ^^ b) n i := by
  cases a <;> cases b <;> simp [mirror]
  omega

/-- The table of a function on values -/
def tableOf (f : UInt8 → UInt8) : List UInt8 := (List.range 256).map fun k => f (UInt8.ofNat k)

theorem tableOf_length (f : UInt8 → UInt8) : (tableOf f).length = 256 := by simp [tableOf]

theorem tableOf_get (f : UInt8 → UInt8) (a : UInt8) (h : a.toNat < (tableOf f).length) : (tableOf f)[a.toNat] = f a := by
  simp [tableOf]

/-- Several images are accumulated one after the other. -/
def accumulateAll (w h : Nat) : List View → M VMem Unit
  | [] => pure ()
  | v :: vs => Accumulate v w h >>= fun _ => accumulateAll w h vs

end PV.Steps

namespace PV.Props
open PV.Laws PV.Steps

/-- C183: two tables in a row, the second one in place, are one table. -/
theorem C183_tables {m : BMem} {w h cc : Nat} {a p q : View} (oa : Own m w h cc a) (op : Own m w h cc p) (oq : Own m w h cc q)
    (ap : a.img.data ≠ p.img.data) (aq : a.img.data ≠ q.img.data) (pq : p.img.data ≠ q.img.data) (t1 t2 : List UInt8) (l1 : t1.length = 256)
    (l2 : t2.length = 256) :
    ∃ m1 m2 m3, LookupTable a p w h t1 m = .ok () m1 ∧ LookupTable p p w h t2 m1 = .ok () m2 ∧
      LookupTable a q w h (t1.map fun b => t2[b.toNat]'(by rw [l2]; exact b.toNat_lt)) m2 = .ok () m3 ∧ IsEqual p q w h m3 = .ok true m3 := by
  obtain ⟨m1, e1, w1⟩ := C15_lookupTable t1 l1 (oa.ready1 op ap)
  obtain ⟨m2, e2, w2⟩ := C15_lookupTable t2 l2 (op.after w1).here
  obtain ⟨m3, e3, w3⟩ := C15_lookupTable (t1.map fun (b : UInt8) => t2[b.toNat]'(by rw [l2]; exact b.toNat_lt)) (by rw [List.length_map, l1])
    (((oa.after w1).after w2).ready1 ((oq.after w1).after w2) aq)
  refine ⟨m1, m2, m3, e1, e2, e3, equal_of (((op.after w1).after w2).after w3) (((oq.after w1).after w2).after w3) fun x y c hx hy hc => ?_⟩
  rw [keeps w3 pq, w2.inside x y c hx hy (by rw [op.colors]; exact hc), w3.inside x y c hx hy (by rw [oq.colors]; exact hc)]
  simp only [List.getElem_map, w1.inside x y c hx hy (by rw [op.colors]; exact hc), keeps w2 ap, keeps w1 ap]

/-- C183: Invert is a table, with exactly the same effect on the memory, in place as well. -/
theorem C183_invert_table {m : BMem} {inp out : View} {w h : Nat} (r : Ready1 m inp out w h) :
    ∃ m', Invert inp out w h m = .ok () m' ∧ LookupTable inp out w h (tableOf fun b => UInt8.ofNat (255 - b.toNat)) m = .ok () m' := by
  obtain ⟨m1, e1, w1⟩ := C13_invert r
  obtain ⟨m2, e2, w2⟩ := C15_lookupTable _ (tableOf_length fun b => UInt8.ofNat (255 - b.toNat)) r
  simp only [tableOf_get] at w2
  exact ⟨m1, e1, by rw [e2, w1.unique w2]⟩

/-- C183: Threshold is a table, with exactly the same effect on the memory. -/
theorem C183_threshold_table {m : BMem} {inp out : View} {w h : Nat} (t : UInt8) (r : Ready1 m inp out w h) (g : inp.img.cc = 1) :
    ∃ m', Threshold inp out w h t m = .ok () m' ∧ LookupTable inp out w h (tableOf fun b => if t.toNat ≤ b.toNat then 255 else 0) m = .ok () m' := by
  obtain ⟨m1, e1, w1⟩ := C14_threshold t r g
  obtain ⟨m2, e2, w2⟩ := C15_lookupTable _ (tableOf_length fun b => if t.toNat ≤ b.toNat then 255 else 0) r
  simp only [tableOf_get] at w2
  exact ⟨m1, e1, by rw [e2, w1.unique w2]⟩

/-- C183: Flip after Flip is Flip with the flags which differ. -/
theorem C183_flips {m : BMem} {w h : Nat} {a p q s : View} (oa : Own m w h 1 a) (op : Own m w h 1 p) (oq : Own m w h 1 q) (os : Own m w h 1 s)
    (hd : [a.img.data, p.img.data, q.img.data, s.img.data].Nodup) (h1 v1 h2 v2 : Bool) :
    ∃ m1 m2 m3, Flip a p w h h1 v1 m = .ok () m1 ∧ Flip p q w h h2 v2 m1 = .ok () m2 ∧ Flip a s w h (h1 ^^ h2) (v1 ^^ v2) m2 = .ok () m3 ∧
      IsEqual q s w h m3 = .ok true m3 := by
  simp only [List.nodup_cons, List.mem_cons, List.not_mem_nil, not_or, or_false, not_false_eq_true, List.nodup_nil, and_true] at hd
  obtain ⟨⟨ap, aq, as⟩, ⟨pq, ps⟩, qs⟩ := hd
  obtain ⟨m1, e1, w1⟩ := C18_flip h1 v1 (Own.pair oa op ap) oa.colors op.colors
  obtain ⟨m2, e2, w2⟩ := C18_flip h2 v2 (Own.pair (op.after w1) (oq.after w1) pq) op.colors oq.colors
  obtain ⟨m3, e3, w3⟩ := C18_flip (h1 ^^ h2) (v1 ^^ v2) (Own.pair ((oa.after w1).after w2) ((os.after w1).after w2) as) oa.colors os.colors
  refine ⟨m1, m2, m3, e1, e2, e3, equal_of (((oq.after w1).after w2).after w3) (((os.after w1).after w2).after w3) fun x y c hx hy hc => ?_⟩
  have hcc : ∀ {v : View}, v.img.cc = 1 → c < v.img.cc := fun hv => by omega
  rw [keeps w3 qs, w2.inside x y c hx hy (hcc oq.colors), w1.inside _ _ c (mirror_lt hx) (mirror_lt hy) (hcc op.colors),
    w3.inside x y c hx hy (hcc os.colors), keeps w2 aq, keeps w1 ap, mirror_two hx, mirror_two hy]

/-- C183: Transpose and Flip can be exchanged together with the flags of Flip. -/
theorem C183_transpose_flip {m : BMem} {w h : Nat} {a p q s t : View} (oa : Own m w h 1 a) (op : Own m h w 1 p) (oq : Own m h w 1 q)
    (os : Own m w h 1 s) (ot : Own m h w 1 t) (hd : [a.img.data, p.img.data, q.img.data, s.img.data, t.img.data].Nodup) (hor ver : Bool) :
    ∃ m1 m2 m3 m4, Transpose a p w h m = .ok () m1 ∧ Flip p q h w hor ver m1 = .ok () m2 ∧ Flip a s w h ver hor m2 = .ok () m3 ∧
      Transpose s t w h m3 = .ok () m4 ∧ IsEqual q t h w m4 = .ok true m4 := by
  simp only [List.nodup_cons, List.mem_cons, List.not_mem_nil, not_or, or_false, not_false_eq_true, List.nodup_nil, and_true] at hd
  obtain ⟨⟨ap, aq, as, at'⟩, ⟨pq, ps, pt⟩, ⟨qs, qt⟩, st⟩ := hd
  obtain ⟨m1, e1, w1⟩ := C19_transpose (Own.pair oa op ap) oa.colors op.colors
  have k1 := w1.size_eq
  obtain ⟨m2, e2, w2⟩ := C18_flip hor ver (Own.pair (Own.keep op k1) (Own.keep oq k1) pq) op.colors oq.colors
  have k2 := w2.size_eq.trans k1
  obtain ⟨m3, e3, w3⟩ := C18_flip ver hor (Own.pair (Own.keep oa k2) (Own.keep os k2) as) oa.colors os.colors
  have k3 := w3.size_eq.trans k2
  obtain ⟨m4, e4, w4⟩ := C19_transpose (Own.pair (Own.keep os k3) (Own.keep ot k3) st) os.colors ot.colors
  have k4 := w4.size_eq.trans k3
  refine ⟨m1, m2, m3, m4, e1, e2, e3, e4, equal_of (Own.keep oq k4) (Own.keep ot k4) fun x y c hx hy hc => ?_⟩
  have hcc : ∀ {v : View}, v.img.cc = 1 → c < v.img.cc := fun hv => by omega
  rw [keeps w4 qt, keeps w3 qs, w2.inside x y c hx hy (hcc oq.colors), w1.inside _ _ c (mirror_lt hx) (mirror_lt hy) (hcc op.colors),
    w4.inside x y c hx hy (hcc ot.colors), w3.inside _ _ c hy hx (hcc os.colors), keeps w2 aq, keeps w1 ap]

/-- C183: two quarter turns, each made by Transpose and a horizontal Flip, are a half turn, made by Flip in both directions. -/
theorem C183_quarter_turns {m : BMem} {w h : Nat} {a p q s t u : View} (oa : Own m w h 1 a) (op : Own m h w 1 p) (oq : Own m h w 1 q)
    (os : Own m w h 1 s) (ot : Own m w h 1 t) (ou : Own m w h 1 u)
    (hd : [a.img.data, p.img.data, q.img.data, s.img.data, t.img.data, u.img.data].Nodup) :
    ∃ m1 m2 m3 m4 m5, Transpose a p w h m = .ok () m1 ∧ Flip p q h w true false m1 = .ok () m2 ∧ Transpose q s h w m2 = .ok () m3 ∧
      Flip s t w h true false m3 = .ok () m4 ∧ Flip a u w h true true m4 = .ok () m5 ∧ IsEqual t u w h m5 = .ok true m5 ∧
      ∀ x y, x < h → y < w → q.get m5 x y 0 = a.get m y (h - 1 - x) 0 := by
  simp only [List.nodup_cons, List.mem_cons, List.not_mem_nil, not_or, or_false, not_false_eq_true, List.nodup_nil, and_true] at hd
  obtain ⟨⟨ap, aq, as, at', au⟩, ⟨pq, ps, pt, pu⟩, ⟨qs, qt, qu⟩, ⟨st, su⟩, tu⟩ := hd
  obtain ⟨m1, e1, w1⟩ := C19_transpose (Own.pair oa op ap) oa.colors op.colors
  have k1 := w1.size_eq
  obtain ⟨m2, e2, w2⟩ := C18_flip true false (Own.pair (Own.keep op k1) (Own.keep oq k1) pq) op.colors oq.colors
  have k2 := w2.size_eq.trans k1
  obtain ⟨m3, e3, w3⟩ := C19_transpose (Own.pair (Own.keep oq k2) (Own.keep os k2) qs) oq.colors os.colors
  have k3 := w3.size_eq.trans k2
  obtain ⟨m4, e4, w4⟩ := C18_flip true false (Own.pair (Own.keep os k3) (Own.keep ot k3) st) os.colors ot.colors
  have k4 := w4.size_eq.trans k3
  obtain ⟨m5, e5, w5⟩ := C18_flip true true (Own.pair (Own.keep oa k4) (Own.keep ou k4) au) oa.colors ou.colors
  have k5 := w5.size_eq.trans k4
  have hq : ∀ x y, x < h → y < w → q.get m2 x y 0 = a.get m y (h - 1 - x) 0 := by
    intro x y hx hy
    rw [w2.inside x y 0 hx hy (by rw [oq.colors]; decide), w1.inside _ _ 0 (mirror_lt hx) (mirror_lt hy) (by rw [op.colors]; decide)]
    rfl
  refine ⟨m1, m2, m3, m4, m5, e1, e2, e3, e4, e5, equal_of (Own.keep ot k5) (Own.keep ou k5) fun x y c hx hy hc => ?_, fun x y hx hy => ?_⟩
  · obtain rfl : c = 0 := by omega
    rw [keeps w5 tu, w4.inside x y 0 hx hy (by rw [ot.colors]; decide), w3.inside _ _ 0 (mirror_lt hx) (mirror_lt hy) (by rw [os.colors]; decide),
      hq _ _ (mirror_lt hy) (mirror_lt hx), w5.inside x y 0 hx hy (by rw [ou.colors]; decide), keeps w4 at', keeps w3 as, keeps w2 aq, keeps w1 ap]
    rfl
  · rw [keeps w5 qu, keeps w4 qt, keeps w3 qs]
    exact hq x y hx hy

/-- C183: Resize by whole factors repeats each pixel, and Resize back restores the image.

    Partial: products of positions and sizes have to stay below 2^32, see C31. -/
theorem C183_resize_back_partial {m : BMem} {w h cc i j : Nat} {a p q : View} (oa : Own m w h cc a) (op : Own m (w * i) (h * j) cc p)
    (oq : Own m w h cc q) (ap : a.img.data ≠ p.img.data) (aq : a.img.data ≠ q.img.data) (pq : p.img.data ≠ q.img.data)
    (hx : w * i * w < 2 ^ 32) (hy : h * j * h < 2 ^ 32) :
    ∃ m1 m2, Resize a w h p (w * i) (h * j) m = .ok () m1 ∧ Resize p (w * i) (h * j) q w h m1 = .ok () m2 ∧ IsEqual a q w h m2 = .ok true m2 ∧
      ∀ x y c, x < w * i → y < h * j → c < cc → p.get m2 x y c = a.get m (x / i) (y / j) c := by
  have hw := oa.fit.wpos
  have hh := oa.fit.hpos
  have hi : 0 < i := Nat.pos_of_mul_pos_left op.fit.wpos
  have hj : 0 < j := Nat.pos_of_mul_pos_left op.fit.hpos
  obtain ⟨m1, e1, w1⟩ := C31_resize_partial (Own.pair oa op ap) (by rw [op.colors, oa.colors])
    (Nat.lt_of_le_of_lt (Nat.mul_le_mul_right _ (Nat.sub_le _ _)) hx) (Nat.lt_of_le_of_lt (Nat.mul_le_mul_right _ (Nat.sub_le _ _)) hy)
  have k1 := w1.size_eq
  obtain ⟨m2, e2, w2⟩ := C31_resize_partial (Own.pair (Own.keep op k1) (Own.keep oq k1) pq) (by rw [oq.colors, op.colors])
    (Nat.lt_of_le_of_lt (by rw [Nat.mul_comm]; exact Nat.mul_le_mul_left _ (Nat.sub_le _ _)) hx)
    (Nat.lt_of_le_of_lt (by rw [Nat.mul_comm]; exact Nat.mul_le_mul_left _ (Nat.sub_le _ _)) hy)
  have k2 := w2.size_eq.trans k1
  have hp : ∀ x y c, x < w * i → y < h * j → c < cc → p.get m1 x y c = a.get m (x / i) (y / j) c := by
    intro x y c h1 h2 hc
    rw [w1.inside x y c h1 h2 (by rw [op.colors]; exact hc), Nat.mul_comm x, Nat.mul_comm y, Nat.mul_div_mul_left _ _ hw, Nat.mul_div_mul_left _ _ hh]
  refine ⟨m1, m2, e1, e2, equal_of (Own.keep oa k2) (Own.keep oq k2) fun x y c h1 h2 hc => ?_, fun x y c h1 h2 hc => ?_⟩
  · have d1 : x * (w * i) / w = x * i := by rw [← Nat.mul_assoc, Nat.mul_comm x, Nat.mul_assoc, Nat.mul_div_cancel_left _ hw]
    have d2 : y * (h * j) / h = y * j := by rw [← Nat.mul_assoc, Nat.mul_comm y, Nat.mul_assoc, Nat.mul_div_cancel_left _ hh]
    rw [w2.inside x y c h1 h2 (by rw [oq.colors]; exact hc), d1, d2, hp _ _ c (Nat.mul_lt_mul_of_pos_right h1 hi) (Nat.mul_lt_mul_of_pos_right h2 hj) hc,
      Nat.mul_div_cancel _ hi, Nat.mul_div_cancel _ hj, keeps w2 aq, keeps w1 ap]
  · rw [keeps w2 pq]
    exact hp x y c h1 h2 hc

/-- C183: after several images have been accumulated each entry is increased by the sum of the values of all images. -/
theorem C183_accumulate {m : BMem} {w h cc : Nat} : ∀ (vs : List View) (_ : ∀ v, v ∈ vs → Own m w h cc v) (vec : List UInt32)
    (_ : vec.length = h * (w * cc)), ∃ res, accumulateAll w h vs (m, vec) = .ok () (m, res) ∧ res.length = vec.length ∧
      ∀ x y c, x < w → y < h → c < cc → res[y * (w * cc) + (x * cc + c)]? =
        vec[y * (w * cc) + (x * cc + c)]?.map fun a => a + UInt32.ofNat ((vs.map fun v => (v.get m x y c).toNat).sum)
  | [], _, vec, _ => ⟨vec, rfl, rfl, fun x y c _ _ _ => by
      rw [List.map_nil, List.sum_nil]
      cases vec[y * (w * cc) + (x * cc + c)]? <;> simp⟩
  | v :: vs, hv, vec, hl => by
    have o := hv v (by simp)
    obtain ⟨r1, e1, l1, g1⟩ := C27_accumulate ⟨o.wf, o.fit⟩ vec (by rw [hl, o.colors])
    obtain ⟨r2, e2, l2, g2⟩ := C183_accumulate vs (fun u hu => hv u (by simp [hu])) r1 (by rw [l1, hl])
    refine ⟨r2, by rw [accumulateAll, bind_ok e1]; exact e2, by rw [l2, l1], fun x y c hx hy hc => ?_⟩
    have hk : x * cc + c < w * cc := mul_add_lt hx hc
    have := g1 y (x * cc + c) hy (by rw [o.colors]; exact hk)
    rw [o.colors] at this
    rw [g2 x y c hx hy hc, this, Option.map_map]
    refine congrArg (fun f => Option.map f _) ?_
    funext a
    have hr : rowByte m v y (x * cc + c) = v.get m x y c := by
      rw [rowByte, o.colors, Nat.mul_comm x, Nat.mul_add_div (by omega), Nat.mul_add_mod, Nat.div_eq_of_lt hc, Nat.mod_eq_of_lt hc, Nat.add_zero]
    simp only [Function.comp, List.map_cons, List.sum_cons, hr, UInt32.ofNat_add]
    rw [UInt32.add_assoc]

/-- C183: the order in which images are accumulated does not matter. -/
theorem C183_accumulate_order {m : BMem} {w h cc : Nat} {vs us : List View} (hp : vs.Perm us) (hv : ∀ v, v ∈ vs → Own m w h cc v)
    (vec : List UInt32) (hl : vec.length = h * (w * cc)) : accumulateAll w h vs (m, vec) = accumulateAll w h us (m, vec) := by
  obtain ⟨r1, e1, l1, g1⟩ := C183_accumulate vs hv vec hl
  obtain ⟨r2, e2, l2, g2⟩ := C183_accumulate us (fun u hu => hv u (hp.mem_iff.2 hu)) vec hl
  rw [e1, e2]
  refine congrArg (fun r => Res.ok () (m, r)) (List.ext_getElem? fun i => ?_)
  by_cases hi : i < h * (w * cc)
  · have h0 : 0 < w * cc := Nat.pos_of_mul_pos_left (Nat.lt_of_le_of_lt (Nat.zero_le _) hi)
    have h1 : 0 < cc := Nat.pos_of_mul_pos_left h0
    have hy : i / (w * cc) < h := Nat.div_lt_of_lt_mul (by rw [Nat.mul_comm]; exact hi)
    have hx : i % (w * cc) / cc < w := (Nat.div_lt_iff_lt_mul h1).2 (Nat.mod_lt _ h0)
    have hc : i % (w * cc) % cc < cc := Nat.mod_lt _ h1
    have a1 := g1 _ _ _ hx hy hc
    have a2 := g2 _ _ _ hx hy hc
    have he : i / (w * cc) * (w * cc) + (i % (w * cc) / cc * cc + i % (w * cc) % cc) = i := by
      rw [Nat.div_add_mod', Nat.div_add_mod']
    rw [he] at a1 a2
    rw [a1, a2, (hp.map _).sum_nat]
  · rw [List.getElem?_eq_none (by omega), List.getElem?_eq_none (by omega)]

/-! ### Concrete cases -/

theorem own_tight (b : Nat) (hb : b ≠ 0) : Own exMem 2 2 1 ⟨tight b, 0, 0⟩ := ⟨wf_tight b hb, fits_tight b hb, rfl⟩

example := C183_tables (own_tight 1 (by decide)) (own_tight 2 (by decide)) (own_tight 3 (by decide)) (by decide) (by decide) (by decide)
  (tableOf fun b => b + 3) (tableOf fun b => b * 2) (tableOf_length _) (tableOf_length _)
example := C183_invert_table (own_tight 1 (by decide)).here
example := C183_threshold_table 11 ((own_tight 1 (by decide)).ready1 (own_tight 2 (by decide)) (by decide)) rfl
example := C183_flips (own_tight 1 (by decide)) (own_tight 2 (by decide)) (own_tight 3 (by decide)) (own_tight 4 (by decide)) (by decide)
  true false true true
example := C183_transpose_flip (own_tight 1 (by decide)) (own_tight 2 (by decide)) (own_tight 3 (by decide)) (own_tight 4 (by decide))
  (own_tight 5 (by decide)) (by decide) true false
example := C183_quarter_turns (own_tight 1 (by decide)) (own_tight 2 (by decide)) (own_tight 3 (by decide)) (own_tight 4 (by decide))
  (own_tight 5 (by decide)) (own_tight 6 (by decide)) (by decide)

/-- A rectangle of one row of one image, doubled in width into the other one -/
example := C183_resize_back_partial (m := exMem) (w := 1) (h := 2) (cc := 1) (i := 2) (j := 1) (a := ⟨tight 1, 1, 0⟩) (p := ⟨tight 2, 0, 0⟩)
  (q := ⟨tight 3, 1, 0⟩) ⟨wf_tight 1 (by decide), ⟨by decide, by decide, by decide, by decide, by decide, by decide⟩, rfl⟩ (own_tight 2 (by decide))
  ⟨wf_tight 3 (by decide), ⟨by decide, by decide, by decide, by decide, by decide, by decide⟩, rfl⟩ (by decide) (by decide) (by decide) (by decide) (by decide)

example : (match accumulateAll 2 2 [⟨tight 1, 0, 0⟩, ⟨tight 2, 0, 0⟩] (exMem, [1, 2, 3, 4]) with | .ok _ r => r.2 | _ => []) = [31, 34, 41, 52] := by
  decide +kernel
example := C183_accumulate_order (m := exMem) (w := 2) (h := 2) (cc := 1) (List.Perm.swap ⟨tight 1, 0, 0⟩ ⟨tight 2, 0, 0⟩ [])
  (by simp; exact ⟨own_tight 2 (by decide), own_tight 1 (by decide)⟩) [1, 2, 3, 4] (by decide)

end PV.Props
