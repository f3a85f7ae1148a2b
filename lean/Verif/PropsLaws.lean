import Verif.PropsReduce
/-
  C181: what different functions tell about the same image agrees.
-/
namespace PV.Laws
open PV PV.Props

/-- The pixels taken in another order -/
theorem perm_grid {h w h' w' : Nat} {f g : Nat × Nat → Nat × Nat} (hf : ∀ p ∈ grid h w, f p ∈ grid h' w') (hg : ∀ p ∈ grid h' w', g p ∈ grid h w)
    (gf : ∀ p ∈ grid h w, g (f p) = p) (fg : ∀ p ∈ grid h' w', f (g p) = p) : ((grid h w).map f).Perm (grid h' w') := by
  refine (List.perm_ext_iff_of_nodup ?_ (nodup_grid _ _)).2 fun p => ?_
  · exact nodup_map_inj (nodup_grid _ _) fun a ha b hb hab => by rw [← gf a ha, ← gf b hb, hab]
  · rw [List.mem_map]
    constructor
    · rintro ⟨q, hq, rfl⟩
      exact hf q hq
    · intro hp
      exact ⟨g p, hg p hp, fg p hp⟩

/-- The values of a rectangle written with those of another one in another order -/
theorem pixels_moved {m m' : BMem} {inp out : View} {w h w' h' : Nat} {f g : Nat × Nat → Nat × Nat} (co : out.img.cc = 1)
    (W : WritesRoi m m' out w' h' fun x y c => inp.get m (f (y, x)).2 (f (y, x)).1 c) (hf : ∀ p ∈ grid h' w', f p ∈ grid h w)
    (hg : ∀ p ∈ grid h w, g p ∈ grid h' w') (gf : ∀ p ∈ grid h' w', g (f p) = p) (fg : ∀ p ∈ grid h w, f (g p) = p) :
    (pixels m' out w' h').Perm (pixels m inp w h) := by
  have e : pixels m' out w' h' = ((grid h' w').map f).map fun p => inp.get m p.2 p.1 0 := by
    rw [pixels, List.map_map]
    refine List.map_congr_left fun p hp => ?_
    have := mem_grid.1 hp
    exact W.inside p.2 p.1 0 this.2 this.1 (by omega)
  rw [e, pixels]
  exact (perm_grid hf hg gf fg).map _

/-- The values of a rectangle written pixel by pixel -/
theorem pixels_mapped {m m' : BMem} {inp out : View} {w h : Nat} {f : UInt8 → UInt8} (co : out.img.cc = 1)
    (W : WritesRoi m m' out w h fun x y c => f (inp.get m x y c)) : pixels m' out w h = (pixels m inp w h).map f := by
  rw [pixels, pixels, List.map_map]
  refine List.map_congr_left fun p hp => ?_
  have := mem_grid.1 hp
  exact W.inside p.2 p.1 0 this.2 this.1 (by omega)

theorem get_hist {hist : List UInt32} {n : Nat → Nat} (hl : hist.length = 256) (h : ∀ k, k < 256 → hist[k]? = some (UInt32.ofNat (n k))) :
    hist = (List.range 256).map fun k => UInt32.ofNat (n k) := by
  refine List.ext_getElem? fun k => ?_
  by_cases hk : k < 256
  · rw [h k hk, List.getElem?_map, List.getElem?_range hk]
    rfl
  · rw [List.getElem?_eq_none (by omega), List.getElem?_eq_none (by simp; omega)]

/-- Histogram and Sum are functions of the values. -/
theorem numbers {m : BMem} {v : View} {w h : Nat} (o : One m v w h) (cc : v.img.cc = 1) (vec : List UInt32) :
    Histogram v w h (m, vec) = .ok () (m, (List.range 256).map fun k => UInt32.ofNat ((pixels m v w h).count (UInt8.ofNat k))) ∧
      ∃ s, Sum v w h m = .ok s m ∧ s.toNat = ((pixels m v w h).map UInt8.toNat).sum % 2 ^ 32 := by
  obtain ⟨hist, e, hl, hh⟩ := histogram_gray o cc vec
  rw [e, get_hist hl hh]
  exact ⟨rfl, C25_sum o cc⟩

theorem counts_toNat {m : BMem} {v : View} {w h : Nat} (o : One m v w h) :
    ((List.range 256).map fun k => UInt32.ofNat ((pixels m v w h).count (UInt8.ofNat k))).map UInt32.toNat =
      (List.range 256).map fun k => (pixels m v w h).count (UInt8.ofNat k) := by
  rw [List.map_map]
  refine List.map_congr_left fun k _ => ?_
  have hc : (pixels m v w h).count (UInt8.ofNat k) ≤ (pixels m v w h).length := List.count_le_length
  rw [length_pixels] at hc
  have := o.small
  rw [Function.comp, UInt32.toNat_ofNat']
  exact Nat.mod_eq_of_lt (by omega)

theorem sameNumbers {m m' : BMem} {v v' : View} {w h w' h' : Nat} (o : One m v w h) (o' : One m' v' w' h') (cc : v.img.cc = 1) (cc' : v'.img.cc = 1)
    (hp : (pixels m' v' w' h').Perm (pixels m v w h)) (vec vec' : List UInt32) :
    ∃ hist s, Histogram v w h (m, vec) = .ok () (m, hist) ∧ Histogram v' w' h' (m', vec') = .ok () (m', hist) ∧
      Sum v w h m = .ok s m ∧ Sum v' w' h' m' = .ok s m' := by
  obtain ⟨h1, s, h2, h3⟩ := numbers o cc vec
  obtain ⟨h4, s', h5, h6⟩ := numbers o' cc' vec'
  refine ⟨_, s, h1, ?_, h2, ?_⟩
  · rw [h4]
    simp only [hp.count_eq]
  · have : s' = s := by
      apply UInt32.toNat_inj.1
      rw [h3, h6, (hp.map UInt8.toNat).sum_nat]
    rw [h5, this]

/-- An image of a block of its own, with a rectangle -/
structure Own (m : BMem) (w h cc : Nat) (v : View) : Prop where
  wf : v.img.WF m
  fit : v.Fits w h
  colors : v.img.cc = cc

theorem Own.after {m m' : BMem} {w h cc : Nat} {v out : View} {F : Nat → Nat → Nat → UInt8} (o : Own m w h cc v) (W : WritesRoi m m' out w h F) :
    Own m' w h cc v := ⟨Image.WF.of_size o.wf W.size_eq, o.fit, o.colors⟩

theorem Own.ready2 {m : BMem} {w h cc : Nat} {a b out : View} (oa : Own m w h cc a) (ob : Own m w h cc b) (oo : Own m w h cc out)
    (ha : a.img.data ≠ out.img.data) (hb : b.img.data ≠ out.img.data) : Ready2 m a b out w h :=
  ⟨oa.wf, ob.wf, oo.wf, oa.fit, ob.fit, oo.fit, by rw [ob.colors, oa.colors], by rw [oo.colors, oa.colors], noClash_of_ne _ _ ha, noClash_of_ne _ _ hb⟩

theorem Own.ready1 {m : BMem} {w h cc : Nat} {a out : View} (oa : Own m w h cc a) (oo : Own m w h cc out) (ha : a.img.data ≠ out.img.data) :
    Ready1 m a out w h := ⟨oa.wf, oo.wf, oa.fit, oo.fit, by rw [oo.colors, oa.colors], noClash_of_ne _ _ ha⟩

theorem Own.here {m : BMem} {w h cc : Nat} {a : View} (oa : Own m w h cc a) : Ready1 m a a w h :=
  ⟨oa.wf, oa.wf, oa.fit, oa.fit, rfl, noClash_self oa.wf.row oa.fit.inX⟩

/-- Images of other blocks stay as they are. -/
theorem keeps {m m' : BMem} {w h : Nat} {v out : View} {F : Nat → Nat → Nat → UInt8} (W : WritesRoi m m' out w h F) (hd : v.img.data ≠ out.img.data)
    (x y c : Nat) : v.get m' x y c = v.get m x y c := W.outside _ _ fun hc => hd hc.1

theorem equal_of {m : BMem} {w h cc : Nat} {a b : View} (oa : Own m w h cc a) (ob : Own m w h cc b)
    (he : ∀ x y c, x < w → y < h → c < cc → a.get m x y c = b.get m x y c) : IsEqual a b w h m = .ok true m := by
  obtain ⟨r, e, hr⟩ := C28_isEqual ⟨oa.wf, oa.fit⟩ ⟨ob.wf, ob.fit⟩ (by rw [ob.colors, oa.colors])
  rw [e, hr.2 fun x y c hx hy hc => he x y c hx hy (by rw [oa.colors] at hc; exact hc)]

theorem count_map {f : UInt8 → UInt8} {a b : UInt8} (hf : ∀ x, f x = a ↔ x = b) (L : List UInt8) : (L.map f).count a = L.count b := by
  induction L with
  | nil => rfl
  | cons x xs ih =>
    rw [List.map_cons, List.count_cons, List.count_cons, ih]
    by_cases hx : x = b
    · rw [hx, (hf b).2 rfl]
      simp
    · have : f x ≠ a := fun h => hx ((hf x).1 h)
      simp [hx, this]

theorem inv_iff (k : Nat) (hk : k < 256) (x : UInt8) : UInt8.ofNat (255 - x.toNat) = UInt8.ofNat k ↔ x = UInt8.ofNat (255 - k) := by
  have hx := x.toNat_lt
  constructor
  · intro h
    have := congrArg UInt8.toNat h
    rw [ofNat_toNat' (by omega), ofNat_toNat' hk] at this
    apply UInt8.toNat_inj.1
    rw [ofNat_toNat' (by omega)]
    omega
  · rintro rfl
    rw [ofNat_toNat' (by omega)]
    congr 1
    omega

theorem sum_one (p : Nat → Bool) (x : UInt8) : ∀ n, n ≤ 256 →
    (((List.range n).filter p).map fun k => if x == UInt8.ofNat k then 1 else 0).sum = if x.toNat < n ∧ p x.toNat = true then 1 else 0
  | 0, _ => by simp
  | n + 1, hn => by
    rw [List.range_succ, List.filter_append, List.map_append, List.sum_append, sum_one p x n (by omega)]
    have hx : (x == UInt8.ofNat n) = decide (x.toNat = n) := by
      rw [Bool.eq_iff_iff, beq_iff_eq, decide_eq_true_iff]
      constructor
      · rintro rfl
        exact ofNat_toNat' (by omega)
      · rintro rfl
        exact UInt8.ofNat_toNat.symm
    by_cases hp : p n = true
    · rw [List.filter_cons_of_pos hp, List.filter_nil, List.map_singleton, List.sum_singleton, hx]
      by_cases he : x.toNat = n
      · rw [he]
        simp [hp]
      · have : x.toNat < n + 1 ↔ x.toNat < n := by omega
        simp [he, this]
    · rw [List.filter_cons_of_neg hp, List.filter_nil, List.map_nil, List.sum_nil]
      by_cases he : x.toNat = n
      · rw [he]
        simp [hp]
      · have : x.toNat < n + 1 ↔ x.toNat < n := by omega
        simp [this]

theorem sum_map_add {α : Type} (f g : α → Nat) : ∀ l : List α, (l.map fun k => f k + g k).sum = (l.map f).sum + (l.map g).sum
  | [] => rfl
  | a :: l => by
    rw [List.map_cons, List.map_cons, List.map_cons, List.sum_cons, List.sum_cons, List.sum_cons, sum_map_add f g l]
    omega

theorem sum_map_zero {α : Type} : ∀ l : List α, (l.map fun _ => 0).sum = 0
  | [] => rfl
  | _ :: l => by rw [List.map_cons, List.sum_cons, sum_map_zero l]

/-- Values counted in two ways -/
theorem sum_counts (p : Nat → Bool) (L : List UInt8) :
    (((List.range 256).filter p).map fun k => L.count (UInt8.ofNat k)).sum = L.countP fun a => p a.toNat := by
  induction L with
  | nil => exact sum_map_zero _
  | cons x xs ih =>
    have hx := x.toNat_lt
    simp only [List.count_cons]
    rw [sum_map_add, ih, sum_one p x 256 (by omega), List.countP_cons]
    simp only [hx, true_and]

theorem count_two {f : UInt8 → UInt8} {a : UInt8} {p : Nat → Bool} (hf : ∀ x, f x = a ↔ p x.toNat = true) (L : List UInt8) :
    (L.map f).count a = L.countP fun x => p x.toNat := by
  induction L with
  | nil => rfl
  | cons x xs ih =>
    rw [List.map_cons, List.count_cons, List.countP_cons, ih]
    by_cases hx : p x.toNat = true
    · rw [(hf x).2 hx]
      simp [hx]
    · have : f x ≠ a := fun h => hx ((hf x).1 h)
      simp [hx, this]

theorem split_range {n t : Nat} (ht : t ≤ n) : List.range n = List.range t ++ (List.range (n - t)).map (t + ·) := by
  rw [← List.range_add, show t + (n - t) = n by omega]

theorem from_range {n t : Nat} (ht : t ≤ n) : ((List.range n).filter fun k => decide (t ≤ k)) = (List.range n).drop t := by
  rw [split_range ht, List.filter_append, List.drop_left' (by simp), List.filter_eq_nil_iff.2, List.filter_eq_self.2, List.nil_append]
  · intro a ha
    obtain ⟨b, _, rfl⟩ := List.mem_map.1 ha
    simp
  · intro a ha
    have := List.mem_range.1 ha
    simp only [decide_eq_true_eq]
    omega

theorem upto_range {n t : Nat} (ht : t ≤ n) : ((List.range n).filter fun k => decide (k < t)) = (List.range n).take t := by
  rw [split_range ht, List.filter_append, List.take_left' (by simp), List.filter_eq_self.2, List.filter_eq_nil_iff.2, List.append_nil]
  · intro a ha
    obtain ⟨b, _, rfl⟩ := List.mem_map.1 ha
    simp only [decide_eq_true_eq]
    omega
  · intro a ha
    simpa using ha

theorem sum_zero : ∀ L : List Nat, L.sum = 0 ↔ ∀ a ∈ L, a = 0
  | [] => by simp
  | a :: l => by
    rw [List.sum_cons, List.forall_mem_cons, ← sum_zero l]
    omega

theorem absDiff_zero (a b : UInt8) : (specAbsDiff a b).toNat = 0 ↔ a = b := by
  have ha := a.toNat_lt
  have hb := b.toNat_lt
  rw [specAbsDiff, ofNat_toNat' (by omega), ← UInt8.toNat_inj]
  omega

theorem max_min (a b : UInt8) : specSub (specMax a b) (specMin a b) = specAbsDiff a b := by
  have ha := a.toNat_lt
  have hb := b.toNat_lt
  have e1 : Nat.max a.toNat b.toNat = if a.toNat ≤ b.toNat then b.toNat else a.toNat := rfl
  have e2 : Nat.min a.toNat b.toNat = if a.toNat ≤ b.toNat then a.toNat else b.toNat := rfl
  rw [specSub, specMax, specMin, specAbsDiff, e1, e2]
  by_cases hab : a.toNat ≤ b.toNat
  · rw [if_pos hab, if_pos hab, ofNat_toNat' hb, ofNat_toNat' ha]
    congr 1
    omega
  · rw [if_neg hab, if_neg hab, ofNat_toNat' hb, ofNat_toNat' ha]
    congr 1
    omega

/-- The inverted value -/
def inv (a : UInt8) : UInt8 := UInt8.ofNat (255 - a.toNat)

theorem inv_toNat (a : UInt8) : (inv a).toNat = 255 - a.toNat := ofNat_toNat' (by omega)

theorem inv_max (a b : UInt8) : inv (specMax a b) = specMin (inv a) (inv b) := by
  have ha := a.toNat_lt
  have hb := b.toNat_lt
  apply UInt8.toNat_inj.1
  rw [inv_toNat, specMax, specMin, inv_toNat, inv_toNat]
  have e1 : Nat.max a.toNat b.toNat = max a.toNat b.toNat := rfl
  have e2 : Nat.min (255 - a.toNat) (255 - b.toNat) = min (255 - a.toNat) (255 - b.toNat) := rfl
  rw [e1, e2, ofNat_toNat' (by omega), ofNat_toNat' (by omega)]
  omega

theorem inv_min (a b : UInt8) : inv (specMin a b) = specMax (inv a) (inv b) := by
  have ha := a.toNat_lt
  have hb := b.toNat_lt
  apply UInt8.toNat_inj.1
  rw [inv_toNat, specMax, specMin, inv_toNat, inv_toNat]
  have e1 : Nat.min a.toNat b.toNat = min a.toNat b.toNat := rfl
  have e2 : Nat.max (255 - a.toNat) (255 - b.toNat) = max (255 - a.toNat) (255 - b.toNat) := rfl
  rw [e1, e2, ofNat_toNat' (by omega), ofNat_toNat' (by omega)]
  omega

theorem bit_ext {a b : UInt8} (h : ∀ k, bit a k = bit b k) : a = b := UInt8.toNat_inj.1 (Nat.eq_of_testBit_eq h)

theorem bit_inv (a : UInt8) (k : Nat) : bit (inv a) k = (decide (k < 8) && !bit a k) := by
  have ha := a.toNat_lt
  rw [bit, bit, inv_toNat, show 255 - a.toNat = 2 ^ 8 - (a.toNat + 1) by omega, Nat.testBit_two_pow_sub_succ (by omega)]

theorem bit_high (a : UInt8) {k : Nat} (hk : ¬ k < 8) : bit a k = false := by
  refine Nat.testBit_lt_two_pow (Nat.lt_of_lt_of_le a.toNat_lt ?_)
  exact Nat.pow_le_pow_right (by omega) (show 8 ≤ k by omega)

/-- A function of two images which puts the values of an operation into the third one -/
def Puts (op : View → View → View → Nat → Nat → M BMem Unit) (F : UInt8 → UInt8 → UInt8) : Prop :=
  ∀ {m : BMem} {a b out : View} {w h : Nat}, Ready2 m a b out w h → ∃ m', op a b out w h m = .ok () m' ∧
    WritesRoi m m' out w h fun x y c => F (a.get m x y c) (b.get m x y c)

theorem puts_bits {op : View → View → View → Nat → Nat → M BMem Unit} {F : UInt8 → UInt8 → UInt8} {B : Bool → Bool → Bool}
    (hop : ∀ {m : BMem} {a b out : View} {w h : Nat}, Ready2 m a b out w h → ∃ m' G, op a b out w h m = .ok () m' ∧ WritesRoi m m' out w h G ∧
      ∀ x y c k, bit (G x y c) k = B (bit (a.get m x y c) k) (bit (b.get m x y c) k))
    (hF : ∀ a b k, bit (F a b) k = B (bit a k) (bit b k)) : Puts op F := by
  intro m a b out w h r
  obtain ⟨m', G, e, W, hG⟩ := hop r
  exact ⟨m', e, W.size_eq, fun x y c hx hy hc => by rw [W.inside x y c hx hy hc]; exact bit_ext fun k => by rw [hG, hF], W.outside⟩

theorem puts_and : Puts BitwiseAnd (· &&& ·) := puts_bits (fun r => C10_bitwiseAnd r) fun a b k => by
  simp only [bit, UInt8.toNat_and, Nat.testBit_and]

theorem puts_or : Puts BitwiseOr (· ||| ·) := puts_bits (fun r => C10_bitwiseOr r) fun a b k => by
  simp only [bit, UInt8.toNat_or, Nat.testBit_or]

theorem puts_xor : Puts BitwiseXor (· ^^^ ·) := puts_bits (fun r => C10_bitwiseXor r) fun a b k => by
  simp only [bit, UInt8.toNat_xor, Nat.testBit_xor]

theorem inv_and (a b : UInt8) : inv (a &&& b) = inv a ||| inv b := bit_ext fun k => by
  have h1 : bit (a &&& b) k = (bit a k && bit b k) := by simp only [bit, UInt8.toNat_and, Nat.testBit_and]
  have h2 : bit (inv a ||| inv b) k = (bit (inv a) k || bit (inv b) k) := by simp only [bit, UInt8.toNat_or, Nat.testBit_or]
  rw [h2, bit_inv, bit_inv, bit_inv, h1]
  cases decide (k < 8) <;> cases bit a k <;> cases bit b k <;> rfl

theorem inv_or (a b : UInt8) : inv (a ||| b) = inv a &&& inv b := bit_ext fun k => by
  have h1 : bit (a ||| b) k = (bit a k || bit b k) := by simp only [bit, UInt8.toNat_or, Nat.testBit_or]
  have h2 : bit (inv a &&& inv b) k = (bit (inv a) k && bit (inv b) k) := by simp only [bit, UInt8.toNat_and, Nat.testBit_and]
  rw [h2, bit_inv, bit_inv, bit_inv, h1]
  cases decide (k < 8) <;> cases bit a k <;> cases bit b k <;> rfl

theorem xor_xor (a b : UInt8) : (a ^^^ b) ^^^ b = a := bit_ext fun k => by
  simp only [bit, UInt8.toNat_xor, Nat.testBit_xor, Bool.xor_assoc, Bool.xor_self, Bool.xor_false]

/-- Six images of the same kind in different blocks -/
structure Six (m : BMem) (w h cc : Nat) (a b p q s t : View) : Prop where
  za : Own m w h cc a
  zb : Own m w h cc b
  zp : Own m w h cc p
  zq : Own m w h cc q
  zs : Own m w h cc s
  zt : Own m w h cc t
  apart : [a.img.data, b.img.data, p.img.data, q.img.data, s.img.data, t.img.data].Nodup

theorem deMorgan {op op' : View → View → View → Nat → Nat → M BMem Unit} {F G : UInt8 → UInt8 → UInt8} (hF : Puts op F) (hG : Puts op' G)
    (hi : ∀ a b, inv (F a b) = G (inv a) (inv b)) {m : BMem} {w h cc : Nat} {a b p q s t : View} (z : Six m w h cc a b p q s t) :
    ∃ m1 m2 m3 m4 m5, op a b p w h m = .ok () m1 ∧ Invert p p w h m1 = .ok () m2 ∧ Invert a q w h m2 = .ok () m3 ∧ Invert b s w h m3 = .ok () m4 ∧
      op' q s t w h m4 = .ok () m5 ∧ IsEqual p t w h m5 = .ok true m5 := by
  obtain ⟨za, zb, zp, zq, zs, zt, hd⟩ := z
  simp only [List.nodup_cons, List.mem_cons, List.not_mem_nil, not_or, or_false, not_false_eq_true, List.nodup_nil, and_true] at hd
  obtain ⟨⟨ab, ap, aq, as, at'⟩, ⟨bp, bq, bs, bt⟩, ⟨pq, ps, pt⟩, ⟨qs, qt⟩, st⟩ := hd
  obtain ⟨m1, e1, w1⟩ := hF (za.ready2 zb zp ap bp)
  obtain ⟨m2, e2, w2⟩ := C13_invert (zp.after w1).here
  obtain ⟨m3, e3, w3⟩ := C13_invert (((za.after w1).after w2).ready1 ((zq.after w1).after w2) aq)
  obtain ⟨m4, e4, w4⟩ := C13_invert ((((zb.after w1).after w2).after w3).ready1 (((zs.after w1).after w2).after w3) bs)
  obtain ⟨m5, e5, w5⟩ := hG (((((zq.after w1).after w2).after w3).after w4).ready2 ((((zs.after w1).after w2).after w3).after w4)
    ((((zt.after w1).after w2).after w3).after w4) qt st)
  refine ⟨m1, m2, m3, m4, m5, e1, e2, e3, e4, e5, ?_⟩
  refine equal_of (((((zp.after w1).after w2).after w3).after w4).after w5) (((((zt.after w1).after w2).after w3).after w4).after w5)
    fun x y c hx hy hc => ?_
  have hcc : ∀ {v : View} {m : BMem}, Own m w h cc v → c < v.img.cc := fun o => by rw [o.colors]; exact hc
  rw [keeps w5 pt, keeps w4 ps, keeps w3 pq, w2.inside x y c hx hy (hcc zp), w1.inside x y c hx hy (hcc zp), w5.inside x y c hx hy (hcc zt),
    keeps w4 qs, w3.inside x y c hx hy (hcc zq), w4.inside x y c hx hy (hcc zs), keeps w3 bq, keeps w2 ap, keeps w2 bp, keeps w1 ap, keeps w1 bp]
  exact hi _ _

end PV.Laws

namespace PV.Props
open PV.Laws

/-- C181: Histogram and Sum of a mirrored image are those of the image. -/
theorem C181_flip {m : BMem} {inp out : View} {w h : Nat} (hor ver : Bool) (p : Pair m inp w h out w h) (ci : inp.img.cc = 1) (co : out.img.cc = 1)
    (vec vec' : List UInt32) :
    ∃ m' hist s, Flip inp out w h hor ver m = .ok () m' ∧ Histogram inp w h (m, vec) = .ok () (m, hist) ∧ Histogram out w h (m', vec') = .ok () (m', hist) ∧
      Sum inp w h m = .ok s m ∧ Sum out w h m' = .ok s m' := by
  obtain ⟨m', e, W⟩ := C18_flip hor ver p ci co
  have hm : ∀ p ∈ grid h w, (mirror ver h p.1, mirror hor w p.2) ∈ grid h w := fun p hp =>
    mem_grid.2 ⟨mirror_lt (mem_grid.1 hp).1, mirror_lt (mem_grid.1 hp).2⟩
  have hmm : ∀ p ∈ grid h w, (mirror ver h (mirror ver h p.1), mirror hor w (mirror hor w p.2)) = p := fun p hp => by
    rw [mirror_mirror (mem_grid.1 hp).1, mirror_mirror (mem_grid.1 hp).2]
  have hp := pixels_moved (f := fun p => (mirror ver h p.1, mirror hor w p.2)) (g := fun p => (mirror ver h p.1, mirror hor w p.2)) co W hm hm hmm hmm
  obtain ⟨hist, s, h1, h2, h3, h4⟩ := sameNumbers ⟨p.wfi, p.fiti⟩ ⟨Image.WF.of_size p.wfo W.size_eq, p.fito⟩ ci co hp vec vec'
  exact ⟨m', hist, s, e, h1, h2, h3, h4⟩

/-- C181: so are those of a transposed image, and the profiles of its rows are those of the columns of the image and vice versa. -/
theorem C181_transpose {m : BMem} {inp out : View} {w h : Nat} (p : Pair m inp w h out h w) (ci : inp.img.cc = 1) (co : out.img.cc = 1)
    (vec vec' : List UInt32) :
    ∃ m' hist s rows columns, Transpose inp out w h m = .ok () m' ∧
      Histogram inp w h (m, vec) = .ok () (m, hist) ∧ Histogram out h w (m', vec') = .ok () (m', hist) ∧
      Sum inp w h m = .ok s m ∧ Sum out h w m' = .ok s m' ∧
      ProjectionProfile inp w h false (m, vec) = .ok () (m, rows) ∧ ProjectionProfile out h w true (m', vec') = .ok () (m', rows) ∧
      ProjectionProfile inp w h true (m, vec) = .ok () (m, columns) ∧ ProjectionProfile out h w false (m', vec') = .ok () (m', columns) := by
  obtain ⟨m', e, W⟩ := C19_transpose p ci co
  have oi : One m inp w h := ⟨p.wfi, p.fiti⟩
  have oo : One m' out h w := ⟨Image.WF.of_size p.wfo W.size_eq, p.fito⟩
  have hm : ∀ {h w : Nat}, ∀ p ∈ grid h w, (p.2, p.1) ∈ grid w h := fun p hp => mem_grid.2 ⟨(mem_grid.1 hp).2, (mem_grid.1 hp).1⟩
  have hp := pixels_moved (f := fun p => (p.2, p.1)) (g := fun p => (p.2, p.1)) co W hm hm (fun _ _ => rfl) (fun _ _ => rfl)
  obtain ⟨hist, s, h1, h2, h3, h4⟩ := sameNumbers oi oo ci co hp vec vec'
  obtain ⟨r, h5, l5, v5⟩ := C26_projection_vertical oi vec
  obtain ⟨c, h6, l6, v6⟩ := C26_projection_horizontal oi vec
  obtain ⟨c', h7, l7, v7⟩ := C26_projection_vertical oo vec'
  obtain ⟨r', h8, l8, v8⟩ := C26_projection_horizontal oo vec'
  rw [ci, Nat.mul_one] at l6 v6 v5
  rw [co, Nat.mul_one] at l8 v8 v7
  have byte : ∀ x y, x < w → y < h → rowByte m' out x y = rowByte m inp y x := by
    intro x y hx hy
    rw [rowByte, rowByte, ci, co, Nat.div_one, Nat.mod_one, Nat.div_one, Nat.mod_one]
    exact W.inside y x 0 hy hx (by omega)
  have er : r' = r := by
    refine List.ext_getElem? fun y => ?_
    by_cases hy : y < h
    · rw [v5 y hy, v8 y hy, columnSum, rowSum]
      refine congrArg (fun l : List Nat => some (UInt32.ofNat l.sum)) (List.map_congr_left fun x hx => ?_)
      rw [byte x y (List.mem_range.1 hx) hy]
    · rw [List.getElem?_eq_none (by omega), List.getElem?_eq_none (by omega)]
  have ec : c' = c := by
    refine List.ext_getElem? fun x => ?_
    by_cases hx : x < w
    · rw [v6 x hx, v7 x hx, columnSum, rowSum]
      refine congrArg (fun l : List Nat => some (UInt32.ofNat l.sum)) (List.map_congr_left fun y hy => ?_)
      rw [byte x y hx (List.mem_range.1 hy)]
    · rw [List.getElem?_eq_none (by omega), List.getElem?_eq_none (by omega)]
  rw [er] at h8
  rw [ec] at h7
  exact ⟨m', hist, s, r, c, e, h1, h2, h3, h4, h5, h8, h6, h7⟩

/-- C181: inverting an image turns its histogram around. -/
theorem C181_invert {m : BMem} {inp out : View} {w h : Nat} (r : Ready1 m inp out w h) (ci : inp.img.cc = 1) (vec vec' : List UInt32) :
    ∃ m' hist, Invert inp out w h m = .ok () m' ∧ Histogram inp w h (m, vec) = .ok () (m, hist) ∧ Histogram out w h (m', vec') = .ok () (m', hist.reverse) := by
  obtain ⟨m', e, W⟩ := C13_invert r
  have co : out.img.cc = 1 := by rw [r.co, ci]
  have hp := pixels_mapped (f := fun a => UInt8.ofNat (255 - a.toNat)) co W
  obtain ⟨h1, _⟩ := numbers (m := m) ⟨r.wfi, r.fiti⟩ ci vec
  obtain ⟨h2, _⟩ := numbers (m := m') ⟨Image.WF.of_size r.wfo W.size_eq, r.fito⟩ co vec'
  refine ⟨m', _, e, h1, ?_⟩
  rw [h2, hp]
  refine congrArg (fun l => Res.ok () (m', l)) (List.ext_getElem (by simp) fun k hk _ => ?_)
  have hk' : k < 256 := by simpa using hk
  rw [List.getElem_reverse, List.getElem_map, List.getElem_map, List.getElem_range, List.getElem_range, count_map (inv_iff k hk')]
  simp

/-- C181: Threshold makes as many white pixels as the histogram has for the values from the threshold on, and no value other than black and white. -/
theorem C181_threshold {m : BMem} {inp out : View} {w h : Nat} (t : UInt8) (r : Ready1 m inp out w h) (ci : inp.img.cc = 1) (vec vec' : List UInt32) :
    ∃ m' hist hist', Threshold inp out w h t m = .ok () m' ∧ Histogram inp w h (m, vec) = .ok () (m, hist) ∧
      Histogram out w h (m', vec') = .ok () (m', hist') ∧
      (hist'.map UInt32.toNat)[255]? = some ((hist.map UInt32.toNat).drop t.toNat).sum ∧
      (hist'.map UInt32.toNat)[0]? = some ((hist.map UInt32.toNat).take t.toNat).sum ∧
      ∀ k, 0 < k → k < 255 → hist'[k]? = some 0 := by
  obtain ⟨m', e, W⟩ := C14_threshold t r ci
  have co : out.img.cc = 1 := by rw [r.co, ci]
  have hp := pixels_mapped (f := fun a => if t.toNat ≤ a.toNat then 255 else 0) co W
  have oi : One m inp w h := ⟨r.wfi, r.fiti⟩
  have oo : One m' out w h := ⟨Image.WF.of_size r.wfo W.size_eq, r.fito⟩
  obtain ⟨h1, _⟩ := numbers oi ci vec
  obtain ⟨h2, _⟩ := numbers oo co vec'
  have ht := t.toNat_lt
  refine ⟨m', _, _, e, h1, h2, ?_, ?_, ?_⟩
  · rw [counts_toNat oi, counts_toNat oo, List.getElem?_map, List.getElem?_range (by omega), Option.map_some, hp,
      count_two (p := fun n => decide (t.toNat ≤ n)), ← sum_counts fun n => decide (t.toNat ≤ n)]
    · refine congrArg (fun l : List Nat => some l.sum) ?_
      rw [← List.map_drop]
      exact congrArg _ (from_range (by omega))
    · intro x
      by_cases hx : t.toNat ≤ x.toNat <;> simp [hx]
  · rw [counts_toNat oi, counts_toNat oo, List.getElem?_map, List.getElem?_range (by omega), Option.map_some, hp,
      count_two (p := fun n => decide (n < t.toNat)), ← sum_counts fun n => decide (n < t.toNat)]
    · refine congrArg (fun l : List Nat => some l.sum) ?_
      rw [← List.map_take]
      exact congrArg _ (upto_range (by omega))
    · intro x
      by_cases hx : t.toNat ≤ x.toNat
      · simp [hx]
      · simp [hx]
        omega
  · intro k h0 h255
    rw [List.getElem?_map, List.getElem?_range (by omega), Option.map_some, hp]
    have : ((pixels m inp w h).map fun a => if t.toNat ≤ a.toNat then (255 : UInt8) else 0).count (UInt8.ofNat k) = 0 := by
      rw [List.count_eq_zero]
      intro hm
      obtain ⟨a, _, ha⟩ := List.mem_map.1 hm
      have := congrArg UInt8.toNat ha
      rw [ofNat_toNat' (by omega)] at this
      by_cases hx : t.toNat ≤ a.toNat
      · rw [if_pos hx] at this
        exact absurd this (by show 255 ≠ k; omega)
      · rw [if_neg hx] at this
        exact absurd this (by show 0 ≠ k; omega)
    rw [this]
    rfl

/-- C181: the absolute difference of equal images has the sum 0; images of up to 2^32 / 255 pixels are equal whenever the sum is 0. -/
theorem C181_difference_partial {m : BMem} {in1 in2 out : View} {w h : Nat} (r : Ready2 m in1 in2 out w h) (ci : in1.img.cc = 1) :
    ∃ m' q s, IsEqual in1 in2 w h m = .ok q m ∧ AbsoluteDifference in1 in2 out w h m = .ok () m' ∧ Sum out w h m' = .ok s m' ∧
      (q = true → s = 0) ∧ (255 * (w * h) < 2 ^ 32 → s = 0 → q = true) := by
  obtain ⟨q, e1, hq⟩ := C28_isEqual (m := m) (w := w) (h := h) ⟨r.wf1, r.fit1⟩ ⟨r.wf2, r.fit2⟩ r.c2
  obtain ⟨m', e2, W⟩ := C09_absoluteDifference r
  have co : out.img.cc = 1 := by rw [r.co, ci]
  have oo : One m' out w h := ⟨Image.WF.of_size r.wfo W.size_eq, r.fito⟩
  obtain ⟨s, e3, hs⟩ := C25_sum oo co
  have hz : total m' out w h = 0 ↔ q = true := by
    rw [hq, total, sum_zero]
    constructor
    · intro hall x y c hx hy hc
      rw [ci] at hc
      rw [show c = 0 by omega]
      have := hall (out.get m' x y 0).toNat (List.mem_map.2 ⟨_, mem_pixels.2 ⟨x, y, hx, hy, rfl⟩, rfl⟩)
      rw [W.inside x y 0 hx hy (by omega)] at this
      exact (absDiff_zero _ _).1 this
    · intro hall n hn
      obtain ⟨b, hb, rfl⟩ := List.mem_map.1 hn
      obtain ⟨x, y, hx, hy, rfl⟩ := mem_pixels.1 hb
      rw [W.inside x y 0 hx hy (by omega)]
      exact (absDiff_zero _ _).2 (hall x y 0 hx hy (by omega))
  refine ⟨m', q, s, e1, e2, e3, fun hq' => ?_, fun hsmall h0 => ?_⟩
  · apply UInt32.toNat_inj.1
    rw [hs, hz.2 hq']
    rfl
  · rw [← hz]
    rw [h0, Nat.mod_eq_of_lt (Nat.lt_of_le_of_lt total_le hsmall)] at hs
    exact hs.symm

/-- C181: the difference of maximum and minimum is the absolute difference.

    Partial: `Subtract` has to read rows of the right length, see C12. -/
theorem C181_max_min_partial {m : BMem} {w h cc : Nat} {a b p q s t : View} (z : Six m w h cc a b p q s t) (hg : SubtractGuard p q s w h) :
    ∃ m1 m2 m3 m4, Maximum a b p w h m = .ok () m1 ∧ Minimum a b q w h m1 = .ok () m2 ∧ Subtract p q s w h m2 = .ok () m3 ∧
      AbsoluteDifference a b t w h m3 = .ok () m4 ∧ IsEqual s t w h m4 = .ok true m4 := by
  obtain ⟨za, zb, zp, zq, zs, zt, hd⟩ := z
  simp only [List.nodup_cons, List.mem_cons, List.not_mem_nil, not_or, or_false, not_false_eq_true, List.nodup_nil, and_true] at hd
  obtain ⟨⟨ab, ap, aq, as, at'⟩, ⟨bp, bq, bs, bt⟩, ⟨pq, ps, pt⟩, ⟨qs, qt⟩, st⟩ := hd
  obtain ⟨m1, e1, w1⟩ := C11_maximum (za.ready2 zb zp ap bp)
  obtain ⟨m2, e2, w2⟩ := C11_minimum ((za.after w1).ready2 (zb.after w1) (zq.after w1) aq bq)
  obtain ⟨m3, e3, w3⟩ := C12_subtract_partial (((zp.after w1).after w2).ready2 ((zq.after w1).after w2) ((zs.after w1).after w2) ps qs) hg
  obtain ⟨m4, e4, w4⟩ := C09_absoluteDifference ((((za.after w1).after w2).after w3).ready2 (((zb.after w1).after w2).after w3)
    (((zt.after w1).after w2).after w3) at' bt)
  refine ⟨m1, m2, m3, m4, e1, e2, e3, e4, ?_⟩
  refine equal_of ((((zs.after w1).after w2).after w3).after w4) ((((zt.after w1).after w2).after w3).after w4) fun x y c hx hy hc => ?_
  have hcc : ∀ {v : View} {m : BMem}, Own m w h cc v → c < v.img.cc := fun o => by rw [o.colors]; exact hc
  rw [keeps w4 st, w3.inside x y c hx hy (hcc zs), w4.inside x y c hx hy (hcc zt), keeps w2 pq, w1.inside x y c hx hy (hcc zp),
    w2.inside x y c hx hy (hcc zq), keeps w3 as, keeps w3 bs, keeps w2 aq, keeps w2 bq, keeps w1 ap, keeps w1 bp]
  exact max_min _ _

/-- C181: inverting exchanges Maximum and Minimum, BitwiseAnd and BitwiseOr. -/
theorem C181_deMorgan {m : BMem} {w h cc : Nat} {a b p q s t : View} (z : Six m w h cc a b p q s t)
    {op op' : View → View → View → Nat → Nat → M BMem Unit}
    (hop : (op, op') = (Maximum, Minimum) ∨ (op, op') = (Minimum, Maximum) ∨ (op, op') = (BitwiseAnd, BitwiseOr) ∨ (op, op') = (BitwiseOr, BitwiseAnd)) :
    ∃ m1 m2 m3 m4 m5, op a b p w h m = .ok () m1 ∧ Invert p p w h m1 = .ok () m2 ∧ Invert a q w h m2 = .ok () m3 ∧ Invert b s w h m3 = .ok () m4 ∧
      op' q s t w h m4 = .ok () m5 ∧ IsEqual p t w h m5 = .ok true m5 := by
  rcases hop with hop | hop | hop | hop <;> obtain ⟨rfl, rfl⟩ := Prod.mk.inj hop
  · exact deMorgan (fun r => C11_maximum r) (fun r => C11_minimum r) inv_max z
  · exact deMorgan (fun r => C11_minimum r) (fun r => C11_maximum r) inv_min z
  · exact deMorgan puts_and puts_or inv_and z
  · exact deMorgan puts_or puts_and inv_or z

/-- C181: BitwiseXor with the same image twice gives the first image. -/
theorem C181_xor {m : BMem} {w h cc : Nat} {a b p q s t : View} (z : Six m w h cc a b p q s t) :
    ∃ m1 m2, BitwiseXor a b p w h m = .ok () m1 ∧ BitwiseXor p b q w h m1 = .ok () m2 ∧ IsEqual a q w h m2 = .ok true m2 := by
  obtain ⟨za, zb, zp, zq, zs, zt, hd⟩ := z
  simp only [List.nodup_cons, List.mem_cons, List.not_mem_nil, not_or, or_false, not_false_eq_true, List.nodup_nil, and_true] at hd
  obtain ⟨⟨ab, ap, aq, as, at'⟩, ⟨bp, bq, bs, bt⟩, ⟨pq, ps, pt⟩, ⟨qs, qt⟩, st⟩ := hd
  obtain ⟨m1, e1, w1⟩ := puts_xor (za.ready2 zb zp ap bp)
  obtain ⟨m2, e2, w2⟩ := puts_xor ((zp.after w1).ready2 (zb.after w1) (zq.after w1) pq bq)
  refine ⟨m1, m2, e1, e2, equal_of ((za.after w1).after w2) ((zq.after w1).after w2) fun x y c hx hy hc => ?_⟩
  have hcc : ∀ {v : View} {m : BMem}, Own m w h cc v → c < v.img.cc := fun o => by rw [o.colors]; exact hc
  rw [keeps w2 aq, keeps w1 ap, w2.inside x y c hx hy (hcc zq), w1.inside x y c hx hy (hcc zp), keeps w1 bp]
  exact (xor_xor _ _).symm

/-! ### Concrete cases -/

/-- An image with one row of 16843010 pixels: the first has the value 1, all others 255; another one of zeros; room for the difference. -/
def manyMem : BMem := ⟨fun _ => 16843010, fun b i => if b = 1 then if i = 0 then 1 else 255 else 0⟩
def manyView (b : Nat) : View := ⟨⟨b, 16843010, 1, 1, 16843010⟩, 0, 0⟩

theorem many_one (b : Nat) (hb : b ≠ 0) : One manyMem (manyView b) 16843010 1 :=
  ⟨⟨by simp [manyView], by simp [manyView, manyMem], by simp [manyView]⟩,
    ⟨by simpa [manyView] using hb, by simp [manyView], by decide, by decide, by simp [manyView], by simp [manyView]⟩⟩

theorem many_sum : ∀ n, ((List.range (n + 1)).map fun i => if i = 0 then 1 else 255).sum = 1 + 255 * n
  | 0 => rfl
  | n + 1 => by
    rw [List.range_succ, List.map_append, List.sum_append, many_sum n, List.map_singleton, List.sum_singleton, if_neg (by omega)]
    omega

/-- Beyond 2^32 / 255 pixels the sum of the absolute difference may be 0 for different images: it is reduced modulo 2^32. -/
theorem C181_difference_wrong : ∃ m', IsEqual (manyView 1) (manyView 2) 16843010 1 manyMem = .ok false manyMem ∧
    AbsoluteDifference (manyView 1) (manyView 2) (manyView 3) 16843010 1 manyMem = .ok () m' ∧ Sum (manyView 3) 16843010 1 m' = .ok 0 m' := by
  have o1 := many_one 1 (by decide)
  have o2 := many_one 2 (by decide)
  have o3 := many_one 3 (by decide)
  have r : Ready2 manyMem (manyView 1) (manyView 2) (manyView 3) 16843010 1 :=
    ⟨o1.wf, o2.wf, o3.wf, o1.fit, o2.fit, o3.fit, rfl, rfl, noClash_of_ne _ _ (by decide), noClash_of_ne _ _ (by decide)⟩
  obtain ⟨q, e1, hq⟩ := C28_isEqual o1 o2 rfl
  obtain ⟨m', e2, W⟩ := C09_absoluteDifference r
  obtain ⟨s, e3, hs⟩ := C25_sum (m := m') (v := manyView 3) ⟨Image.WF.of_size o3.wf W.size_eq, o3.fit⟩ rfl
  have hf : q = false := by
    cases q
    · rfl
    · exact absurd (hq.1 rfl 0 0 0 (by decide) (by decide) (by decide)) (by decide)
  have ht : total m' (manyView 3) 16843010 1 = 1 + 255 * 16843009 := by
    rw [← many_sum, total, pixels, List.map_map, grid, List.range_one, List.flatMap_singleton, List.map_map]
    refine congrArg List.sum (List.map_congr_left fun i hi => ?_)
    have hi' := List.mem_range.1 hi
    show ((manyView 3).get m' i 0 0).toNat = _
    rw [W.inside i 0 0 hi' (by decide) (by decide)]
    have g1 : (manyView 1).get manyMem i 0 0 = if i = 0 then 1 else 255 := by
      simp [View.get, View.cell, manyView, manyMem]
    have g2 : (manyView 2).get manyMem i 0 0 = 0 := by
      simp [View.get, View.cell, manyView, manyMem]
    rw [g1, g2]
    by_cases h0 : i = 0
    · rw [if_pos h0, if_pos h0]
      decide
    · rw [if_neg h0, if_neg h0]
      decide
  refine ⟨m', by rw [e1, hf], e2, ?_⟩
  have : s = 0 := by
    apply UInt32.toNat_inj.1
    rw [hs, ht]
    rfl
  rw [e3, this]

/-- Six images of 2 x 2 pixels -/
theorem six_ex : Six exMem 2 2 1 ⟨tight 1, 0, 0⟩ ⟨padded 2, 0, 0⟩ ⟨tight 3, 0, 0⟩ ⟨tight 4, 0, 0⟩ ⟨padded 5, 0, 0⟩ ⟨tight 6, 0, 0⟩ :=
  ⟨⟨wf_tight 1 (by decide), fits_tight 1 (by decide), rfl⟩, ⟨wf_padded 2 (by decide), fits_padded 2 (by decide), rfl⟩,
    ⟨wf_tight 3 (by decide), fits_tight 3 (by decide), rfl⟩, ⟨wf_tight 4 (by decide), fits_tight 4 (by decide), rfl⟩,
    ⟨wf_padded 5 (by decide), fits_padded 5 (by decide), rfl⟩, ⟨wf_tight 6 (by decide), fits_tight 6 (by decide), rfl⟩, by decide⟩

example := C181_max_min_partial six_ex (Or.inl rfl)
example := C181_deMorgan six_ex (Or.inr (Or.inr (Or.inl rfl)))
example := C181_xor six_ex
example := C181_flip true false pair_ex rfl rfl [] [7]
example := C181_transpose pair_ex rfl rfl [] []
example := C181_invert (six_ex.za.ready1 six_ex.zb (by decide)) rfl [] []
example := C181_threshold 12 (six_ex.za.ready1 six_ex.zb (by decide)) rfl [] []
example := C181_difference_partial (six_ex.za.ready2 six_ex.zb six_ex.zs (by decide) (by decide)) rfl

end PV.Props
