import Verif.Light
import Verif.FilterLemmas
import Verif.PropsReduce
/-
  C64: LightCorrection gives all pixels of the analysed image the same value.
  C81: findIncorrectPixels returns the positions of the pixels 0 and 255.
-/
namespace PV.Props
open PV PV.Light

/-- A gray-scale image that owns its pixels. -/
structure LightImage (m : BMem) (img : Image) : Prop where
  wf : img.WF m
  data : img.data ≠ 0
  gray : img.cc = 1
  wpos : 0 < img.width
  hpos : 0 < img.height

/-- The pixel at (x, y) -/
def pixelOf (m : BMem) (img : Image) (x y : Nat) : UInt8 := m.byte img.data (y * img.rowSize + x)

/-- The value occurs in the image and is neither 0 nor 255. -/
def Level (m : BMem) (img : Image) (a : UInt8) : Prop :=
  a ≠ 0 ∧ a ≠ 255 ∧ ∃ x y, x < img.width ∧ y < img.height ∧ pixelOf m img x y = a

/-- Two different such values. -/
def TwoLevels (m : BMem) (img : Image) : Prop := ∃ a b, Level m img a ∧ Level m img b ∧ a ≠ b

/-- `hi` is the greatest such value. -/
def TopLevel (m : BMem) (img : Image) (hi : UInt8) : Prop := Level m img hi ∧ ∀ a, Level m img a → a ≤ hi

theorem LightImage.fits {m : BMem} {img : Image} (h : LightImage m img) : (⟨img, 0, 0⟩ : View).Fits img.width img.height :=
  ⟨h.data, Or.inl h.gray, h.wpos, h.hpos, by simp, by simp⟩

theorem validateImage_run' {μ : Type} {m : BMem} {img : Image} (h : LightImage m img) (s : μ) : validateImage img s = .ok () s := by
  have e : (img.empty || !isCorrectColorCount img) = false := by
    simp [Image.empty, isCorrectColorCount, h.gray, h.data]
  rw [validateImage, e]
  rfl

theorem fold_prefix {μ ι A : Type} {body : ι → A → M μ A} {m : μ} {P : List ι → A → Prop} {all : List ι}
    (hs : ∀ pre p post a, pre ++ p :: post = all → P pre a → ∃ a', body p a m = .ok a' m ∧ P (pre ++ [p]) a') :
    ∀ (L pre : List ι) (a : A), pre ++ L = all → P pre a → ∃ a', fold body L a m = .ok a' m ∧ P all a' := by
  intro L
  induction L with
  | nil =>
    intro pre a he hp
    rw [List.append_nil] at he
    subst he
    exact ⟨a, rfl, hp⟩
  | cons p L ih =>
    intro pre a he hp
    obtain ⟨a1, h1, h2⟩ := hs pre p L a he hp
    obtain ⟨a2, h3, h4⟩ := ih (pre ++ [p]) a1 (by rw [List.append_assoc]; exact he) h2
    exact ⟨a2, by rw [fold_cons, bind_ok h1]; exact h3, h4⟩

theorem onPix_ok {α : Type} {x : M BMem α} {m m' : BMem} {o : Obj} {a : α} (h : x m = .ok a m') : onPix x (m, o) = .ok a (m', o) := by
  rw [onPix, h]

theorem LightImage.read {m : BMem} {img : Image} (h : LightImage m img) {m' : BMem} (hs : m'.size = m.size) {x y : Nat} (hx : x < img.width) (hy : y < img.height) :
    readC img.data (y * img.rowSize + x) m' = .ok (pixelOf m' img x y) m' := by
  have := readC_get (m' := m') h.wf h.fits hs hx hy (c := 0) (by show 0 < img.cc; rw [h.gray]; exact Nat.one_pos)
  simpa [View.cell, View.get, pixelOf, h.gray] using this

/-- What is known of minimum and maximum when the pixels of `L` have been looked at. -/
def MinMaxOf (f : Nat × Nat → UInt8) (L : List (Nat × Nat)) (s : UInt8 × UInt8) : Prop :=
  (∀ p ∈ L, f p ≠ 0 → s.1 ≤ f p) ∧ (∀ p ∈ L, f p ≠ 255 → f p ≤ s.2) ∧
  (s.1 = 255 ∨ s.1 ≠ 0 ∧ ∃ p ∈ L, f p = s.1) ∧ (s.2 = 0 ∨ s.2 ≠ 255 ∧ ∃ p ∈ L, f p = s.2)

theorem minMaxOf_step {f : Nat × Nat → UInt8} {L : List (Nat × Nat)} {s : UInt8 × UInt8} (h : MinMaxOf f L s) (p : Nat × Nat) :
    MinMaxOf f (L ++ [p]) (if f p < s.1 ∧ f p > 0 then f p else s.1, if f p > s.2 ∧ f p < 255 then f p else s.2) := by
  obtain ⟨h1, h2, h3, h4⟩ := h
  have old : ∀ q : UInt8, (∃ r ∈ L, f r = q) → ∃ r ∈ L ++ [p], f r = q := fun q ⟨r, a, b⟩ => ⟨r, List.mem_append_left _ a, b⟩
  have new : ∃ r ∈ L ++ [p], f r = f p := ⟨p, by simp, rfl⟩
  simp only [UInt8.lt_iff_toNat_lt, UInt8.le_iff_toNat_le, gt_iff_lt, ne_eq, ← UInt8.toNat_inj, MinMaxOf] at *
  have e0 : (0 : UInt8).toNat = 0 := rfl
  have e1 : (255 : UInt8).toNat = 255 := rfl
  rw [e0, e1] at *
  have hlt : (f p).toNat < 256 := UInt8.toNat_lt _
  refine ⟨fun q hq hq0 => ?_, fun q hq hq0 => ?_, ?_, ?_⟩
  · rw [List.mem_append, List.mem_singleton] at hq
    split
    · rename_i hc
      rcases hq with hq | rfl
      · have := h1 q hq hq0
        omega
      · omega
    · rename_i hc
      rcases hq with hq | rfl
      · exact h1 q hq hq0
      · omega
  · rw [List.mem_append, List.mem_singleton] at hq
    split
    · rename_i hc
      rcases hq with hq | rfl
      · have := h2 q hq hq0
        omega
      · omega
    · rename_i hc
      rcases hq with hq | rfl
      · exact h2 q hq hq0
      · omega
  · split
    · rename_i hc
      exact Or.inr ⟨by omega, p, by simp, rfl⟩
    · rcases h3 with h3 | ⟨h3, r, hr, h5⟩
      · exact Or.inl h3
      · exact Or.inr ⟨h3, r, List.mem_append_left _ hr, h5⟩
  · split
    · rename_i hc
      exact Or.inr ⟨by omega, p, by simp, rfl⟩
    · rcases h4 with h4 | ⟨h4, r, hr, h5⟩
      · exact Or.inl h4
      · exact Or.inr ⟨h4, r, List.mem_append_left _ hr, h5⟩

theorem analyzeMinMax_ok {m : BMem} {img : Image} (h : LightImage m img) (o : Obj) :
    ∃ s, analyzeMinMax img (m, o) = .ok s (m, o) ∧ MinMaxOf (fun p => pixelOf m img p.2 p.1) (grid img.height img.width) s := by
  obtain ⟨hcc, hr, _, hw, _, hfit, _, _, hwcc, _⟩ := View.facts (v := ⟨img, 0, 0⟩) h.wf h.fits
  have e := rowLoop1_eq (μ := LMem) (A := UInt8 × UInt8) (row := img.rowSize) (step := 1)
    (body := fun imageX s => do
      let a ← onPix (readC img.data imageX)
      pure (if a < s.1 ∧ a > 0 then a else s.1, if a > s.2 ∧ a < 255 then a else s.2))
    (pY := 0) (n := img.width) (height := img.height) (255, 0) hr (by decide) hfit (by rw [Nat.mul_one]; exact hw)
  rw [Nat.mul_one] at e
  rw [analyzeMinMax, e]
  refine fold_prefix (P := fun L s => MinMaxOf (fun p => pixelOf m img p.2 p.1) L s) ?_ _ [] _ rfl
    ⟨fun _ h => absurd h (by simp), fun _ h => absurd h (by simp), Or.inl rfl, Or.inl rfl⟩
  intro pre p post a hall hp
  have hmem : p ∈ grid img.height img.width := by
    rw [← hall]
    simp
  obtain ⟨h1, h2⟩ := mem_grid.1 hmem
  refine ⟨_, ?_, minMaxOf_step hp p⟩
  rw [Nat.zero_add, Nat.mul_one]
  exact bind_ok (onPix_ok (h.read rfl h2 h1))

/-- The value in the table. -/
def tableOf (mn mx a : UInt8) : Nat :=
  if a > mx ∨ a < mn then 4194304 else a.toNat * 4194304 / mx.toNat + 1

theorem floor_quotient {rnd : ℚ → ℚ} (R : Rounding rnd) {a k : Nat} (ha : a ≤ k) (hk : 0 < k) (hk2 : k < 256) :
    ⌊rnd (rnd ((a : ℚ) * 4194304) / k)⌋ = ((a * 4194304 / k : Nat) : Int) := by
  have e1 : rnd ((a : ℚ) * 4194304) = (a : ℚ) * 4194304 := by
    have := R.int ((a * 4194304 : Nat) : Int) (by
      rw [abs_of_nonneg (by omega)]
      have : (a * 4194304 : Nat) < 2 ^ 53 := by omega
      exact_mod_cast this)
    push_cast at this
    exact this
  rw [e1]
  have hkq : (0 : ℚ) < k := by exact_mod_cast hk
  have hdm : k * (a * 4194304 / k) + a * 4194304 % k = a * 4194304 := Nat.div_add_mod _ _
  have hml : a * 4194304 % k < k := Nat.mod_lt _ hk
  obtain ⟨q, hq⟩ : ∃ q, a * 4194304 / k = q := ⟨_, rfl⟩
  obtain ⟨r, hr⟩ : ∃ r, a * 4194304 % k = r := ⟨_, rfl⟩
  rw [hq, hr] at hdm
  rw [hr] at hml
  rw [hq]
  have hdmq : (k : ℚ) * q + r = a * 4194304 := by exact_mod_cast hdm
  have hx : (a : ℚ) * 4194304 / k = q + r / k := by
    rw [← hdmq]
    field_simp
  rw [hx]
  have hrk : (r : ℚ) + 1 ≤ k := by exact_mod_cast hml
  have hr0 : (0 : ℚ) ≤ (r : ℚ) / k := div_nonneg (by exact_mod_cast Nat.zero_le r) hkq.le
  have hk255 : (k : ℚ) ≤ 255 := by exact_mod_cast Nat.le_of_lt_succ hk2
  have hr1 : (r : ℚ) / k ≤ 1 - 1 / 255 := by
    rw [div_le_iff₀ hkq]
    nlinarith
  have hql : q ≤ 4194304 := by
    rw [← hq]
    refine Nat.div_le_of_le_mul ?_
    exact Nat.mul_le_mul_right _ ha
  have hqlq : (q : ℚ) ≤ 4194304 := by exact_mod_cast hql
  have hq0 : (0 : ℚ) ≤ q := by exact_mod_cast Nat.zero_le q
  have hlow := R.mono ((q : Int) : ℚ) (q + r / k) (by push_cast; linarith)
  rw [R.int (q : Int) (by
    rw [abs_of_nonneg (by omega)]
    have : q < 2 ^ 53 := by omega
    exact_mod_cast this)] at hlow
  have herr := R.err (q + r / k)
  rw [abs_of_nonneg (a := (q : ℚ) + r / k) (by linarith)] at herr
  have hup := (abs_le.1 herr).2
  rw [Int.floor_eq_iff]
  refine ⟨hlow, ?_⟩
  have : ((q : ℚ) + r / k) / 2 ^ 52 ≤ 4194305 / 2 ^ 52 := by
    apply div_le_div_of_nonneg_right _ (by positivity)
    linarith
  have h2 : (4194305 : ℚ) / 2 ^ 52 < 1 / 255 := by norm_num
  push_cast
  linarith

theorem tableValue_ok {rnd : ℚ → ℚ} (R : Rounding rnd) {mn mx a : UInt8} (hmx : 0 < mx.toNat) (s : LMem) :
    tableValue rnd mn mx a s = .ok (tableOf mn mx a) s := by
  rw [tableValue, tableOf]
  by_cases h1 : a > mx
  · rw [if_pos h1, if_pos (Or.inl h1)]
    rfl
  · rw [if_neg h1]
    by_cases h2 : a < mn
    · rw [if_pos h2, if_pos (Or.inr h2)]
      rfl
    · rw [if_neg h2, if_neg (by tauto)]
      have hle : a.toNat ≤ mx.toNat := by
        rw [gt_iff_lt, UInt8.lt_iff_toNat_lt] at h1
        omega
      have hfl := floor_quotient R hle hmx (UInt8.toNat_lt mx)
      obtain ⟨q, hq⟩ : ∃ q, rnd (rnd ((a.toNat : ℚ) * 4194304) / mx.toNat) = q := ⟨_, rfl⟩
      have hql : a.toNat * 4194304 / mx.toNat ≤ 4194304 := Nat.div_le_of_le_mul (Nat.mul_le_mul_right _ hle)
      rw [hq] at hfl
      have hd : divD rnd (rnd ((a.toNat : ℚ) * 4194304)) mx.toNat s = .ok q s := by
        rw [divD, if_neg (by exact_mod_cast Nat.pos_iff_ne_zero.1 hmx), hq]
        rfl
      have ht : toUInt q s = .ok (a.toNat * 4194304 / mx.toNat) s := by
        rw [toUInt, if_pos, hfl]
        · rfl
        · have h3 := Int.floor_le q
          have h4 := Int.lt_floor_add_one q
          rw [hfl] at h3 h4
          have h5 : ((a.toNat * 4194304 / mx.toNat : Nat) : ℚ) ≤ 4194304 := by exact_mod_cast hql
          have h6 : (0 : ℚ) ≤ ((a.toNat * 4194304 / mx.toNat : Nat) : ℚ) := by exact_mod_cast Nat.zero_le _
          push_cast at h3 h4 h5 h6
          constructor
          · have h7 := Int.floor_le q
            rw [hfl] at h7
            have h8 : (0 : ℚ) ≤ (((a.toNat * 4194304 / mx.toNat : Nat) : Int) : ℚ) := by exact_mod_cast Nat.zero_le _
            linarith
          · have h7 := Int.lt_floor_add_one q
            rw [hfl] at h7
            have h8 : (((a.toNat * 4194304 / mx.toNat : Nat) : Int) : ℚ) ≤ 4194304 := by exact_mod_cast hql
            linarith
      refine (bind_ok hd).trans ((bind_ok ht).trans ?_)
      rw [u32_of_lt (by omega)]
      rfl

theorem grid_index {h w y x : Nat} (hy : y < h) (hx : x < w) :
    ∃ hi : y * w + x < (grid h w).length, (grid h w)[y * w + x] = (y, x) := by
  have hi : y * w + x < h * w := by
    have := Nat.mul_le_mul_right w (Nat.succ_le_of_lt hy)
    rw [Nat.succ_mul] at this
    omega
  have hl : (grid h w).length = h * w := length_grid h w
  refine ⟨by rw [hl]; exact hi, ?_⟩
  have hr : ((grid h w).map fun p => p.1 * w + p.2)[y * w + x]? = some (y * w + x) := by
    rw [← range_mul_eq_grid, List.getElem?_range hi]
  rw [List.getElem?_map, List.getElem?_eq_getElem (by rw [hl]; exact hi), Option.map_some] at hr
  have h1 := Option.some.inj hr
  have hm := List.getElem_mem (l := grid h w) (n := y * w + x) (by rw [hl]; exact hi)
  obtain ⟨h2, h3⟩ := mem_grid.1 hm
  obtain ⟨h4, h5⟩ := mul_add_inj h3 hx h1
  exact Prod.ext h4 h5

/-- The object after analysing the image. -/
structure Analysed (m : BMem) (img : Image) (mn mx : UInt8) (o : Obj) : Prop where
  size : o.size = some (img.width, img.height)
  len : o.data.len = img.width * img.height
  at' : ∀ x y, x < img.width → y < img.height → o.data.at' (y * img.width + x) = tableOf mn mx (pixelOf m img x y)

theorem LightImage.area {m : BMem} {img : Image} (h : LightImage m img) : img.width * img.height < 4294967296 := by
  have h1 := h.wf.row
  rw [h.gray, Nat.mul_one] at h1
  have h2 := h.wf.small
  have := Nat.mul_le_mul_right img.height h1
  omega

theorem analyze_table {rnd : ℚ → ℚ} (R : Rounding rnd) {m : BMem} {img : Image} (h : LightImage m img) {mn mx : UInt8} (hmx : 0 < mx.toNat)
    {d : Arr Nat} (hd : d.len = img.width * img.height) (o : Obj) :
    ∃ r : Nat × Arr Nat, rowLoop1 img.rowSize 1 (fun imageX (q : Nat × Arr Nat) => do
      let a ← onPix (readC img.data imageX)
      let v ← tableValue rnd mn mx a
      let d ← q.2.wr q.1 v
      pure (q.1 + 1, d)) 0 img.width img.height (0, d) (m, o) = .ok r (m, o) ∧ r.2.len = img.width * img.height ∧
      ∀ x y, x < img.width → y < img.height → r.2.at' (y * img.width + x) = tableOf mn mx (pixelOf m img x y) := by
  obtain ⟨hcc, hr, _, hw, _, hfit, _, _, hwcc, _⟩ := View.facts (v := ⟨img, 0, 0⟩) h.wf h.fits
  have e := rowLoop1_eq (μ := LMem) (A := Nat × Arr Nat) (row := img.rowSize) (step := 1)
    (body := fun imageX (q : Nat × Arr Nat) => do
      let a ← onPix (readC img.data imageX)
      let v ← tableValue rnd mn mx a
      let d ← q.2.wr q.1 v
      pure (q.1 + 1, d))
    (pY := 0) (n := img.width) (height := img.height) (0, d) hr (by decide) hfit (by rw [Nat.mul_one]; exact hw)
  rw [Nat.mul_one] at e
  rw [e]
  obtain ⟨r, h1, h2, h3, h4⟩ := fold_prefix (μ := LMem) (m := (m, o)) (A := Nat × Arr Nat) (all := grid img.height img.width)
    (body := fun p (q : Nat × Arr Nat) => do
      let a ← onPix (readC img.data (0 + p.1 * img.rowSize + p.2 * 1))
      let v ← tableValue rnd mn mx a
      let d ← q.2.wr q.1 v
      pure (q.1 + 1, d))
    (P := fun (L : List (Nat × Nat)) (r : Nat × Arr Nat) => r.1 = L.length ∧ r.2.len = img.width * img.height ∧
      ∀ i (hi : i < L.length), r.2.at' i = tableOf mn mx (pixelOf m img L[i].2 L[i].1))
    (by
      rintro pre p post ⟨k, d⟩ hall ⟨g1, g2, g3⟩
      have hmem : p ∈ grid img.height img.width := by
        rw [← hall]
        simp
      obtain ⟨h1, h2⟩ := mem_grid.1 hmem
      have hlen : pre.length < img.width * img.height := by
        have : (grid img.height img.width).length = img.height * img.width := length_grid _ _
        rw [← hall, List.length_append, List.length_cons, Nat.mul_comm] at this
        omega
      dsimp only at g1 g2 g3
      refine ⟨(k + 1, ⟨d.len, fun i => if i = k then tableOf mn mx (pixelOf m img p.2 p.1) else d.at' i⟩), ?_, ?_, g2, ?_⟩
      · rw [Nat.zero_add, Nat.mul_one]
        refine (bind_ok (onPix_ok (h.read rfl h2 h1))).trans ((bind_ok (tableValue_ok R hmx _)).trans ?_)
        exact bind_ok (Arr.wr_ok _ (by rw [g1, g2]; exact hlen) _)
      · rw [List.length_append, g1]
        rfl
      · intro i hi
        dsimp only
        rw [List.length_append, List.length_singleton] at hi
        by_cases hik : i = k
        · rw [if_pos hik]
          have : (pre ++ [p])[i]'(by rw [List.length_append, List.length_singleton]; omega) = p := by
            rw [List.getElem_append_right (by omega)]
            simp
          rw [this]
        · rw [if_neg hik, g3 i (by omega), List.getElem_append_left (by omega)])
    (grid img.height img.width) [] (0, d) rfl ⟨rfl, hd, fun i hi => absurd hi (Nat.not_lt_zero _)⟩
  refine ⟨r, h1, h3, fun x y hx hy => ?_⟩
  obtain ⟨hi, he⟩ := grid_index hy hx
  rw [h4 _ hi, he]

/-- What analyze does. -/
theorem analyze_run {rnd : ℚ → ℚ} (R : Rounding rnd) {m : BMem} {img : Image} (h : LightImage m img) (o : Obj) :
    ∃ mn mx o', MinMaxOf (fun p => pixelOf m img p.2 p.1) (grid img.height img.width) (mn, mx) ∧
      (mn ≥ mx → analyze rnd img (m, o) = .throw (m, o')) ∧
      (¬ mn ≥ mx → analyze rnd img (m, o) = .ok () (m, o') ∧ Analysed m img mn mx o') := by
  have hv : ∀ s : LMem, validateImage img s = .ok () s := fun s => validateImage_run' h s
  have hz : u32 (img.width * img.height) = img.width * img.height := u32_of_lt h.area
  obtain ⟨s, s1, s2⟩ := analyzeMinMax_ok h ⟨some (img.width, img.height), ⟨img.width * img.height, fun i => if i < o.data.len then o.data.at' i else 0⟩⟩
  by_cases hge : s.1 ≥ s.2
  · refine ⟨s.1, s.2, ⟨some (img.width, img.height), ⟨img.width * img.height, fun i => if i < o.data.len then o.data.at' i else 0⟩⟩, s2,
      fun _ => ?_, fun hn => absurd hge hn⟩
    rw [analyze, bind_ok (hv (m, o)), hz, bind_ok (show setSize _ _ _ (m, o) = _ from rfl), bind_ok s1, decide_eq_true hge]
    exact bind_throw rfl
  · have hmx : 0 < s.2.toNat := by
      rw [ge_iff_le, UInt8.le_iff_toNat_le] at hge
      omega
    obtain ⟨r, r1, r2, r3⟩ := analyze_table R h (mn := s.1) (mx := s.2) hmx
      (d := ⟨img.width * img.height, fun i => if i < o.data.len then o.data.at' i else 0⟩) rfl
      ⟨some (img.width, img.height), ⟨img.width * img.height, fun i => if i < o.data.len then o.data.at' i else 0⟩⟩
    refine ⟨s.1, s.2, ⟨some (img.width, img.height), r.2⟩, s2, fun hn => absurd hn hge, fun _ => ⟨?_, ⟨rfl, r2, r3⟩⟩⟩
    rw [analyze, bind_ok (hv (m, o)), hz, bind_ok (show setSize _ _ _ (m, o) = _ from rfl), bind_ok s1, decide_eq_false hge, throwIf_false, pure_bind']
    exact (bind_ok (show getData _ = _ from rfl)).trans (bind_ok r1)

/-! ### correct -/

theorem corrected_ok {μ : Type} {mn mx a : UInt8} (h1 : mx.toNat ≤ 254) (h2 : 1 ≤ mn.toNat) (s : μ) :
    corrected a (tableOf mn mx a) s = .ok (if a > mx ∨ a < mn then a else mx) s := by
  have ha : a.toNat < 256 := UInt8.toNat_lt a
  rw [tableOf]
  by_cases h : a > mx ∨ a < mn
  · rw [if_pos h, if_pos h, corrected, if_neg (by decide), u32_of_lt (by omega)]
    have : (a.toNat * 4194304 + 4194304 / 2) / 4194304 = a.toNat := by omega
    rw [this, if_neg (by omega), UInt8.ofNat_toNat]
    rfl
  · rw [if_neg h, if_neg h, corrected, if_neg (Nat.succ_ne_zero _)]
    rw [not_or, gt_iff_lt, UInt8.lt_iff_toNat_lt, UInt8.lt_iff_toNat_lt] at h
    obtain ⟨k, hk⟩ : ∃ k, mx.toNat = k := ⟨_, rfl⟩
    rw [hk] at h h1
    rw [hk]
    obtain ⟨q, hq⟩ : ∃ q, a.toNat * 4194304 / k = q := ⟨_, rfl⟩
    have hql : q ≤ 4194304 := by
      rw [← hq]
      exact Nat.div_le_of_le_mul (Nat.mul_le_mul_right _ (by omega))
    have hkpos : 0 < k := by omega
    have e1 : k * q ≤ a.toNat * 4194304 := by
      rw [← hq]
      exact Nat.mul_div_le _ _
    have e2 : a.toNat * 4194304 < k * q + k := by
      have := Nat.lt_mul_div_succ (a.toNat * 4194304) hkpos
      rw [hq, Nat.mul_succ] at this
      exact this
    have e3 : 16000 ≤ q := by
      rw [← hq, Nat.le_div_iff_mul_le hkpos]
      omega
    rw [hq]
    obtain ⟨A, hA⟩ : ∃ A, a.toNat * 4194304 = A := ⟨_, rfl⟩
    have hA2 : A < 1073741824 := by omega
    rw [hA] at e1 e2
    rw [hA, u32_of_lt (by omega)]
    have : (A + (q + 1) / 2) / (q + 1) = k := by
      refine Nat.div_eq_of_lt_le ?_ ?_
      · rw [Nat.mul_succ]
        omega
      · rw [Nat.mul_succ, Nat.add_mul, Nat.one_mul]
        omega
    rw [this, if_neg (by omega), ← hk, UInt8.ofNat_toNat]
    rfl

theorem fold_onPix {ι : Type} {g : ι → Unit → M BMem Unit} {body : ι → Unit → M LMem Unit} {o : Obj} (L : List ι) :
    ∀ (m m' : BMem), (∀ p ∈ L, ∀ m1 m2, g p () m1 = .ok () m2 → body p () (m1, o) = .ok () (m2, o)) →
    fold g L () m = .ok () m' → fold body L () (m, o) = .ok () (m', o) := by
  induction L with
  | nil =>
    intro m m' _ hf
    injection hf with _ hf
    rw [← hf]
    rfl
  | cons p L ih =>
    intro m m' hs hf
    rw [fold_cons] at hf
    obtain ⟨_, m1, h1, h2⟩ := bind_eq_ok.1 hf
    rw [fold_cons, bind_ok (hs p (List.mem_cons_self ..) m m1 h1)]
    exact ih m1 m' (fun q hq => hs q (List.mem_cons_of_mem _ hq)) h2

theorem correct_run {m : BMem} {img : Image} (hi : LightImage m img) {mn mx : UInt8} {o : Obj} (h1 : mx.toNat ≤ 254) (h2 : 1 ≤ mn.toNat)
    (ha : Analysed m img mn mx o) {x0 y0 w h : Nat} (fit : (⟨img, x0, y0⟩ : View).Fits w h) :
    ∃ m', correct ⟨img, x0, y0⟩ w h (m, o) = .ok () (m', o) ∧
      WritesRoi m m' ⟨img, x0, y0⟩ w h fun x y _ =>
        if pixelOf m img (x0 + x) (y0 + y) > mx ∨ pixelOf m img (x0 + x) (y0 + y) < mn then pixelOf m img (x0 + x) (y0 + y) else mx := by
  have wf : (⟨img, x0, y0⟩ : View).img.WF m := hi.wf
  obtain ⟨hcc, hr, _, hw, hh, hfit, _, _, hwcc, _⟩ := View.facts (v := ⟨img, x0, y0⟩) wf fit
  have hgray := hi.gray
  have hx := fit.inX
  have hy := fit.inY
  dsimp only at hx hy hcc hr hw hh hwcc
  have hcell : ∀ x y, (⟨img, x0, y0⟩ : View).cell x y 0 = (y0 + y) * img.rowSize + (x0 + x) := by
    intro x y
    rw [View.cell]
    dsimp only
    rw [hgray]
    omega
  obtain ⟨m', g1, g2⟩ := gray_writes (vo := ⟨img, x0, y0⟩) (w := w) (h := h) wf fit hgray
    (body := fun p _ => do
      let a ← readC img.data ((⟨img, x0, y0⟩ : View).cell p.2 p.1 0)
      let e ← o.data.rd ((y0 + p.1) * img.width + (x0 + p.2))
      let b ← corrected a e
      writeC img.data ((⟨img, x0, y0⟩ : View).cell p.2 p.1 0) b)
    (val := fun x y => if pixelOf m img (x0 + x) (y0 + y) > mx ∨ pixelOf m img (x0 + x) (y0 + y) < mn then pixelOf m img (x0 + x) (y0 + y) else mx)
    (by
      intro x y hx' hy' m1 hoth
      have hg : (⟨img, x0, y0⟩ : View).get m1 x y 0 = pixelOf m img (x0 + x) (y0 + y) := by
        rw [hoth.get_noClash (noClash_self wf.row fit.inX) hx' hy' hcc, View.get, hcell]
        rfl
      have hidx : (y0 + y) * img.width + (x0 + x) < o.data.len := by
        rw [ha.len]
        have := Nat.mul_le_mul_right img.width (show y0 + y + 1 ≤ img.height by omega)
        rw [Nat.add_mul, Nat.mul_comm img.height] at this
        omega
      refine (bind_ok (readC_get wf fit hoth.size_eq hx' hy' hcc)).trans ((bind_ok (Arr.rd_ok hidx m1)).trans ?_)
      rw [ha.at' _ _ (by omega) (by omega)]
      dsimp only
      rw [hg]
      exact (bind_ok (corrected_ok h1 h2 m1)).trans (writeC_get wf fit hoth.size_eq hx' hy' hcc _))
  refine ⟨m', ?_, g2⟩
  have e := rowLoop2_eq (μ := LMem) (A := Unit) (row := img.rowSize) (step := 1) (row₁ := img.width) (step₁ := 1)
    (body := fun imageX dataX _ => do
      let a ← onPix (readC img.data imageX)
      let e ← o.data.rd dataX
      let b ← corrected a e
      onPix (writeC img.data imageX b))
    (pY := (⟨img, x0, y0⟩ : View).start 1) (qY := x0 + y0 * img.width) (n := w) (height := h) () hr (by decide) hfit (by rw [Nat.mul_one]; omega)
  rw [Nat.mul_one] at e
  have hyw : y0 * img.width < 4294967296 := by
    have := hi.area
    have h3 := Nat.mul_le_mul_right img.width (show y0 ≤ img.height by omega)
    rw [Nat.mul_comm img.height] at h3
    omega
  have hgs : getSize (m, o) = .ok (img.width, img.height) (m, o) := by
    rw [getSize]
    dsimp only
    rw [ha.size]
  rw [correct, bind_ok (validateRoi_ok _ fit hw hh), bind_ok hgs]
  dsimp only
  have ez : (img.width == 0 || img.height == 0) = false := by
    have := hi.wpos
    have := hi.hpos
    simp only [Bool.or_eq_false_iff, beq_eq_false_iff_ne]
    omega
  rw [ez, throwIf_false, pure_bind', bind_ok (show getData (m, o) = .ok o.data (m, o) from rfl), u32_of_lt hyw, e]
  refine fold_onPix _ m m' ?_ g1
  intro p hp m1 m2 hb
  obtain ⟨hp1, hp2⟩ := mem_grid.1 hp
  have ea : (⟨img, x0, y0⟩ : View).start 1 + p.1 * img.rowSize + p.2 * 1 = (⟨img, x0, y0⟩ : View).cell p.2 p.1 0 := View.cell_addr0 wf fit hgray _ _
  have eb : x0 + y0 * img.width + p.1 * img.width + p.2 * 1 = (y0 + p.1) * img.width + (x0 + p.2) := by
    rw [Nat.add_mul]
    omega
  rw [ea, eb]
  obtain ⟨a, m3, b1, b2⟩ := bind_eq_ok.1 hb
  obtain ⟨e, m4, b3, b4⟩ := bind_eq_ok.1 b2
  obtain ⟨b, m5, b5, b6⟩ := bind_eq_ok.1 b4
  refine (bind_ok (onPix_ok b1)).trans ?_
  rw [Arr.rd] at b3
  split at b3
  · rename_i hlt
    injection b3 with b31 b32
    subst b31
    subst b32
    refine (bind_ok (Arr.rd_ok hlt _)).trans ?_
    rw [corrected] at b5
    split at b5
    · exact absurd b5 (by intro hh; cases hh)
    · rename_i hz
      injection b5 with b51 b52
      subst b52
      rw [corrected, if_neg hz, pure_bind', b51]
      exact onPix_ok b6
  · exact absurd b3 (by intro hh; cases hh)

/-- The new value of a pixel `a` for the value `t` of the table -/
def rescaled (t : Nat) (a : UInt8) : UInt8 := if (a.toNat * 4194304 + t / 2) / t > 255 then 255 else UInt8.ofNat ((a.toNat * 4194304 + t / 2) / t)

theorem tableOf_pos (mn mx a : UInt8) : 0 < tableOf mn mx a ∧ tableOf mn mx a < 1073741824 := by
  rw [tableOf]
  have := a.toNat_lt
  obtain ⟨q, hq⟩ : ∃ q, a.toNat * 4194304 / mx.toNat = q := ⟨_, rfl⟩
  have h2 : q ≤ a.toNat * 4194304 := hq ▸ Nat.div_le_self _ _
  rw [hq]
  split <;> omega

theorem corrected_val {μ : Type} (a : UInt8) {t : Nat} (ht : 0 < t ∧ t < 1073741824) (s : μ) : corrected a t s = .ok (rescaled t a) s := by
  have := a.toNat_lt
  rw [corrected, if_neg (by omega), u32_of_lt (by omega), rescaled]
  rfl

theorem correct_run2 {m m0 : BMem} {img img0 : Image} (hi : LightImage m img) {mn mx : UInt8} {o : Obj}
    (ha : Analysed m0 img0 mn mx o) (hw0 : img0.width = img.width) (hh0 : img0.height = img.height) {x0 y0 w h : Nat} (fit : (⟨img, x0, y0⟩ : View).Fits w h) :
    ∃ m', correct ⟨img, x0, y0⟩ w h (m, o) = .ok () (m', o) ∧
      WritesRoi m m' ⟨img, x0, y0⟩ w h fun x y _ =>
        rescaled (tableOf mn mx (pixelOf m0 img0 (x0 + x) (y0 + y))) (pixelOf m img (x0 + x) (y0 + y)) := by
  obtain ⟨ha1, ha2, ha3⟩ := ha
  rw [hw0, hh0] at ha1 ha2 ha3
  have wf : (⟨img, x0, y0⟩ : View).img.WF m := hi.wf
  obtain ⟨hcc, hr, _, hw, hh, hfit, _, _, hwcc, _⟩ := View.facts (v := ⟨img, x0, y0⟩) wf fit
  have hgray := hi.gray
  have hx := fit.inX
  have hy := fit.inY
  dsimp only at hx hy hcc hr hw hh hwcc
  have hcell : ∀ x y, (⟨img, x0, y0⟩ : View).cell x y 0 = (y0 + y) * img.rowSize + (x0 + x) := by
    intro x y
    rw [View.cell]
    dsimp only
    rw [hgray]
    omega
  obtain ⟨m', g1, g2⟩ := gray_writes (vo := ⟨img, x0, y0⟩) (w := w) (h := h) wf fit hgray
    (body := fun p _ => do
      let a ← readC img.data ((⟨img, x0, y0⟩ : View).cell p.2 p.1 0)
      let e ← o.data.rd ((y0 + p.1) * img.width + (x0 + p.2))
      let b ← corrected a e
      writeC img.data ((⟨img, x0, y0⟩ : View).cell p.2 p.1 0) b)
    (val := fun x y => rescaled (tableOf mn mx (pixelOf m0 img0 (x0 + x) (y0 + y))) (pixelOf m img (x0 + x) (y0 + y)))
    (by
      intro x y hx' hy' m1 hoth
      have hg : (⟨img, x0, y0⟩ : View).get m1 x y 0 = pixelOf m img (x0 + x) (y0 + y) := by
        rw [hoth.get_noClash (noClash_self wf.row fit.inX) hx' hy' hcc, View.get, hcell]
        rfl
      have hidx : (y0 + y) * img.width + (x0 + x) < o.data.len := by
        rw [ha2]
        have := Nat.mul_le_mul_right img.width (show y0 + y + 1 ≤ img.height by omega)
        rw [Nat.add_mul, Nat.mul_comm img.height] at this
        omega
      refine (bind_ok (readC_get wf fit hoth.size_eq hx' hy' hcc)).trans ((bind_ok (Arr.rd_ok hidx m1)).trans ?_)
      rw [ha3 _ _ (by omega) (by omega)]
      dsimp only
      rw [hg]
      exact (bind_ok (corrected_val _ (tableOf_pos _ _ _) m1)).trans (writeC_get wf fit hoth.size_eq hx' hy' hcc _))
  refine ⟨m', ?_, g2⟩
  have e := rowLoop2_eq (μ := LMem) (A := Unit) (row := img.rowSize) (step := 1) (row₁ := img.width) (step₁ := 1)
    (body := fun imageX dataX _ => do
      let a ← onPix (readC img.data imageX)
      let e ← o.data.rd dataX
      let b ← corrected a e
      onPix (writeC img.data imageX b))
    (pY := (⟨img, x0, y0⟩ : View).start 1) (qY := x0 + y0 * img.width) (n := w) (height := h) () hr (by decide) hfit (by rw [Nat.mul_one]; omega)
  rw [Nat.mul_one] at e
  have hyw : y0 * img.width < 4294967296 := by
    have := hi.area
    have h3 := Nat.mul_le_mul_right img.width (show y0 ≤ img.height by omega)
    rw [Nat.mul_comm img.height] at h3
    omega
  have hgs : getSize (m, o) = .ok (img.width, img.height) (m, o) := by
    rw [getSize]
    dsimp only
    rw [ha1]
  rw [correct, bind_ok (validateRoi_ok _ fit hw hh), bind_ok hgs]
  dsimp only
  have ez : (img.width == 0 || img.height == 0) = false := by
    have := hi.wpos
    have := hi.hpos
    simp only [Bool.or_eq_false_iff, beq_eq_false_iff_ne]
    omega
  rw [ez, throwIf_false, pure_bind', bind_ok (show getData (m, o) = .ok o.data (m, o) from rfl), u32_of_lt hyw, e]
  refine fold_onPix _ m m' ?_ g1
  intro p hp m1 m2 hb
  obtain ⟨hp1, hp2⟩ := mem_grid.1 hp
  have ea : (⟨img, x0, y0⟩ : View).start 1 + p.1 * img.rowSize + p.2 * 1 = (⟨img, x0, y0⟩ : View).cell p.2 p.1 0 := View.cell_addr0 wf fit hgray _ _
  have eb : x0 + y0 * img.width + p.1 * img.width + p.2 * 1 = (y0 + p.1) * img.width + (x0 + p.2) := by
    rw [Nat.add_mul]
    omega
  rw [ea, eb]
  obtain ⟨a, m3, b1, b2⟩ := bind_eq_ok.1 hb
  obtain ⟨e, m4, b3, b4⟩ := bind_eq_ok.1 b2
  obtain ⟨b, m5, b5, b6⟩ := bind_eq_ok.1 b4
  refine (bind_ok (onPix_ok b1)).trans ?_
  rw [Arr.rd] at b3
  split at b3
  · rename_i hlt
    injection b3 with b31 b32
    subst b31
    subst b32
    refine (bind_ok (Arr.rd_ok hlt _)).trans ?_
    rw [corrected] at b5
    split at b5
    · exact absurd b5 (by intro hh; cases hh)
    · rename_i hz
      injection b5 with b51 b52
      subst b52
      rw [corrected, if_neg hz, pure_bind', b51]
      exact onPix_ok b6
  · exact absurd b3 (by intro hh; cases hh)


theorem MinMaxOf.levels {m : BMem} {img : Image} {mn mx : UInt8}
    (h : MinMaxOf (fun p => pixelOf m img p.2 p.1) (grid img.height img.width) (mn, mx)) :
    (TwoLevels m img → ¬ mn ≥ mx) ∧
    (¬ mn ≥ mx → TwoLevels m img ∧ mx.toNat ≤ 254 ∧ 1 ≤ mn.toNat ∧ TopLevel m img mx ∧
      ∀ x y, x < img.width → y < img.height → (pixelOf m img x y > mx ∨ pixelOf m img x y < mn ↔ pixelOf m img x y = 0 ∨ pixelOf m img x y = 255)) := by
  obtain ⟨h1, h2, h3, h4⟩ := h
  have k1 : ∀ x y, x < img.width → y < img.height → pixelOf m img x y ≠ 0 → mn ≤ pixelOf m img x y := fun x y hx hy => h1 (y, x) (mem_grid.2 ⟨hy, hx⟩)
  have k2 : ∀ x y, x < img.width → y < img.height → pixelOf m img x y ≠ 255 → pixelOf m img x y ≤ mx := fun x y hx hy => h2 (y, x) (mem_grid.2 ⟨hy, hx⟩)
  have k3 : mn = 255 ∨ mn ≠ 0 ∧ ∃ x y, x < img.width ∧ y < img.height ∧ pixelOf m img x y = mn := by
    rcases h3 with h3 | ⟨h3, p, hp, h5⟩
    · exact Or.inl h3
    · exact Or.inr ⟨h3, p.2, p.1, (mem_grid.1 hp).2, (mem_grid.1 hp).1, h5⟩
  have k4 : mx = 0 ∨ mx ≠ 255 ∧ ∃ x y, x < img.width ∧ y < img.height ∧ pixelOf m img x y = mx := by
    rcases h4 with h4 | ⟨h4, p, hp, h5⟩
    · exact Or.inl h4
    · exact Or.inr ⟨h4, p.2, p.1, (mem_grid.1 hp).2, (mem_grid.1 hp).1, h5⟩
  clear h1 h2 h3 h4
  have e0 : (0 : UInt8).toNat = 0 := rfl
  have e1 : (255 : UInt8).toNat = 255 := rfl
  constructor
  · rintro ⟨a, b, ⟨a1, a2, xa, ya, a3, a4, a5⟩, ⟨b1, b2, xb, yb, b3, b4, b5⟩, hab⟩
    have c1 := k1 xa ya a3 a4 (by rw [a5]; exact a1)
    have c2 := k2 xa ya a3 a4 (by rw [a5]; exact a2)
    have c3 := k1 xb yb b3 b4 (by rw [b5]; exact b1)
    have c4 := k2 xb yb b3 b4 (by rw [b5]; exact b2)
    rw [a5] at c1 c2
    rw [b5] at c3 c4
    simp only [ge_iff_le, UInt8.le_iff_toNat_le, ne_eq, ← UInt8.toNat_inj] at *
    omega
  · intro hlt
    have hn : mn.toNat < mx.toNat := by
      rw [ge_iff_le, UInt8.le_iff_toNat_le] at hlt
      omega
    have hmx255 : mx.toNat < 256 := UInt8.toNat_lt mx
    rcases k3 with k3 | ⟨k3, xa, ya, a3, a4, a5⟩
    · rw [k3] at hn
      omega
    rcases k4 with k4 | ⟨k4, xb, yb, b3, b4, b5⟩
    · rw [k4] at hn
      exact absurd hn (Nat.not_lt_zero _)
    have f1 : mx.toNat ≠ 255 := fun h => k4 (UInt8.toNat_inj.1 h)
    have f2 : mn.toNat ≠ 0 := fun h => k3 (UInt8.toNat_inj.1 h)
    have lmn : Level m img mn := ⟨k3, fun h => by rw [h] at hn; omega, xa, ya, a3, a4, a5⟩
    have lmx : Level m img mx := ⟨fun h => by rw [h] at hn; exact absurd hn (Nat.not_lt_zero _), k4, xb, yb, b3, b4, b5⟩
    refine ⟨⟨mn, mx, lmn, lmx, fun h => by rw [h] at hn; omega⟩, by omega, by omega, ⟨lmx, ?_⟩, ?_⟩
    · rintro a ⟨c1, c2, x, y, c3, c4, c5⟩
      have := k2 x y c3 c4 (by rw [c5]; exact c2)
      rw [c5] at this
      exact this
    · intro x y hx hy
      have g1 := k1 x y hx hy
      have g2 := k2 x y hx hy
      have hlt : (pixelOf m img x y).toNat < 256 := UInt8.toNat_lt _
      simp only [gt_iff_lt, UInt8.lt_iff_toNat_lt, UInt8.le_iff_toNat_le, ne_eq, ← UInt8.toNat_inj] at *
      omega

/-- `r` is the rounded value of `a * hi / p`, but not above 255. -/
def Nearest (p hi a r : Nat) : Prop := r ≤ 255 ∧ 2 * (r * p) ≤ 2 * (a * hi) + p ∧ (r < 255 → 2 * (a * hi) ≤ 2 * (r * p) + p)

theorem rescaled_flat (a : UInt8) : rescaled 4194304 a = a := by
  have := a.toNat_lt
  have e : (a.toNat * 4194304 + 4194304 / 2) / 4194304 = a.toNat := by omega
  rw [rescaled, e, if_neg (by omega), UInt8.ofNat_toNat]

theorem rescaled_nearest {p hi a : UInt8} (hp : 0 < p.toNat) (hhi : 0 < hi.toNat) :
    Nearest p.toNat hi.toNat a.toNat (rescaled (p.toNat * 4194304 / hi.toNat + 1) a).toNat := by
  have ha := a.toNat_lt
  have hpl := p.toNat_lt
  have hhl := hi.toNat_lt
  obtain ⟨P, hP⟩ : ∃ P, p.toNat = P := ⟨_, rfl⟩
  obtain ⟨H, hH⟩ : ∃ H, hi.toNat = H := ⟨_, rfl⟩
  obtain ⟨A, hA⟩ : ∃ A, a.toNat = A := ⟨_, rfl⟩
  obtain ⟨t, ht⟩ : ∃ t, P * 4194304 / H + 1 = t := ⟨_, rfl⟩
  rw [hP] at hp hpl
  rw [hH] at hhi hhl
  rw [hA] at ha
  rw [rescaled, hP, hH, hA, ht]
  have t1 : H * t ≤ P * 4194304 + H := by
    rw [← ht, Nat.mul_add, Nat.mul_one]
    have := Nat.mul_div_le (P * 4194304) H
    omega
  have t2 : P * 4194304 < H * t := by
    rw [← ht]
    exact Nat.lt_mul_div_succ _ hhi
  have tpos : 0 < t := by
    rw [← ht]
    exact Nat.succ_pos _
  obtain ⟨r, hr⟩ : ∃ r, (A * 4194304 + t / 2) / t = r := ⟨_, rfl⟩
  have r1 : r * t ≤ A * 4194304 + t / 2 := by
    rw [← hr]
    exact Nat.div_mul_le_self _ _
  have r2 : A * 4194304 + t / 2 < r * t + t := by
    rw [← hr]
    have := Nat.lt_mul_div_succ (A * 4194304 + t / 2) tpos
    rw [Nat.mul_add, Nat.mul_one, Nat.mul_comm t] at this
    exact this
  rw [hr]
  -- the bounds multiplied by H
  have u1 : ∀ s, s ≤ r → 2 * (s * P) ≤ 2 * (A * H) + P := by
    intro s hs
    have e1 : s * (P * 4194304) ≤ s * (H * t) := Nat.mul_le_mul_left _ (by omega)
    have e2 : s * (H * t) = H * (s * t) := by ring
    have e3 : H * (s * t) ≤ H * (r * t) := Nat.mul_le_mul_left _ (Nat.mul_le_mul_right _ hs)
    have e4 : H * (2 * (r * t)) ≤ H * (2 * (A * 4194304) + t) := Nat.mul_le_mul_left _ (by omega)
    have e5 : H * (2 * (A * 4194304) + t) = 2 * (A * H) * 4194304 + H * t := by ring
    have e6 : H * (2 * (r * t)) = 2 * (H * (r * t)) := by ring
    have e7 : s * (P * 4194304) = s * P * 4194304 := by ring
    omega
  have u2 : r < 255 → 2 * (A * H) ≤ 2 * (r * P) + P := by
    intro hr255
    have e1 : H * (2 * (A * 4194304)) ≤ H * (2 * (r * t) + t) := Nat.mul_le_mul_left _ (by omega)
    have e2 : H * (2 * (r * t) + t) = (2 * r + 1) * (H * t) := by ring
    have e3 : (2 * r + 1) * (H * t) ≤ (2 * r + 1) * (P * 4194304 + H) := Nat.mul_le_mul_left _ t1
    have e4 : (2 * r + 1) * (P * 4194304 + H) = (2 * (r * P) + P) * 4194304 + (2 * r + 1) * H := by ring
    have e5 : (2 * r + 1) * H ≤ 511 * 256 := Nat.mul_le_mul (by omega) (by omega)
    have e6 : H * (2 * (A * 4194304)) = 2 * (A * H) * 4194304 := by ring
    omega
  by_cases h255 : r > 255
  · rw [if_pos h255]
    exact ⟨by decide, u1 _ (by show 255 ≤ r; omega), fun h => absurd h (by decide)⟩
  · rw [if_neg h255, UInt8.toNat_ofNat', Nat.mod_eq_of_lt (by omega)]
    exact ⟨by omega, u1 r (Nat.le_refl _), u2⟩

/-- C64 for another image of the same size: a pixel is multiplied by the greatest value below 255 divided by the analysed pixel, rounded and limited to 255;
    where the analysed pixel is 0 or 255 it does not change. -/
theorem C64_other {rnd : ℚ → ℚ} (R : Rounding rnd) {m : BMem} {img : Image} (h : LightImage m img) (o : Obj) (ht : TwoLevels m img) :
    ∃ o' hi, analyze rnd img (m, o) = .ok () (m, o') ∧ TopLevel m img hi ∧
      ∀ m2 img2, LightImage m2 img2 → img.width = img2.width → img.height = img2.height → ∀ x0 y0 w ht, (⟨img2, x0, y0⟩ : View).Fits w ht →
        ∃ (m' : BMem) (F : Nat → Nat → UInt8), correct ⟨img2, x0, y0⟩ w ht (m2, o') = .ok () (m', o') ∧ WritesRoi m2 m' ⟨img2, x0, y0⟩ w ht (fun x y _ => F x y) ∧
          ∀ x y, x < w → y < ht →
            if pixelOf m img (x0 + x) (y0 + y) = 0 ∨ pixelOf m img (x0 + x) (y0 + y) = 255 then F x y = pixelOf m2 img2 (x0 + x) (y0 + y)
            else Nearest (pixelOf m img (x0 + x) (y0 + y)).toNat hi.toNat (pixelOf m2 img2 (x0 + x) (y0 + y)).toNat (F x y).toNat := by
  obtain ⟨mn, mx, o', h1, h2, h3⟩ := analyze_run R h o
  obtain ⟨h4, h5⟩ := h1.levels
  obtain ⟨h6, h7⟩ := h3 (h4 ht)
  obtain ⟨-, h8, h9, h10, h11⟩ := h5 (h4 ht)
  refine ⟨o', mx, h6, h10, fun m2 img2 hi2 hw hh x0 y0 w ht fit => ?_⟩
  obtain ⟨m', c1, c2⟩ := correct_run2 hi2 h7 hw hh fit
  refine ⟨m', fun x y => rescaled (tableOf mn mx (pixelOf m img (x0 + x) (y0 + y))) (pixelOf m2 img2 (x0 + x) (y0 + y)), c1, c2, fun x y hx hy => ?_⟩
  have hx' := fit.inX
  have hy' := fit.inY
  dsimp only at hx' hy'
  have hlev := h11 (x0 + x) (y0 + y) (by omega) (by omega)
  dsimp only
  rw [tableOf]
  by_cases hc : pixelOf m img (x0 + x) (y0 + y) = 0 ∨ pixelOf m img (x0 + x) (y0 + y) = 255
  · rw [if_pos hc, if_pos (hlev.2 hc), rescaled_flat]
  · have hne : ¬ (pixelOf m img (x0 + x) (y0 + y) > mx ∨ pixelOf m img (x0 + x) (y0 + y) < mn) := fun hh => hc (hlev.1 hh)
    rw [if_neg hc, if_neg hne]
    rw [not_or, gt_iff_lt, UInt8.lt_iff_toNat_lt, UInt8.lt_iff_toNat_lt] at hne
    exact rescaled_nearest (by omega) (by omega)

/-- The hypotheses are met: a second image of the size of `lightImg`. -/
example : LightImage ⟨fun b => if b = 0 then 0 else 12, fun _ i => [10, 20, 0, 7, 200, 255, 30, 9, 0, 0, 0, 0].getD i 0⟩ ⟨2, 3, 2, 1, 3⟩ :=
  ⟨⟨by decide, by decide, by decide⟩, by decide, by decide, by decide, by decide⟩

example : Nearest 10 200 7 140 ∧ Nearest 10 200 13 255 ∧ ¬ Nearest 10 200 7 141 := by unfold Nearest; decide

/-- The value of a pixel after the correction: 0 and 255 stay, all others become `hi`. -/
def flat (hi a : UInt8) : UInt8 := if a = 0 ∨ a = 255 then a else hi

/-- C64 for gray-scale images: analyze either throws, then there are no two different values between 0 and 255; or it succeeds, and then
    correcting any part of the same image gives every pixel except 0 and 255 the greatest value below 255. -/
theorem C64_light_partial {rnd : ℚ → ℚ} (R : Rounding rnd) {m : BMem} {img : Image} (h : LightImage m img) (o : Obj) :
    (¬ TwoLevels m img → ∃ o', analyze rnd img (m, o) = .throw (m, o')) ∧
    (TwoLevels m img → ∃ o' hi, analyze rnd img (m, o) = .ok () (m, o') ∧ TopLevel m img hi ∧
      ∀ x0 y0 w ht, (⟨img, x0, y0⟩ : View).Fits w ht →
        ∃ m', correct ⟨img, x0, y0⟩ w ht (m, o') = .ok () (m', o') ∧
          WritesRoi m m' ⟨img, x0, y0⟩ w ht fun x y _ => flat hi (pixelOf m img (x0 + x) (y0 + y))) := by
  obtain ⟨mn, mx, o', h1, h2, h3⟩ := analyze_run R h o
  obtain ⟨h4, h5⟩ := h1.levels
  constructor
  · intro hn
    by_cases hge : mn ≥ mx
    · exact ⟨o', h2 hge⟩
    · exact absurd (h5 hge).1 hn
  · intro ht
    obtain ⟨h6, h7⟩ := h3 (h4 ht)
    obtain ⟨-, h8, h9, h10, h11⟩ := h5 (h4 ht)
    refine ⟨o', mx, h6, h10, fun x0 y0 w ht fit => ?_⟩
    obtain ⟨m', c1, c2⟩ := correct_run h h8 h9 h7 fit
    refine ⟨m', c1, c2.size_eq, fun x y c hx hy hc => ?_, c2.outside⟩
    have hx' := fit.inX
    have hy' := fit.inY
    dsimp only at hx' hy'
    rw [c2.inside x y c hx hy hc, flat]
    have := h11 (x0 + x) (y0 + y) (by omega) (by omega)
    by_cases hc : pixelOf m img (x0 + x) (y0 + y) = 0 ∨ pixelOf m img (x0 + x) (y0 + y) = 255
    · rw [if_pos (this.2 hc), if_pos hc]
    · rw [if_neg (fun hh => hc (this.1 hh)), if_neg hc]

/-- C64 for the call with the whole image. -/
theorem C64_whole_partial {rnd : ℚ → ℚ} (R : Rounding rnd) {m : BMem} {img : Image} (h : LightImage m img) (o : Obj) (ht : TwoLevels m img) :
    ∃ o' m' hi, analyze rnd img (m, o) = .ok () (m, o') ∧ TopLevel m img hi ∧ correctImage img (m, o') = .ok () (m', o') ∧
      WritesRoi m m' ⟨img, 0, 0⟩ img.width img.height fun x y _ => flat hi (pixelOf m img x y) := by
  obtain ⟨o', hi, h1, h2, h3⟩ := (C64_light_partial R h o).2 ht
  obtain ⟨m', h4, h5⟩ := h3 0 0 img.width img.height h.fits
  refine ⟨o', m', hi, h1, h2, ?_, ?_⟩
  · rw [correctImage, bind_ok (validateImage_run' h (m, o'))]
    exact h4
  · simpa only [Nat.zero_add] using h5

/-- A 3 x 2 image in rows of four bytes. -/
def lightImg : Image := ⟨1, 3, 2, 1, 4⟩
def lightMem : BMem := ⟨fun b => if b = 0 then 0 else 12, fun _ i => [10, 20, 0, 7, 200, 255, 30, 9, 0, 0, 0, 0].getD i 0⟩

example : LightImage lightMem lightImg := ⟨⟨by decide, by decide, by decide⟩, by decide, by decide, by decide, by decide⟩
example : TwoLevels lightMem lightImg :=
  ⟨10, 200, ⟨by decide, by decide, 0, 0, by decide, by decide, by decide⟩, ⟨by decide, by decide, 0, 1, by decide, by decide, by decide⟩, by decide⟩

/-- The bytes of block 1 after analysing and correcting. -/
def lightBytes (r : Res LMem Unit) : Option (List UInt8) :=
  match r with
  | .ok _ s => some ((List.range 12).map fun i => s.1.byte 1 i)
  | _ => none

theorem lightImg_flat : lightBytes ((analyze id lightImg >>= fun _ => correctImage lightImg) (lightMem, newObj))
    = some [200, 200, 0, 7, 200, 255, 200, 9, 0, 0, 0, 0] := by
  decide +kernel

/-- C64 is false for a new object: the test for a missing analysis reads members without a value (whatever the table holds), and
    so does `findIncorrectPixels` for every image. -/
theorem C64_wrong_new : isUb (correctImage lightImg (lightMem, newObj)) = true ∧
    (∀ d, correctImage lightImg (lightMem, { newObj with data := d }) = .ub) ∧ ∀ img m, findIncorrectPixels img (m, newObj) = .ub :=
  ⟨by decide +kernel, fun _ => rfl, fun _ _ => rfl⟩

/-- After an exception of analyze the object holds a table of zeros: correct divides by zero. -/
def afterThrow (r : Res LMem Unit) : Option LMem :=
  match r with
  | .throw s => some s
  | _ => none

/-- An image without two different values between 0 and 255. -/
def darkMem : BMem := ⟨fun b => if b = 0 then 0 else 12, fun _ _ => 0⟩

theorem C64_wrong_failed : (afterThrow (analyze id lightImg (darkMem, newObj))).map (fun s => isUb (correctImage lightImg s)) = some true := by
  decide +kernel

/-- C64 is false for an image larger than the one analysed: the table is read behind its end. -/
theorem C64_wrong_size : isUb ((analyze id ⟨1, 3, 2, 1, 3⟩ >>= fun _ => correctImage ⟨1, 4, 3, 1, 4⟩) (lightMem, newObj)) = true := by
  decide +kernel

/-- C64 is false for colour images: of the two pixels (10, 20, 0), (7, 200, 255) only the first two bytes are treated. -/
theorem C64_wrong_colour : lightBytes ((analyze id ⟨1, 2, 1, 3, 6⟩ >>= fun _ => correctImage ⟨1, 2, 1, 3, 6⟩) (lightMem, newObj))
    = some [20, 20, 0, 7, 200, 255, 30, 9, 0, 0, 0, 0] := by
  decide +kernel

/-! ### C81 -/

/-- C81: for an image of the analysed size the positions of the pixels 0 and 255 are returned, row by row. -/
theorem C81_incorrect_partial {m : BMem} {img : Image} (h : LightImage m img) {o : Obj} (ho : o.size = some (img.width, img.height)) :
    findIncorrectPixels img (m, o) = .ok
      (((grid img.height img.width).filter fun p => decide (pixelOf m img p.2 p.1 = 0 ∨ pixelOf m img p.2 p.1 = 255)).map fun p => (p.2, p.1)) (m, o) := by
  obtain ⟨hcc, hr, _, hw, hh, hfit, _, _, hwcc, _⟩ := View.facts (v := ⟨img, 0, 0⟩) h.wf h.fits
  dsimp only at hr hw hh hfit
  have hgs : getSize (m, o) = .ok (img.width, img.height) (m, o) := by
    rw [getSize]
    dsimp only
    rw [ho]
  rw [findIncorrectPixels, bind_ok hgs]
  dsimp only
  rw [u32_of_lt hfit]
  have e := loop_eq_fold (μ := LMem) (A := List (Nat × Nat)) (cond := fun s : Nat × Nat => s.1 != img.height * img.rowSize) (next := fun s => (s.1 + img.rowSize, u32 (s.2 + 1)))
    (body := fun s l => loop (fun t : Nat × Nat => t.1 != s.1 + img.width) (fun t => (t.1 + 1, u32 (t.2 + 1))) (fun t l => do
      let a ← onPix (readC img.data t.1)
      if a = 0 ∨ a = 255 then pure (l ++ [(t.2, s.2)]) else pure l) fuelMax (s.1, 0) l)
    (fun k => (k * img.rowSize, u32 k)) img.height fuelMax [] (count_lt_fuel hr hfit)
    (fun k hk => by
      have := ptr_ne (p := 0) hk hr
      simpa using this)
    (by simp)
    (fun k hk => by
      rw [Nat.succ_mul, u32_of_lt (n := k) (by omega)])
  have e0 : (0 * img.rowSize, u32 0) = (0, 0) := by
    rw [Nat.zero_mul]
    rfl
  rw [e0] at e
  rw [e]
  have inner : ∀ j, j < img.height → ∀ l : List (Nat × Nat), loop (fun t : Nat × Nat => t.1 != j * img.rowSize + img.width) (fun t => (t.1 + 1, u32 (t.2 + 1)))
      (fun t l => do
        let a ← onPix (readC img.data t.1)
        if a = 0 ∨ a = 255 then pure (l ++ [(t.2, u32 j)]) else pure l) fuelMax (j * img.rowSize, 0) l (m, o)
      = .ok (l ++ ((List.range img.width).filter fun x => decide (pixelOf m img x j = 0 ∨ pixelOf m img x j = 255)).map fun x => (x, j)) (m, o) := by
    intro j hj l
    have e := loop_eq_fold (μ := LMem) (A := List (Nat × Nat)) (cond := fun t : Nat × Nat => t.1 != j * img.rowSize + img.width) (next := fun t => (t.1 + 1, u32 (t.2 + 1)))
      (body := fun t l => do
        let a ← onPix (readC img.data t.1)
        if a = 0 ∨ a = 255 then pure (l ++ [(t.2, u32 j)]) else pure l)
      (fun k => (j * img.rowSize + k, u32 k)) img.width fuelMax l (by rw [fuelMax]; omega)
      (fun k hk => by simp only [bne_iff_ne, ne_eq]; omega)
      (by simp)
      (fun k hk => by
        rw [u32_of_lt (n := k) (by omega)]
        rfl)
    have e0 : (j * img.rowSize + 0, u32 0) = (j * img.rowSize, 0) := rfl
    rw [e0] at e
    rw [e]
    obtain ⟨a, h1, h2⟩ := fold_prefix (μ := LMem) (m := (m, o)) (A := List (Nat × Nat)) (all := List.range img.width)
      (body := fun k l => do
        let a ← onPix (readC img.data (j * img.rowSize + k))
        if a = 0 ∨ a = 255 then pure (l ++ [(u32 k, u32 j)]) else pure l)
      (P := fun (L : List Nat) (r : List (Nat × Nat)) =>
        r = l ++ (L.filter fun x => decide (pixelOf m img x j = 0 ∨ pixelOf m img x j = 255)).map fun x => (x, j))
      (by
        intro pre p post a hall hp
        have hp2 : p < img.width := by
          have : p ∈ List.range img.width := by
            rw [← hall]
            simp
          exact List.mem_range.1 this
        rw [u32_of_lt (n := p) (by omega), u32_of_lt (n := j) (by omega)]
        refine ⟨_, (bind_ok (onPix_ok (h.read rfl hp2 hj))).trans ?_, rfl⟩
        rw [List.filter_append, List.map_append, ← List.append_assoc, ← hp]
        by_cases hc : pixelOf m img p j = 0 ∨ pixelOf m img p j = 255
        · rw [if_pos hc, List.filter_singleton, decide_eq_true hc]
          rfl
        · rw [if_neg hc, List.filter_singleton, decide_eq_false hc]
          simp only [cond_false, List.map_nil, List.append_nil]
          rfl)
      (List.range img.width) [] l rfl (by simp)
    rw [← h2]
    exact h1
  obtain ⟨a, h1, h2⟩ := fold_prefix (μ := LMem) (m := (m, o)) (A := List (Nat × Nat)) (all := List.range img.height)
    (body := fun k l => loop (fun t : Nat × Nat => t.1 != k * img.rowSize + img.width) (fun t => (t.1 + 1, u32 (t.2 + 1)))
      (fun t l => do
        let a ← onPix (readC img.data t.1)
        if a = 0 ∨ a = 255 then pure (l ++ [(t.2, u32 k)]) else pure l) fuelMax (k * img.rowSize, 0) l)
    (P := fun (L : List Nat) (r : List (Nat × Nat)) =>
      r = L.flatMap fun y => ((List.range img.width).filter fun x => decide (pixelOf m img x y = 0 ∨ pixelOf m img x y = 255)).map fun x => (x, y))
    (by
      intro pre p post a hall hp
      have hp2 : p < img.height := by
        have : p ∈ List.range img.height := by
          rw [← hall]
          simp
        exact List.mem_range.1 this
      refine ⟨_, inner p hp2 a, ?_⟩
      rw [List.flatMap_append, hp]
      simp)
    (List.range img.height) [] [] rfl rfl
  have h3 : a = ((grid img.height img.width).filter fun p => decide (pixelOf m img p.2 p.1 = 0 ∨ pixelOf m img p.2 p.1 = 255)).map fun p => (p.2, p.1) := by
    rw [h2, grid, List.filter_flatMap, List.map_flatMap]
    refine List.flatMap_congr fun y hy => ?_
    rw [List.filter_map, List.map_map]
    rfl
  rw [← h3]
  exact h1

/-- What findIncorrectPixels returns. -/
def found (r : Res LMem (List (Nat × Nat))) : Option (List (Nat × Nat)) :=
  match r with
  | .ok l _ => some l
  | _ => none

theorem lightImg_found : found (findIncorrectPixels lightImg (lightMem, ⟨some (3, 2), ⟨0, fun _ => 0⟩⟩)) = some [(2, 0), (1, 1)] := by
  decide +kernel

/-- C81 is false for an image smaller than the one analysed: the pixels are read behind the end of the image; there is no parameter check. -/
theorem C81_wrong : isUb (findIncorrectPixels lightImg (lightMem, ⟨some (3, 4), ⟨0, fun _ => 0⟩⟩)) = true := by
  decide +kernel

end PV.Props
