import Mathlib.Tactic.Linarith
import Mathlib.Tactic.Ring
import Mathlib.Tactic.Positivity
import Mathlib.Tactic.FieldSimp
import Verif.Rounding
import Verif.PropsBlobMeasure
/-
  C119 - C121: overflows of the length and the centre, elongation and circularity.
-/
namespace PV.Props

open PV.Blob

local notation "same" => (fun x : ℚ => x)

variable {m : BMem} {v : View} {w h : Nat} {thr : UInt8}

/-! ### A white row -/

/-- A white row of `w` pixels -/
def whiteMem (w : Nat) : BMem where
  size b := if b = 1 then w else 0
  byte _ _ := 255

def whiteImg (w : Nat) : Image := ⟨1, w, 1, 1, w⟩

theorem one_white {w : Nat} (h0 : 0 < w) (h1 : w < 2 ^ 31) : One (whiteMem w) ⟨whiteImg w, 0, 0⟩ w 1 :=
  ⟨⟨by simp [whiteImg], by simp [whiteImg, whiteMem], by simp [whiteImg]; omega⟩,
    ⟨by simp [whiteImg], Or.inl rfl, h0, Nat.one_pos, by simp [whiteImg], by simp [whiteImg]⟩⟩

theorem white_fg {w : Nat} (p : Nat × Nat) : Fg (whiteMem w) ⟨whiteImg w, 0, 0⟩ w 1 1 p ↔ p.1 < w ∧ p.2 = 0 := by
  constructor
  · rintro ⟨_, h2, _, h4, _⟩
    simp only at h2 h4
    omega
  · rintro ⟨h1, h2⟩
    refine ⟨Nat.zero_le _, by simp only; omega, Nat.zero_le _, by simp only; omega, ?_⟩
    show (1 : UInt8) ≤ 255
    decide

/-- The search finds one blob with all pixels of the row. -/
theorem white_found {w : Nat} (h0 : 0 < w) (small : (w + 2) * 3 < 2 ^ 32) :
    ∃ bs b, find ⟨whiteImg w, 0, 0⟩ w 1 Params.none 1 (whiteMem w) = .ok bs (whiteMem w) ∧ b ∈ bs ∧ Shape ⟨whiteImg w, 0, 0⟩ w 1 b ∧ b.point.Nodup ∧
      ∀ p, p ∈ b.point ↔ p.1 < w ∧ p.2 = 0 := by
  obtain ⟨bs, h1, _, h3, h4⟩ := find_run (thr := 1) (one_white h0 (by omega)) rfl (by omega)
  have hin := (h3 (0, 0)).2 ((white_fg _).2 ⟨h0, rfl⟩)
  obtain ⟨b, hb, hp⟩ := List.mem_flatMap.1 hin
  refine ⟨bs, b, by rw [h1 _ none_sane, none_apply], hb, shape_of (h4 b hb), (h4 b hb).nodup, ?_⟩
  obtain ⟨s, _, _, f, _, hq, _⟩ := (h4 b hb).start
  have row : ∀ i, i < w → Conn (Fg (whiteMem w) ⟨whiteImg w, 0, 0⟩ w 1 1) (0, 0) (i, 0) := by
    intro i
    induction i with
    | zero => exact fun _ => .refl
    | succ i ih =>
      intro hi
      refine .step (ih (by omega)) ⟨by simp, by simp only; omega, by simp only; omega, by simp only; omega, by simp only; omega⟩
        ((white_fg _).2 ⟨hi, rfl⟩)
  intro p
  rw [hq p]
  constructor
  · intro c
    rw [← white_fg]
    cases c with
    | refl => exact f
    | step _ _ h => exact h
  · rintro ⟨p1, p2⟩
    obtain ⟨x, y⟩ := p
    simp only at p1 p2
    subst p2
    exact ((hq (0, 0)).1 hp).trans (row x p1)

/-- C119 does not hold in general: measuring a blob whose ends are 46341 pixels apart is undefined. -/
theorem C119_wrong : ∃ (m : BMem) (v : View) (w h : Nat) (thr : UInt8) (bs : List BlobInfo) (b : BlobInfo), One m v w h ∧ v.img.cc = 1 ∧
    (w + 2) * (h + 2) < 2 ^ 32 ∧ find v w h Params.none thr m = .ok bs m ∧ b ∈ bs ∧ longest b.contour = none := by
  obtain ⟨bs, b, e, hb, k, _, hp⟩ := white_found (w := 46342) (by omega) (by omega)
  obtain ⟨p, _, q, _, hd⟩ := k.diameter
  refine ⟨_, _, _, _, _, bs, b, one_white (by omega) (by omega), rfl, by omega, e, hb,
    (k.longest (one_white (by omega) (by omega)) (by omega) hd).2 ?_⟩
  have := hd.2 (46341, 0) ((hp _).2 ⟨by simp only; omega, rfl⟩) (0, 0) ((hp _).2 ⟨by simp only; omega, rfl⟩)
  have e2 : dist2 (46341, 0) (0, 0) = 2147488281 := by decide
  omega

/-! ### C120: the centre -/

theorem accumulate_from (l : List Nat) (t : Nat) :
    l.foldl (fun (acc : Int) (x : Nat) => int32 ((acc + (x : Int)) % 4294967296).toNat) (int32 (t % 4294967296)) =
      int32 ((t + l.sum) % 4294967296) := by
  induction l generalizing t with
  | nil => simp
  | cons a l ih =>
    have e : ((int32 (t % 4294967296) + (a : Int)) % 4294967296).toNat = (t + a) % 4294967296 := by
      unfold int32
      by_cases h : t % 4294967296 < 2147483648
      · rw [if_pos h]
        omega
      · rw [if_neg h]
        omega
    rw [List.foldl_cons, e, ih, List.sum_cons, Nat.add_assoc]

theorem accumulate_eq (l : List Nat) : accumulate l = int32 (l.sum % 4294967296) := by
  have := accumulate_from l 0
  rw [Nat.zero_add] at this
  rw [← this]
  rfl

theorem accumulate_small {l : List Nat} (hl : l.sum < 2147483648) : accumulate l = l.sum := by
  rw [accumulate_eq, Nat.mod_eq_of_lt (by omega), int32, if_pos hl]

/-- `c` is the mean of the pixels, rounded. -/
def IsCentre (rnd : Rat → Rat) (ps : List (Nat × Nat)) (c : Rat × Rat) : Prop :=
  ∃ x y : Rat, x * ps.length = (ps.map Prod.fst).sum ∧ y * ps.length = (ps.map Prod.snd).sum ∧ c = (rnd x, rnd y)

theorem centre_mean (rnd : Rat → Rat) (o : One m v w h) (cc : v.img.cc = 1) (small : (w + 2) * (h + 2) < 2 ^ 32) :
    ∃ bs, find v w h Params.none thr m = .ok bs m ∧ ∀ b, b ∈ bs → (b.point.map Prod.fst).sum < 2 ^ 31 → (b.point.map Prod.snd).sum < 2 ^ 31 →
      IsCentre rnd b.point (centerOf rnd b) := by
  obtain ⟨bs, h1, h2⟩ := find_shapes (thr := thr) o cc small
  refine ⟨bs, h1, fun b hb s1 s2 => ?_⟩
  have k := h2 b hb
  have hpne : b.point ≠ [] := by
    obtain ⟨q, hq⟩ := List.exists_mem_of_ne_nil _ k.nonempty
    exact List.ne_nil_of_mem (k.sub q hq)
  have hn : 0 < b.point.length := List.length_pos_iff.2 hpne
  have hn' : (0 : Rat) < b.point.length := by exact_mod_cast hn
  unfold centerOf IsCentre
  rw [accumulate_small s1, accumulate_small s2]
  simp only [Int.cast_natCast]
  exact ⟨_, _, div_mul_cancel₀ _ (ne_of_gt hn'), div_mul_cancel₀ _ (ne_of_gt hn'), rfl⟩

/-- C120, what holds: the centre of a blob is the mean of its pixels, rounded, and inside of its area, as long as the sums of the coordinates are
    below 2^31. -/
theorem C120_centre_partial {rnd : Rat → Rat} (hr : Rounding rnd) (o : One m v w h) (cc : v.img.cc = 1) (small : (w + 2) * (h + 2) < 2 ^ 32) :
    ∃ bs, find v w h Params.none thr m = .ok bs m ∧ ∀ b, b ∈ bs → (b.point.map Prod.fst).sum < 2 ^ 31 → (b.point.map Prod.snd).sum < 2 ^ 31 →
      IsCentre rnd b.point (centerOf rnd b) ∧
      ((areaOf b).left : Rat) ≤ (centerOf rnd b).1 ∧ (centerOf rnd b).1 ≤ ((areaOf b).right : Rat) - 1 ∧
      ((areaOf b).top : Rat) ≤ (centerOf rnd b).2 ∧ (centerOf rnd b).2 ≤ ((areaOf b).bottom : Rat) - 1 := by
  obtain ⟨bs, h1, h2⟩ := find_shapes (thr := thr) o cc small
  obtain ⟨bs', h1', h3⟩ := C118_bounds (thr := thr) o cc small
  obtain ⟨bs2, h12, h4⟩ := centre_mean rnd (thr := thr) o cc small
  rw [h1] at h1' h12
  obtain ⟨rfl, _⟩ := Res.ok.inj h1'
  obtain ⟨rfl, _⟩ := Res.ok.inj h12
  refine ⟨bs, h1, fun b hb s1 s2 => ?_⟩
  have k := h2 b hb
  have hpne : b.point ≠ [] := by
    obtain ⟨q, hq⟩ := List.exists_mem_of_ne_nil _ k.nonempty
    exact List.ne_nil_of_mem (k.sub q hq)
  have hn : 0 < b.point.length := List.length_pos_iff.2 hpne
  have hn' : (0 : Rat) < b.point.length := by exact_mod_cast hn
  obtain ⟨⟨hin, _⟩, _⟩ := h3 b hb
  have bound : ∀ (g : Nat × Nat → Nat) (lo hi : Nat) (l : List (Nat × Nat)), (∀ q ∈ l, lo ≤ g q ∧ g q ≤ hi) →
      lo * l.length ≤ (l.map g).sum ∧ (l.map g).sum ≤ hi * l.length := by
    intro g lo hi l hq
    induction l with
    | nil => simp
    | cons a l ih =>
      have ha := hq a List.mem_cons_self
      obtain ⟨i1, i2⟩ := ih fun q hq' => hq q (List.mem_cons_of_mem _ hq')
      rw [List.map_cons, List.sum_cons, List.length_cons, Nat.mul_succ, Nat.mul_succ]
      omega
  have ar : (areaOf b).left < 2 ^ 32 ∧ (areaOf b).right < 2 ^ 32 ∧ (areaOf b).top < 2 ^ 32 ∧ (areaOf b).bottom < 2 ^ 32 ∧
      0 < (areaOf b).right ∧ 0 < (areaOf b).bottom := by
    obtain ⟨q, hq⟩ := List.exists_mem_of_ne_nil _ hpne
    have hq' := hin q hq
    have hA : (areaOf b).right < 2 ^ 32 ∧ (areaOf b).bottom < 2 ^ 32 := by
      unfold areaOf u32
      split <;> simp only <;> omega
    omega
  obtain ⟨a1, a2, a3, a4, a5, a6⟩ := ar
  obtain ⟨x1, x2⟩ := bound Prod.fst (areaOf b).left ((areaOf b).right - 1) b.point fun q hq => ⟨(hin q hq).1, by have := (hin q hq).2.1; omega⟩
  obtain ⟨y1, y2⟩ := bound Prod.snd (areaOf b).top ((areaOf b).bottom - 1) b.point fun q hq => ⟨(hin q hq).2.2.1, by have := (hin q hq).2.2.2; omega⟩
  -- a rounding keeps bounds which are integers
  have low : ∀ (n S : Nat), n < 2 ^ 32 → n * b.point.length ≤ S → (n : Rat) ≤ rnd ((S : Rat) / b.point.length) := by
    intro n S hn2 hS
    have e := hr.int (n : ℤ) (by rw [abs_of_nonneg (by omega)]; omega)
    rw [Int.cast_natCast] at e
    rw [← e]
    apply hr.mono
    rw [le_div_iff₀ hn']
    exact_mod_cast hS
  have high : ∀ (n S : Nat), n < 2 ^ 32 → S ≤ n * b.point.length → rnd ((S : Rat) / b.point.length) ≤ (n : Rat) := by
    intro n S hn2 hS
    have e := hr.int (n : ℤ) (by rw [abs_of_nonneg (by omega)]; omega)
    rw [Int.cast_natCast] at e
    rw [← e]
    apply hr.mono
    rw [div_le_iff₀ hn']
    exact_mod_cast hS
  refine ⟨h4 b hb s1 s2, ?_⟩
  unfold centerOf
  rw [accumulate_small s1, accumulate_small s2]
  simp only [Int.cast_natCast]
  have r1 := high _ _ (by omega) x2
  have r2 := high _ _ (by omega) y2
  rw [Nat.cast_sub (by omega), Nat.cast_one] at r1 r2
  exact ⟨low _ _ a1 x1, r1, low _ _ a3 y1, r2⟩

theorem sum_range (n : Nat) : 2 * (List.range (n + 1)).sum = n * (n + 1) := by
  induction n with
  | zero => rfl
  | succ n ih =>
    rw [List.range_succ, List.sum_append, Nat.mul_add, ih]
    simp
    ring

/-- C120 does not hold in general: the centre of a row of 65538 pixels is at a negative coordinate. -/
theorem C120_wrong {rnd : Rat → Rat} (hr : Rounding rnd) : ∃ (m : BMem) (v : View) (w h : Nat) (thr : UInt8) (bs : List BlobInfo) (b : BlobInfo), One m v w h ∧ v.img.cc = 1 ∧
    (w + 2) * (h + 2) < 2 ^ 32 ∧ find v w h Params.none thr m = .ok bs m ∧ b ∈ bs ∧ (centerOf rnd b).1 < 0 ∧ ¬ IsCentre rnd b.point (centerOf rnd b) := by
  obtain ⟨bs, b, e, hb, k, hnd, hp⟩ := white_found (w := 65538) (by omega) (by omega)
  have hperm : b.point.Perm ((List.range 65538).map fun i => (i, 0)) := by
    rw [List.perm_ext_iff_of_nodup hnd]
    · intro p
      rw [hp p, List.mem_map]
      constructor
      · rintro ⟨p1, p2⟩
        exact ⟨p.1, List.mem_range.2 p1, by rw [← p2]⟩
      · rintro ⟨i, hi, rfl⟩
        exact ⟨List.mem_range.1 hi, rfl⟩
    · exact List.Nodup.map (fun a b hab => by simpa using hab) List.nodup_range
  have hsum : (b.point.map Prod.fst).sum = 2147581953 := by
    rw [(hperm.map Prod.fst).sum_nat, List.map_map]
    have e1 : (Prod.fst ∘ fun i : Nat => (i, 0)) = id := rfl
    rw [e1, List.map_id]
    have := sum_range 65537
    rw [show 65537 + 1 = 65538 from rfl] at this
    omega
  have hlen : b.point.length = 65538 := by
    rw [hperm.length_eq, List.length_map, List.length_range]
  have hneg : (centerOf rnd b).1 < 0 := by
    unfold centerOf
    rw [accumulate_eq, hsum, hlen]
    have e1 : int32 (2147581953 % 4294967296) = -2147385343 := by decide
    simp only [e1]
    have e2 := hr.int (-1) (by norm_num)
    have e3 := hr.mono (((-2147385343 : ℤ) : Rat) / ((65538 : Nat) : Rat)) ((-1 : ℤ) : Rat) (by norm_num)
    rw [e2] at e3
    refine lt_of_le_of_lt e3 (by norm_num)
  refine ⟨_, _, _, _, _, bs, b, one_white (by omega) (by omega), rfl, by omega, e, hb, hneg, fun hc => ?_⟩
  obtain ⟨x, _, h1, _, h2⟩ := hc
  rw [hsum, hlen] at h1
  rw [h2] at hneg
  simp only at hneg
  have hx : 0 ≤ x := by
    push_cast at h1
    linarith
  have h0 := hr.int 0 (by norm_num)
  have := hr.mono 0 x hx
  rw [Int.cast_zero] at h0
  linarith

/-! ### C121: elongation and circularity -/

theorem fabs_nonneg (a : Rat) : 0 ≤ fabs a := by
  unfold fabs
  split <;> linarith

/-- A sum of numbers which are not negative, rounded after each addition -/
theorem foldl_nonneg {rnd : Rat → Rat} (hr : ∀ a, 0 ≤ a → 0 ≤ rnd a) {α : Type} (f : α → Rat) (hf : ∀ a, 0 ≤ f a) (l : List α) (t : Rat)
    (ht : 0 ≤ t) : 0 ≤ l.foldl (fun acc p => rnd (acc + f p)) t := by
  induction l generalizing t with
  | nil => exact ht
  | cons a l ih => exact ih _ (hr _ (add_nonneg ht (hf a)))

theorem round_nonneg {rnd : Rat → Rat} (hr : Rounding rnd) {a : Rat} (ha : 0 ≤ a) : 0 ≤ rnd a := by
  have h0 := hr.int 0 (by norm_num)
  rw [Int.cast_zero] at h0
  rw [← h0]
  exact hr.mono _ _ ha

/-- C121, circularity: never above one. -/
theorem C121_circularity_most {rnd : Rat → Rat} (hr : Rounding rnd) (sqrt : Rat → Rat) {radius : Rat} (hp : 0 < radius) (b : BlobInfo) :
    circularityOf rnd sqrt radius b ≤ 1 := by
  unfold circularityOf
  simp only
  have h1 := foldl_nonneg (rnd := rnd) (fun _ => round_nonneg hr) (fun p : Nat × Nat => fabs (rnd (sqrt (rnd (rnd (rnd (p.1 - (centerOf rnd b).1) *
    rnd (p.1 - (centerOf rnd b).1)) + rnd (rnd (p.2 - (centerOf rnd b).2) * rnd (p.2 - (centerOf rnd b).2)))) - radius)))
    (fun _ => fabs_nonneg _) b.contour 0 (le_refl 0)
  have h2 : (0 : Rat) ≤ rnd (b.contour.length * radius) := round_nonneg hr (by positivity)
  have h3 := round_nonneg hr (div_nonneg h1 h2)
  have e := hr.int 1 (by norm_num)
  rw [Int.cast_one] at e
  conv_rhs => rw [← e]
  apply hr.mono
  linarith

/-- A blob moved by `(dx, dy)` -/
def moved (dx dy : Nat) (b : BlobInfo) : BlobInfo :=
  { point := b.point.map fun p => (p.1 + dx, p.2 + dy), edge := b.edge.map fun p => (p.1 + dx, p.2 + dy),
    contour := b.contour.map fun p => (p.1 + dx, p.2 + dy) }

theorem sum_moved (l : List Nat) (d : Nat) : (l.map (· + d)).sum = l.sum + l.length * d := by
  induction l with
  | nil => simp
  | cons a l ih =>
    simp only [List.map_cons, List.sum_cons, List.length_cons, ih]
    ring

/-- C121, circularity: in exact arithmetic it does not depend on the place of the blob, as long as the sums of the coordinates are below 2^31. -/
theorem C121_circularity_moved_partial (sqrt : Rat → Rat) (radius : Rat) (dx dy : Nat) {b : BlobInfo} (hne : b.point ≠ [])
    (sx : ((moved dx dy b).point.map Prod.fst).sum < 2 ^ 31) (sy : ((moved dx dy b).point.map Prod.snd).sum < 2 ^ 31) :
    circularityOf same sqrt radius (moved dx dy b) = circularityOf same sqrt radius b := by
  have hn : (0 : Rat) < b.point.length := by exact_mod_cast List.length_pos_iff.2 hne
  have ex : ((moved dx dy b).point.map Prod.fst).sum = (b.point.map Prod.fst).sum + b.point.length * dx := by
    have := sum_moved (b.point.map Prod.fst) dx
    rw [List.length_map] at this
    rw [← this]
    simp [moved, Function.comp_def]
  have ey : ((moved dx dy b).point.map Prod.snd).sum = (b.point.map Prod.snd).sum + b.point.length * dy := by
    have := sum_moved (b.point.map Prod.snd) dy
    rw [List.length_map] at this
    rw [← this]
    simp [moved, Function.comp_def]
  have ec : centerOf same (moved dx dy b) = ((centerOf same b).1 + dx, (centerOf same b).2 + dy) := by
    have hl : (moved dx dy b).point.length = b.point.length := by simp [moved]
    unfold centerOf
    rw [accumulate_small sx, accumulate_small sy, ex, ey, accumulate_small (by omega), accumulate_small (by omega), hl]
    push_cast
    simp only [Prod.mk.injEq]
    constructor <;> field_simp
  unfold circularityOf
  simp only [ec]
  have hcl : (moved dx dy b).contour = b.contour.map fun p => (p.1 + dx, p.2 + dy) := rfl
  rw [hcl, List.foldl_map, List.length_map]
  congr 3
  funext acc p
  push_cast
  rw [show ((p.1 : Rat) + dx - ((centerOf same b).1 + dx)) = p.1 - (centerOf same b).1 by ring,
    show ((p.2 : Rat) + dy - ((centerOf same b).2 + dy)) = p.2 - (centerOf same b).2 by ring]

/-- C121, elongation, what holds: it is between zero and the length (which is a `double`, so rounding changes nothing), and one for a single pixel. -/
theorem C121_elongation_partial {rnd : Rat → Rat} (hr : Rounding rnd) (o : One m v w h) (cc : v.img.cc = 1) (small : (w + 2) * (h + 2) < 2 ^ 32)
    (fits : (w - 1) * (w - 1) + (h - 1) * (h - 1) < 2 ^ 31) (sqrt : Int → Rat) (hs : ∀ n, 0 ≤ sqrt n) (hfix : ∀ n, rnd (sqrt n) = sqrt n) (trig : Nat → Nat → Rat × Rat) :
    ∃ bs, find v w h Params.none thr m = .ok bs m ∧ ∀ b, b ∈ bs → ∃ e n, elongationOf rnd sqrt trig b = some e ∧ Diameter b.point n ∧
      (n = 0 → e = 1) ∧ (0 < n → 0 ≤ e ∧ e ≤ sqrt n) := by
  obtain ⟨bs, h1, h2⟩ := find_run (thr := thr) o cc small
  refine ⟨bs, by rw [h1 _ none_sane, none_apply], fun b hb => ?_⟩
  have k := shape_of (h2.2.2 b hb)
  have hcn := (h2.2.2 b hb).contour_nodup
  obtain ⟨p, hp, q, hq, hd⟩ := k.diameter
  obtain ⟨r, e1, e2, _⟩ := (k.longest o small hd).1 (by have := dist2_room k hd; omega)
  unfold elongationOf
  by_cases hl : b.contour.length > 1
  · rw [if_pos hl, e1]
    simp only [Option.bind_eq_bind, Option.bind_some]
    refine ⟨_, _, rfl, hd, fun hz => ?_, fun _ => ?_⟩
    · -- two pixels of the contour are apart
      exfalso
      match hb' : b.contour with
      | [] => rw [hb'] at hl; simp at hl
      | [_] => rw [hb'] at hl; simp at hl
      | x :: y :: l =>
        have hne : x ≠ y := by
          rw [hb'] at hcn
          intro he
          subst he
          simp at hcn
        have hle := hd.2 x (k.sub x (by rw [hb']; simp)) y (k.sub y (by rw [hb']; simp))
        rw [hz] at hle
        apply hne
        have e0 : dist2 x y = 0 := by omega
        unfold dist2 at e0
        have a1 := Nat.eq_zero_of_add_eq_zero_right e0
        have a2 := Nat.eq_zero_of_add_eq_zero_left e0
        rw [mul_self_eq_zero] at a1 a2
        exact Prod.ext (by omega) (by omega)
    · rw [e2]
      generalize rnd (List.foldl max _ _ - List.foldl min _ _) = H
      have h1 : (1 : Rat) ≤ if H < 1 then 1 else H := by
        split
        · exact le_refl _
        · linarith
      have h0 := hs (dist2 p q : Int)
      refine ⟨round_nonneg hr (div_nonneg h0 (by linarith)), ?_⟩
      conv_rhs => rw [← hfix]
      exact hr.mono _ _ (div_le_self h0 h1)
  · rw [if_neg hl]
    refine ⟨1, _, rfl, hd, fun _ => rfl, fun hpos => ?_⟩
    exfalso
    have : p = q := by
      match hb' : b.contour with
      | [] => rw [hb'] at hp; simp at hp
      | [x] =>
        rw [hb'] at hp hq
        simp at hp hq
        rw [hp, hq]
      | x :: y :: l => rw [hb'] at hl; simp at hl
    rw [this, dist2_self] at hpos
    omega

/-- A column of four pixels at `x`, in an image of eight columns -/
def lineMem (x : Nat) : BMem where
  size b := if b = 1 then 32 else 0
  byte _ i := if i % 8 = x then 255 else 0

def lineImg : Image := ⟨1, 8, 4, 1, 8⟩

theorem one_lineMem (x : Nat) : One (lineMem x) ⟨lineImg, 0, 0⟩ 8 4 :=
  ⟨⟨by decide, by simp [lineImg, lineMem], by decide⟩, ⟨by decide, Or.inl rfl, by decide, by decide, by decide, by decide⟩⟩

/-- The blobs of a result -/
def foundBlobs : Res BMem (List BlobInfo) → Option (List (List (Nat × Nat) × List (Nat × Nat)))
  | .ok bs _ => some (bs.map fun b => (b.point, b.contour))
  | _ => none

/-- C121 does not hold in general: the elongation of the same straight line of four pixels is 1 at the left side of an image and 3 elsewhere.  Of the
    square root and the angles only the evident values are used: the angle of the vector (0, 0) is 0, that of (0, 5) is a right one. -/
theorem C121_wrong {rnd : Rat → Rat} (hr : Rounding rnd) (sqrt : Int → Rat) (trig : Nat → Nat → Rat × Rat) (hs : sqrt 9 = 3) (h0 : trig 0 0 = (1, 0)) (h5 : trig 5 0 = (0, -1)) :
    ∃ b b', (∃ bs, find ⟨lineImg, 0, 0⟩ 8 4 Params.none 1 (lineMem 0) = .ok bs (lineMem 0) ∧ b ∈ bs) ∧
      (∃ bs, find ⟨lineImg, 0, 0⟩ 8 4 Params.none 1 (lineMem 5) = .ok bs (lineMem 5) ∧ b' ∈ bs) ∧
      b.point = [(0, 0), (0, 1), (0, 2), (0, 3)] ∧ b'.point = (moved 5 0 b).point ∧ b'.contour = (moved 5 0 b).contour ∧
      elongationOf rnd sqrt trig b = some 1 ∧ elongationOf rnd sqrt trig b' = some 3 := by
  have run : ∀ x bl, foundBlobs (find ⟨lineImg, 0, 0⟩ 8 4 Params.none 1 (lineMem x)) = some [bl] →
      ∃ b : BlobInfo, (∃ bs, find ⟨lineImg, 0, 0⟩ 8 4 Params.none 1 (lineMem x) = .ok bs (lineMem x) ∧ b ∈ bs) ∧ b.point = bl.1 ∧
        b.contour = bl.2 := by
    intro x bl hf
    obtain ⟨bs, e, _⟩ := find_shapes (thr := 1) (one_lineMem x) rfl (by decide)
    rw [e] at hf
    simp only [foundBlobs, Option.some.injEq] at hf
    match bs, hf with
    | [b], hf =>
      simp at hf
      exact ⟨b, ⟨[b], e, List.mem_singleton.2 rfl⟩, by rw [← hf], by rw [← hf]⟩
  obtain ⟨b, h1, h2, h3⟩ := run 0 ([(0, 0), (0, 1), (0, 2), (0, 3)], [(0, 0), (0, 1), (0, 2), (0, 3)]) (by decide +kernel)
  obtain ⟨b', h1', h2', h3'⟩ := run 5 ([(5, 0), (5, 1), (5, 2), (5, 3)], [(5, 0), (5, 1), (5, 2), (5, 3)]) (by decide +kernel)
  have i0 := hr.int 0 (by norm_num)
  have i1 := hr.int 1 (by norm_num)
  have i2 := hr.int 2 (by norm_num)
  have i3 := hr.int 3 (by norm_num)
  push_cast at i0 i1 i2 i3
  refine ⟨b, b', h1, h1', h2, by rw [h2']; simp [moved, h2], by rw [h3']; simp [moved, h3], ?_, ?_⟩
  · have el : longest [(0, 0), (0, 1), (0, 2), (0, 3)] = some ⟨9, (0, 0), (0, 0)⟩ := by decide +kernel
    unfold elongationOf
    rw [h3, if_pos (by decide), el]
    simp only [Option.bind_eq_bind, Option.bind_some, u32, hs]
    norm_num [h0, i0, i1, i2, i3]
  · have el : longest [(5, 0), (5, 1), (5, 2), (5, 3)] = some ⟨9, (5, 0), (5, 5)⟩ := by decide +kernel
    unfold elongationOf
    rw [h3', if_pos (by decide), el]
    simp only [Option.bind_eq_bind, Option.bind_some, u32, hs]
    norm_num [h5, i0, i1, i2, i3]

/-! ### Examples -/

/-- The centre of the second blob of the image of C53, and the square of the length of the first -/
example : ∃ bs, find ⟨blobImg, 0, 0⟩ 5 4 Params.none 5 blobMem = .ok bs blobMem ∧ ∀ b, b ∈ bs →
    (b.point.map Prod.fst).sum < 2 ^ 31 → (b.point.map Prod.snd).sum < 2 ^ 31 → IsCentre double b.point (centerOf double b) := by
  obtain ⟨bs, e, h⟩ := C120_centre_partial Rounding.double (thr := 5) one_blob rfl (by decide)
  exact ⟨bs, e, fun b hb h1 h2 => (h b hb h1 h2).1⟩

example : (match find ⟨blobImg, 0, 0⟩ 5 4 Params.none 5 blobMem with
    | .ok bs _ => some (bs.map fun b => (areaOf b, (longest b.contour).map (·.distance), centerOf same b))
    | _ => none) = some [(⟨0, 4, 0, 4⟩, some 18, (11/9, 11/9)), (⟨4, 5, 1, 2⟩, some 0, (4, 1))] := by
  decide +kernel

end PV.Props
