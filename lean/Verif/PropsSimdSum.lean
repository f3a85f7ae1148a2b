import Verif.SimdVec
import Verif.PropsSimd
/-
  Property C51 for the functions that collect numbers: Sum, ProjectionProfile, Accumulate.
-/
namespace PV.Props

open PV.Simd (Kind nsum num)

theorem num_rowByte {m : BMem} {v : View} {w h : Nat} (o : One m v w h) (y k : Nat) :
    num m v.img.data (v.start v.img.cc + y * v.img.rowSize + k) = (rowByte m v y k).toNat := by
  have e := View.start_cell o.wf o.fit (k / v.img.cc) y (k % v.img.cc)
  rw [Nat.mul_comm (k / _), Nat.div_add_mod] at e
  rw [e]
  rfl

theorem num_merged {m : BMem} {v : View} {w h : Nat} (o : One m v w h) {j t : Nat}
    (hj : j < (optimiseRoi (w * v.img.cc) h [v.img]).2) (ht : t < (optimiseRoi (w * v.img.cc) h [v.img]).1) :
    num m v.img.data (v.start v.img.cc + j * v.img.rowSize + t)
      = (rowByte m v ((j * (optimiseRoi (w * v.img.cc) h [v.img]).1 + t) / (w * v.img.cc))
          ((j * (optimiseRoi (w * v.img.cc) h [v.img]).1 + t) % (w * v.img.cc))).toNat := by
  obtain ⟨q, hq, _, he⟩ := Simd.opt_pos o.wf o.fit (imgs := [v.img]) (by simp) hj ht
  rw [he, ← hq]
  rfl

theorem merged_area (w h : Nat) (imgs : List Image) (hh : 0 < h) :
    (optimiseRoi w h imgs).2 * (optimiseRoi w h imgs).1 = h * w := by
  rcases optimiseRoi_cases w h imgs hh with he | ⟨he, _, _⟩ <;> rw [he]
  rw [Nat.one_mul]

theorem nsum_rows {m : BMem} {v : View} {w h : Nat} (o : One m v w h) :
    nsum (fun j => nsum (fun t => num m v.img.data (v.start v.img.cc + j * v.img.rowSize + t))
        (optimiseRoi (w * v.img.cc) h [v.img]).1) (optimiseRoi (w * v.img.cc) h [v.img]).2
      = nsum (fun y => rowSum m v (w * v.img.cc) y) h := by
  obtain ⟨hcc, _⟩ := View.facts o.wf o.fit
  have hwc : 0 < w * v.img.cc := Nat.mul_pos o.fit.wpos hcc
  have e1 := Simd.nsum_blocks (fun q => (rowByte m v (q / (w * v.img.cc)) (q % (w * v.img.cc))).toNat)
    (optimiseRoi (w * v.img.cc) h [v.img]).1 (optimiseRoi (w * v.img.cc) h [v.img]).2
  have e2 := Simd.nsum_blocks (fun q => (rowByte m v (q / (w * v.img.cc)) (q % (w * v.img.cc))).toNat)
    (w * v.img.cc) h
  rw [merged_area _ _ _ o.fit.hpos] at e1
  have e3 : nsum (fun y => rowSum m v (w * v.img.cc) y) h = nsum (fun c => nsum (fun i =>
      (rowByte m v ((c * (w * v.img.cc) + i) / (w * v.img.cc)) ((c * (w * v.img.cc) + i) % (w * v.img.cc))).toNat)
        (w * v.img.cc)) h := by
    refine Simd.nsum_congr fun y _ => Simd.nsum_congr (f := fun k => (rowByte m v y k).toNat) fun k hk => ?_
    rw [Nat.mul_comm y, Nat.mul_add_div hwc, Nat.div_eq_of_lt hk, Nat.mul_add_mod, Nat.mod_eq_of_lt hk, Nat.add_zero]
  rw [e3, ← e2, e1]
  exact Simd.nsum_congr fun j hj => Simd.nsum_congr fun t ht => num_merged o hj ht

theorem total_nsum {m : BMem} {v : View} {w h : Nat} (cc : v.img.cc = 1) :
    total m v w h = nsum (fun y => rowSum m v w y) h := by
  have hr : ∀ y, rowSum m v w y = ((List.range w).map fun x => (v.get m x y 0).toNat).sum := by
    intro y
    rw [rowSum]
    congr 1
    refine List.map_congr_left fun k _ => ?_
    rw [rowByte, cc, Nat.div_one, Nat.mod_one]
  rw [total, pixels, List.map_map, nsum, grid]
  induction List.range h with
  | nil => rfl
  | cons y ys ih =>
    rw [List.flatMap_cons, List.map_append, List.sum_append, ih, List.map_cons, List.sum_cons, hr, List.map_map]
    rfl

/-- `Sum` on every kind of vector unit. -/
theorem C51_sum (k : Kind) {m : BMem} {v : View} {w h : Nat} (o : One m v w h) (cc : v.img.cc = 1) :
    ∃ s, Simd.Sum k v w h m = .ok s m ∧ Sum v w h m = .ok s m ∧ s.toNat = total m v w h % 2 ^ 32 := by
  obtain ⟨s, h1, h2⟩ := C25_sum o cc
  refine ⟨s, ?_, h1, h2⟩
  obtain ⟨_, hr, _⟩ := View.facts o.wf o.fit
  have path : ∀ k, k ≠ .cpu → Simd.sumPath k v w h m = .ok s m := by
    intro k hk
    have hb := Simd.opt_bounds o.wf o.fit (imgs := [v.img])
    have hv := fun j t => Simd.opt_valid o.wf o.fit (imgs := [v.img]) (by simp) (j := j) (t := t)
    have ht := total_nsum (m := m) (w := w) (h := h) cc
    have hn := nsum_rows o
    simp only [cc, Nat.mul_one] at hb hv hn
    rw [Simd.sumPath, bind_ok (validate_on_ok (m := m) (vs := [v]) (by simp; exact ⟨o.wf, o.fit⟩)),
      bind_ok (gray_ok (by simp [cc]))]
    refine (Simd.sumKernel_ok (by cases k <;> first | exact absurd rfl hk | decide)
      (Simd.sumsUp_step k hk) hr hb.1 hb.2 hv).trans ?_
    rw [hn, ← ht]
    refine congrArg (fun x => Res.ok x m) (UInt32.toNat_inj.1 ?_)
    rw [h2, UInt32.toNat_ofNat']
  have base : ∀ k, Simd.sumBase k v w h m = .ok s m := by
    intro k
    rw [Simd.sumBase]
    by_cases h3 : k = .cpu ∨ w < Simd.size k
    · rw [if_pos h3, h1]
    · rw [if_neg h3, path k fun h => h3 (Or.inl h)]
  rw [Simd.Sum]
  split <;> exact base _

theorem C51_sum_rejects (k : Kind) {m : BMem} {v : View} {w h : Nat} (hb : Bad [v] w h (v.img.cc = 1)) :
    Simd.Sum k v w h m = .throw m := by
  have base : ∀ k, Simd.sumBase k v w h m = .throw m := by
    intro k
    rw [Simd.sumBase]
    split
    · exact C25_sum_rejects hb
    · rw [Simd.sumPath]
      refine rois_bad_then hb fun hc => ?_
      rw [bind_throw (gray_throw ⟨v.img, by simp, hc⟩)]
  rw [Simd.Sum]
  split <;> exact base _

/-! ### ProjectionProfile -/

theorem adds_replicate (n : Nat) (g : Nat → UInt32) (k : Nat) (hk : k < n) :
    (Simd.adds (List.replicate n 0) (Simd.block 0 n g))[k]? = some (g k) := by
  rw [Simd.adds_get, List.getElem?_replicate, if_pos hk, Option.map_some, Simd.block,
    if_pos ⟨Nat.zero_le _, by omega⟩, UInt32.zero_add]

theorem list_ext_lt {a b : List UInt32} {n : Nat} (ha : a.length = n) (hb : b.length = n)
    (h : ∀ k, k < n → a[k]? = b[k]?) : a = b := by
  apply List.ext_getElem?
  intro k
  by_cases hk : k < n
  · exact h k hk
  · rw [List.getElem?_eq_none (by omega), List.getElem?_eq_none (by omega)]

/-- The vertical profile on every kind of vector unit. -/
theorem C51_projection_vertical (k : Kind) {m : BMem} {v : View} {w h : Nat} (o : One m v w h)
    (vec : List UInt32) :
    ∃ prof, Simd.ProjectionProfile k v w h false (m, vec) = .ok () (m, prof) ∧
      ProjectionProfile v w h false (m, vec) = .ok () (m, prof) ∧ prof.length = h ∧
      ∀ y, y < h → prof[y]? = some (UInt32.ofNat (rowSum m v (w * v.img.cc) y)) := by
  obtain ⟨prof, h1, h2, h3⟩ := C26_projection_vertical o vec
  refine ⟨prof, ?_, h1, h2, h3⟩
  obtain ⟨hcc, hr, _, _, _, hfit, _, _, hwcc, _⟩ := View.facts o.wf o.fit
  have path : ∀ k, k ≠ .cpu → Simd.profilePath k v w h false (m, vec) = .ok () (m, prof) := by
    intro k hk
    have hle : w * v.img.cc / Simd.size k * Simd.size k ≤ w * v.img.cc := Nat.div_mul_le_self _ _
    have e : Simd.profilePath k v w h false = (do
      validateRois [v] w h
      vecReset h
      Simd.verticalKernel (Simd.size k) (Simd.sumStepProfile k) v.img.data (v.start v.img.cc) v.img.rowSize h
        (u32 (w * v.img.cc) / Simd.size k) (u32 (u32 (w * v.img.cc) / Simd.size k * Simd.size k))
        (u32 (w * v.img.cc) - u32 (u32 (w * v.img.cc) / Simd.size k * Simd.size k))) := rfl
    rw [e, u32_of_lt hwcc, u32_of_lt (show w * v.img.cc / Simd.size k * Simd.size k < 4294967296 by omega),
      bind_ok (validate_on_ok (m := m) (vs := [v]) (by simp; exact ⟨o.wf, o.fit⟩)),
      bind_ok (show vecReset h (m, vec) = .ok () (m, List.replicate h 0) from rfl),
      Simd.verticalKernel_ok (by cases k <;> first | exact absurd rfl hk | decide)
        (Simd.sumsUp_profile k hk) hr hfit hwcc (fun j t hj ht => by
          have := read_rowByte o hj ht
          exact Classical.byContradiction fun hn => by
            rw [readC, if_neg hn] at this
            cases this) _ List.length_replicate]
    congr 2
    refine list_ext_lt (n := h) (by rw [Simd.adds_length, List.length_replicate]) h2 fun y hy => ?_
    rw [adds_replicate _ _ _ hy, h3 y hy]
    refine congrArg (fun x => some (UInt32.ofNat x)) ?_
    exact Simd.nsum_congr (g := fun k => (rowByte m v y k).toNat) fun t _ => num_rowByte o y t
  have base : ∀ k, Simd.profileBase k v w h false (m, vec) = .ok () (m, prof) := by
    intro k
    rw [Simd.profileBase]
    by_cases h4 : k = .cpu ∨ u32 (w * h * v.img.cc) < Simd.size k
    · rw [if_pos h4, h1]
    · rw [if_neg h4, path k fun h => h4 (Or.inl h)]
  rw [Simd.ProjectionProfile]
  split <;> exact base _

/-- The column that the vector unit adds to entry `j` of a group of columns as wide as a
    register: only SSE uses the right one.  AVX and AVX-512 interleave within 128-bit
    lanes, NEON reads the lower half of the register twice. -/
def profileOrder (k : Kind) (j : Nat) : Nat :=
  match k with
  | .neon => j % 8
  | .avx => 16 * (j % 8 / 4) + 4 * (j / 8) + j % 4
  | .avx512 => 16 * (j % 16 / 4) + 4 * (j / 16) + j % 4
  | _ => j

theorem widens_profile (k : Kind) (hk : k ≠ .cpu) :
    Simd.Widens (Simd.size k) (Simd.widenProfile k) (profileOrder k) := by
  have tr : ∀ {n wd pi pi'}, Simd.Widens n wd pi → (∀ j, pi' j = pi j) → Simd.Widens n wd pi' := by
    intro n wd pi pi' h hp d q i hq hi
    rw [hp]
    exact h d q i hq hi
  cases k
  case avx512 =>
    refine tr (Simd.widens_x86 4 (by decide)) fun j => ?_
    show 16 * (j % 16 / 4) + 4 * (j / 16) + j % 4 = 16 * (j % 16 / 4) + 4 * (j / 16) + j % 16 % 4
    omega
  case avx =>
    refine tr (Simd.widens_x86 2 (by decide)) fun j => ?_
    show 16 * (j % 8 / 4) + 4 * (j / 8) + j % 4 = 16 * (j % 8 / 4) + 4 * (j / 8) + j % 8 % 4
    omega
  case sse => exact tr (Simd.widens_x86 1 (by decide)) fun j => (Simd.laneOrder_sse j).symm
  case neon => exact Simd.widens_neonProfile
  case cpu => exact absurd rfl hk

theorem simd_horizontal (k : Kind) {m : BMem} {v : View} {w h : Nat} (o : One m v w h) (vec : List UInt32)
    (hk : k ≠ .cpu) :
    ∃ prof, Simd.profilePath k v w h true (m, vec) = .ok () (m, prof) ∧ prof.length = w * v.img.cc ∧
      ∀ i, i < w * v.img.cc → prof[i]? = some (UInt32.ofNat (columnSum m v h
        (Simd.source (Simd.size k) (w * v.img.cc / Simd.size k * Simd.size k) (profileOrder k) i))) := by
  obtain ⟨hcc, hr, _, _, _, hfit, _, _, hwcc, _⟩ := View.facts o.wf o.fit
  have hn : 0 < Simd.size k := by cases k <;> first | exact absurd rfl hk | decide
  have h4 : Simd.size k = 4 * (Simd.size k / 4) := by cases k <;> first | exact absurd rfl hk | decide
  have hle : w * v.img.cc / Simd.size k * Simd.size k ≤ w * v.img.cc := Nat.div_mul_le_self _ _
  have hval : ∀ j t, j < h → t < w * v.img.cc →
      m.Valid v.img.data (v.start v.img.cc + j * v.img.rowSize + t) := fun j t hj ht => by
    have := read_rowByte o hj ht
    exact Classical.byContradiction fun hn => by
      rw [readC, if_neg hn] at this
      cases this
  have e : Simd.profilePath k v w h true = (do
      validateRois [v] w h
      vecReset (u32 (w * v.img.cc))
      Simd.horizontalRegs (Simd.size k) (Simd.widenProfile k) v.img.data (v.start v.img.cc)
        (u32 (u32 (w * v.img.cc) / Simd.size k * Simd.size k)) v.img.rowSize h
      Simd.horizontalTail v.img.data
        (v.start v.img.cc + u32 (u32 (w * v.img.cc) / Simd.size k * Simd.size k))
        (u32 (u32 (w * v.img.cc) / Simd.size k * Simd.size k))
        (u32 (w * v.img.cc) - u32 (u32 (w * v.img.cc) / Simd.size k * Simd.size k)) v.img.rowSize h) := rfl
  rw [e, u32_of_lt hwcc, u32_of_lt (show w * v.img.cc / Simd.size k * Simd.size k < 4294967296 by omega),
    bind_ok (validate_on_ok (m := m) (vs := [v]) (by simp; exact ⟨o.wf, o.fit⟩)),
    bind_ok (show vecReset (w * v.img.cc) (m, vec) = .ok () (m, List.replicate (w * v.img.cc) 0) from rfl),
    bind_ok (Simd.horizontalRegs_ok hn h4 (fun _ => widens_profile k hk) hr hfit (by omega)
      (fun j t hj ht => hval j t hj (by omega)) _ (by rw [List.length_replicate]; omega)),
    Simd.horizontalTail_ok hr hfit (by omega) (fun j t hj ht => by
      have := hval j (w * v.img.cc / Simd.size k * Simd.size k + t) hj (by omega)
      rwa [show v.start v.img.cc + j * v.img.rowSize + (w * v.img.cc / Simd.size k * Simd.size k + t)
        = v.start v.img.cc + w * v.img.cc / Simd.size k * Simd.size k + j * v.img.rowSize + t from by omega] at this)
      _ (by rw [Simd.adds_length, List.length_replicate]; omega), Simd.adds_adds]
  refine ⟨_, rfl, by rw [Simd.adds_length, List.length_replicate], ?_⟩
  intro i hi
  rw [Simd.adds_get, List.getElem?_replicate, if_pos hi, Option.map_some, UInt32.zero_add]
  generalize ht : w * v.img.cc / Simd.size k * Simd.size k = T at hle
  unfold Simd.block
  by_cases h1 : i < T
  · rw [if_pos (by omega), if_neg (by omega), UInt32.add_zero]
    refine congrArg (fun x => some (UInt32.ofNat x)) ?_
    exact Simd.nsum_congr (g := fun y => (rowByte m v y _).toNat) fun y _ => num_rowByte o y _
  · rw [if_neg (by omega), if_pos (by omega), UInt32.zero_add]
    refine congrArg (fun x => some (UInt32.ofNat x)) ?_
    have hs : Simd.source (Simd.size k) T (profileOrder k) i = i := by rw [Simd.source, if_neg h1]
    rw [hs]
    refine Simd.nsum_congr (g := fun y => (rowByte m v y i).toNat) fun y _ => ?_
    rw [← num_rowByte o y i]
    exact congrArg (num m v.img.data) (by omega)

/-- The horizontal profile is right on SSE, and on the other kinds for images narrower than
    a register.  What is missing for the full claim: wider images on AVX, AVX-512 and NEON,
    for which it is false (`C51_projection_horizontal_shuffled`). -/
theorem C51_projection_horizontal_partial (k : Kind) {m : BMem} {v : View} {w h : Nat} (o : One m v w h)
    (vec : List UInt32) (hk : k = .sse ∨ k = .cpu ∨ w * v.img.cc < Simd.size k) :
    ∃ prof, Simd.ProjectionProfile k v w h true (m, vec) = .ok () (m, prof) ∧
      ProjectionProfile v w h true (m, vec) = .ok () (m, prof) ∧ prof.length = w * v.img.cc ∧
      ∀ i, i < w * v.img.cc → prof[i]? = some (UInt32.ofNat (columnSum m v h i)) := by
  obtain ⟨prof, h1, h2, h3⟩ := C26_projection_horizontal o vec
  refine ⟨prof, ?_, h1, h2, h3⟩
  have path : ∀ k, k ≠ .cpu → (k = .sse ∨ w * v.img.cc < Simd.size k) →
      Simd.profilePath k v w h true (m, vec) = .ok () (m, prof) := by
    intro k hk hor
    obtain ⟨prof', p1, p2, p3⟩ := simd_horizontal k o vec hk
    rw [p1]
    congr 2
    refine list_ext_lt p2 h2 fun i hi => ?_
    rw [p3 i hi, h3 i hi]
    have hs : Simd.source (Simd.size k) (w * v.img.cc / Simd.size k * Simd.size k) (profileOrder k) i = i := by
      rw [Simd.source]
      split
      · rename_i hlt
        rcases hor with rfl | hor
        · show i / Simd.size .sse * Simd.size .sse + i % Simd.size .sse = i
          rw [Nat.mul_comm, Nat.div_add_mod]
        · rw [Nat.div_eq_of_lt hor] at hlt
          omega
      · rfl
    rw [hs]
  have base : ∀ k, (k = .sse ∨ k = .cpu ∨ w * v.img.cc < Simd.size k) →
      Simd.profileBase k v w h true (m, vec) = .ok () (m, prof) := by
    intro k hor
    rw [Simd.profileBase]
    by_cases h4 : k = .cpu ∨ u32 (w * h * v.img.cc) < Simd.size k
    · rw [if_pos h4, h1]
    · rw [if_neg h4, path k (fun h => h4 (Or.inl h))
        (hor.imp_right fun h => h.resolve_left fun h => h4 (Or.inl h))]
  rw [Simd.ProjectionProfile]
  split
  · exact base _ (Or.inl rfl)
  · exact base _ hk

/-- What the horizontal profile is on every vector unit when a row is at least as long as
    a register: in every group of columns the entries are exchanged as in `profileOrder`. -/
theorem C51_projection_horizontal_shuffled (k : Kind) {m : BMem} {v : View} {w h : Nat} (o : One m v w h)
    (vec : List UInt32) (hk : k ≠ .cpu) (hw : Simd.size k ≤ w * v.img.cc) :
    ∃ prof, Simd.ProjectionProfile k v w h true (m, vec) = .ok () (m, prof) ∧ prof.length = w * v.img.cc ∧
      (∀ c j, (c + 1) * Simd.size k ≤ w * v.img.cc → j < Simd.size k → prof[c * Simd.size k + j]?
        = some (UInt32.ofNat (columnSum m v h (c * Simd.size k + profileOrder k j)))) ∧
      (∀ i, w * v.img.cc / Simd.size k * Simd.size k ≤ i → i < w * v.img.cc →
        prof[i]? = some (UInt32.ofNat (columnSum m v h i))) := by
  obtain ⟨hcc, hr, _, _, _, hfit, _, _, hwcc, hle⟩ := View.facts o.wf o.fit
  have hn : 0 < Simd.size k := by cases k <;> first | exact absurd rfl hk | decide
  obtain ⟨prof, p1, p2, p3⟩ := simd_horizontal k o vec hk
  have harea : w * h * v.img.cc = h * (w * v.img.cc) := by
    rw [Nat.mul_comm w h, Nat.mul_assoc]
  have h1 : h * (w * v.img.cc) ≤ h * v.img.rowSize := Nat.mul_le_mul_left _ hle
  have h2 : 1 * (w * v.img.cc) ≤ h * (w * v.img.cc) := Nat.mul_le_mul_right _ o.fit.hpos
  have hno : ¬ u32 (w * h * v.img.cc) < Simd.size k := by
    rw [harea, u32_of_lt (by omega)]
    omega
  refine ⟨prof, ?_, p2, ?_, ?_⟩
  · rw [Simd.ProjectionProfile, if_neg (fun hp => hno (by rw [hp.1]; exact hp.2)), Simd.profileBase,
      if_neg (fun hp => hp.elim hk hno), p1]
  · intro c j hc hj
    rw [Nat.succ_mul] at hc
    rw [p3 _ (by omega), Simd.source]
    have hc' : c + 1 ≤ w * v.img.cc / Simd.size k := (Nat.le_div_iff_mul_le hn).2 (by rw [Nat.succ_mul]; exact hc)
    have : (c + 1) * Simd.size k ≤ w * v.img.cc / Simd.size k * Simd.size k := Nat.mul_le_mul_right _ hc'
    rw [Nat.succ_mul] at this
    rw [if_pos (by omega), Nat.mul_comm c, Nat.mul_add_div hn, Nat.div_eq_of_lt hj, Nat.mul_add_mod,
      Nat.mod_eq_of_lt hj, Nat.add_zero, Nat.mul_comm]
  · intro i h3 h4
    rw [p3 i h4, Simd.source, if_neg (by omega)]

theorem C51_projection_rejects (k : Kind) {m : BMem} {v : View} {w h : Nat} (vec : List UInt32) (hor : Bool)
    (hb : Bad [v] w h True) : Simd.ProjectionProfile k v w h hor (m, vec) = .throw (m, vec) := by
  have base : ∀ k, Simd.profileBase k v w h hor (m, vec) = .throw (m, vec) := by
    intro k
    rw [Simd.profileBase]
    split
    · exact C26_projection_rejects vec hor hb
    · rw [Simd.profilePath]
      exact rois_bad_then hb fun hc => absurd trivial hc
  rw [Simd.ProjectionProfile]
  split <;> exact base _

/-! ### Accumulate -/

/-- `Accumulate` of a gray-scale rectangle is right on SSE and NEON, and on AVX and AVX-512
    for images narrower than a register whose rows are padded.  Missing for the full claim:
    wider images on AVX and AVX-512 (`C51_accumulate_wrong`) and colour images, which the
    vector form refuses (`C51_accumulate_colour_refused`). -/
theorem C51_accumulate_partial (k : Kind) {m : BMem} {v : View} {w h : Nat} (o : One m v w h)
    (cc : v.img.cc = 1) (vec : List UInt32) (hlen : vec.length = h * w)
    (hk : k = .sse ∨ k = .neon ∨ k = .cpu ∨ (w < Simd.size k ∧ v.img.rowSize ≠ w)) :
    ∃ res, Simd.Accumulate k v w h (m, vec) = .ok () (m, res) ∧
      Accumulate v w h (m, vec) = .ok () (m, res) ∧ res.length = vec.length ∧
      ∀ y x, y < h → x < w →
        res[y * w + x]? = vec[y * w + x]?.map fun a => a + UInt32.ofNat (v.get m x y 0).toNat := by
  obtain ⟨res, h1, h2, h3⟩ := C27_accumulate o vec (by rw [cc, Nat.mul_one]; exact hlen)
  obtain ⟨hcc, hr, _, _, _, hfit, _, _, hwcc, hle⟩ := View.facts o.wf o.fit
  have hrb : ∀ y x, rowByte m v y x = v.get m x y 0 := by
    intro y x
    rw [rowByte, cc, Nat.div_one, Nat.mod_one]
  have hvalid := fun j t => Simd.opt_valid o.wf o.fit (imgs := [v.img]) (by simp) (j := j) (t := t)
  have hb := Simd.opt_bounds o.wf o.fit (imgs := [v.img])
  have hnum := fun j t => num_merged o (j := j) (t := t)
  have hr1 := fun y x (hy : y < h) (hx : x < w * v.img.cc) => h3 y x hy hx
  rw [cc, Nat.mul_one] at hwcc hle hvalid hb hnum hr1
  simp only [hrb] at hr1 hnum
  refine ⟨res, ?_, h1, h2, hr1⟩
  rw [Simd.Accumulate]
  by_cases h0 : k = .cpu ∨ u32 (w * h * v.img.cc) < Simd.size k
  · rw [if_pos h0, h1]
  have hk' : k ≠ .cpu := fun h => h0 (Or.inl h)
  have hn : 0 < Simd.size k := by cases k <;> first | exact absurd rfl hk' | decide
  have h4 : Simd.size k = 4 * (Simd.size k / 4) := by cases k <;> first | exact absurd rfl hk' | decide
  have harea : h * w ≤ h * v.img.rowSize := Nat.mul_le_mul_left _ hle
  have hsz : vecSizeIs (u32 (u32 (w * v.img.cc) * h)) (m, vec) = .ok () (m, vec) := by
    rw [cc, Nat.mul_one, u32_of_lt hwcc, Nat.mul_comm w h, u32_of_lt (by omega), vecSizeIs, if_pos hlen]
  rw [if_neg h0, bind_ok (validate_on_ok (m := m) (vs := [v]) (by simp; exact ⟨o.wf, o.fit⟩)),
    bind_ok (gray_ok (by simp [cc])), bind_ok hsz, cc, Nat.mul_one, u32_of_lt hwcc]
  have hW0 : 0 < (optimiseRoi w h [v.img]).1 := by
    rcases optimiseRoi_cases w h [v.img] o.fit.hpos with he | ⟨he, _, _⟩ <;> rw [he]
    · exact o.fit.wpos
    · exact Nat.mul_pos o.fit.hpos o.fit.wpos
  have hmerge := merged_area w h [v.img] o.fit.hpos
  have hwid : (optimiseRoi w h [v.img]).1 / Simd.size k ≠ 0 → Simd.Widens (Simd.size k) (Simd.widen k) id := by
    intro hne
    rcases hk with rfl | rfl | rfl | ⟨hlt, hpad⟩
    · intro d q i hq hi
      have := Simd.widens_x86 1 (by decide) d q i hq hi
      rw [Simd.laneOrder_sse] at this
      exact this
    · exact Simd.widens_neon
    · exact absurd rfl hk'
    · rcases optimiseRoi_cases w h [v.img] o.fit.hpos with he | ⟨_, he, _⟩
      · rw [he, Nat.div_eq_of_lt hlt] at hne
        exact absurd rfl hne
      · exact absurd (he v.img (by simp)) hpad
  have main := Simd.accKernel_ok (m := m) (image := v) (cc := 1) hn h4 hwid hr hb.1 hb.2 hW0 hvalid vec
    (by rw [hlen, hmerge])
  refine main.trans ?_
  congr 2
  refine list_ext_lt (n := h * w) (by rw [Simd.adds_length, hlen]) (by rw [h2, hlen]) fun q hq => ?_
  have hdm := Nat.div_add_mod q w
  rw [Nat.mul_comm] at hdm
  have hy : q / w < h := Nat.div_lt_of_lt_mul (by rw [Nat.mul_comm]; exact hq)
  have hx : q % w < w := Nat.mod_lt _ o.fit.wpos
  have e := hr1 (q / w) (q % w) hy hx
  rw [hdm] at e
  rw [e, Simd.adds_get, Simd.block, if_pos ⟨Nat.zero_le _, by rw [Nat.zero_add, hmerge]; exact hq⟩]
  have hdm2 := Nat.div_add_mod q (optimiseRoi w h [v.img]).1
  rw [Nat.mul_comm] at hdm2
  have hj : q / (optimiseRoi w h [v.img]).1 < (optimiseRoi w h [v.img]).2 :=
    Nat.div_lt_of_lt_mul (by rw [Nat.mul_comm, hmerge]; exact hq)
  have ht := Nat.mod_lt q hW0
  have hsrc : ∀ T, Simd.source (Simd.size k) T id (q % (optimiseRoi w h [v.img]).1)
      = q % (optimiseRoi w h [v.img]).1 := by
    intro T
    rw [Simd.source]
    split
    · rw [id, Nat.mul_comm, Nat.div_add_mod]
    · rfl
  rw [hsrc, hnum _ _ hj ht, hdm2]

/-- On every vector unit `Accumulate` stays inside the image and the vector. -/
theorem C51_accumulate_safe (k : Kind) {m : BMem} {v : View} {w h : Nat} (o : One m v w h)
    (cc : v.img.cc = 1) (vec : List UInt32) (hlen : vec.length = h * w) :
    ∃ res, Simd.Accumulate k v w h (m, vec) = .ok () (m, res) ∧ res.length = vec.length := by
  obtain ⟨res, h1, h2, _⟩ := C27_accumulate o vec (by rw [cc, Nat.mul_one]; exact hlen)
  obtain ⟨hcc, hr, _, _, _, hfit, _, _, hwcc, hle⟩ := View.facts o.wf o.fit
  have hvalid := fun j t => Simd.opt_valid o.wf o.fit (imgs := [v.img]) (by simp) (j := j) (t := t)
  have hb := Simd.opt_bounds o.wf o.fit (imgs := [v.img])
  rw [cc, Nat.mul_one] at hwcc hle hvalid hb
  rw [Simd.Accumulate]
  by_cases h0 : k = .cpu ∨ u32 (w * h * v.img.cc) < Simd.size k
  · exact ⟨res, by rw [if_pos h0, h1], h2⟩
  have hk' : k ≠ .cpu := fun h => h0 (Or.inl h)
  have hn : 0 < Simd.size k := by cases k <;> first | exact absurd rfl hk' | decide
  have h4 : Simd.size k = 4 * (Simd.size k / 4) := by cases k <;> first | exact absurd rfl hk' | decide
  have harea : h * w ≤ h * v.img.rowSize := Nat.mul_le_mul_left _ hle
  have hsz : vecSizeIs (u32 (u32 (w * v.img.cc) * h)) (m, vec) = .ok () (m, vec) := by
    rw [cc, Nat.mul_one, u32_of_lt hwcc, Nat.mul_comm w h, u32_of_lt (by omega), vecSizeIs, if_pos hlen]
  rw [if_neg h0, bind_ok (validate_on_ok (m := m) (vs := [v]) (by simp; exact ⟨o.wf, o.fit⟩)),
    bind_ok (gray_ok (by simp [cc])), bind_ok hsz, cc, Nat.mul_one, u32_of_lt hwcc]
  have hW0 : 0 < (optimiseRoi w h [v.img]).1 := by
    rcases optimiseRoi_cases w h [v.img] o.fit.hpos with he | ⟨he, _, _⟩ <;> rw [he]
    · exact o.fit.wpos
    · exact Nat.mul_pos o.fit.hpos o.fit.wpos
  have hmerge := merged_area w h [v.img] o.fit.hpos
  have hwid : ∃ pi, Simd.Widens (Simd.size k) (Simd.widen k) pi := by
    cases k
    case avx512 => exact ⟨_, Simd.widens_x86 4 (by decide)⟩
    case avx => exact ⟨_, Simd.widens_x86 2 (by decide)⟩
    case sse => exact ⟨_, Simd.widens_x86 1 (by decide)⟩
    case neon => exact ⟨_, Simd.widens_neon⟩
    case cpu => exact absurd rfl hk'
  obtain ⟨pi, hwid⟩ := hwid
  have main := Simd.accKernel_ok (m := m) (image := v) (cc := 1) hn h4 (fun _ => hwid) hr hb.1 hb.2 hW0 hvalid vec
    (by rw [hlen, hmerge])
  exact ⟨_, main, Simd.adds_length _ _⟩

/-- A vector of another size and a rectangle that does not fit are refused. -/
theorem C51_accumulate_rejects (k : Kind) {m : BMem} {v : View} {w h : Nat} (vec : List UInt32)
    (hwf : v.Fits w h → v.img.WF m) (cc : v.img.cc = 1)
    (hb : Bad [v] w h (vec.length = h * (w * v.img.cc))) :
    Simd.Accumulate k v w h (m, vec) = .throw (m, vec) := by
  rw [Simd.Accumulate]
  by_cases hfits : v.Fits w h
  · split
    · exact C27_accumulate_rejects vec hwf hb
    · refine rois_bad_then hb fun hc => ?_
      obtain ⟨hcc, hr, _, _, _, hfit, _, _, hwcc, hle⟩ := View.facts (hwf hfits) hfits
      have harea : h * (w * v.img.cc) ≤ h * v.img.rowSize := Nat.mul_le_mul_left _ hle
      rw [bind_ok (gray_ok (by simp [cc])), u32_of_lt hwcc, Nat.mul_comm _ h, u32_of_lt (by omega)]
      exact bind_throw (by rw [vecSizeIs, if_neg hc])
  · split
    · exact C27_accumulate_rejects vec hwf hb
    · exact bind_throw (validateRois_throw _ hb.u32 hb.hw hb.hh ⟨v, by simp, hfits⟩)

/-! ### Examples and witnesses -/

/-- 64 pixels in one row: one AVX-512 register, two AVX, four SSE or NEON registers. -/
def line (b : Nat) : View := ⟨⟨b, 64, 1, 1, 64⟩, 0, 0⟩

theorem one_line (b : Nat) (hb : b ≠ 0) : One simdMem (line b) 64 1 :=
  ⟨⟨by simp [line], by simp [line, simdMem, hb], by simp [line]⟩,
    hb, Or.inl rfl, by decide, by decide, by simp [line], by simp [line]⟩

theorem one_wide (b : Nat) (hb : b ≠ 0) : One simdMem (wide b) 17 2 := ⟨wf_wide b hb, fits_wide b hb⟩

example : ∃ s, Simd.Sum .avx512 (line 1) 64 1 simdMem = .ok s simdMem ∧ Sum (line 1) 64 1 simdMem = .ok s simdMem ∧
    s.toNat = total simdMem (line 1) 64 1 % 2 ^ 32 := C51_sum .avx512 (one_line 1 (by decide)) rfl
example : ∃ s, Simd.Sum .sse (wide 1) 17 2 simdMem = .ok s simdMem ∧ Sum (wide 1) 17 2 simdMem = .ok s simdMem ∧
    s.toNat = total simdMem (wide 1) 17 2 % 2 ^ 32 := C51_sum .sse (one_wide 1 (by decide)) rfl
example : total simdMem (wide 1) 17 2 = 3638 := by decide +kernel
example : vecOf (Simd.ProjectionProfile .avx512 (wide 1) 17 2 false (simdMem, [])) = some [2125, 1513] := by
  decide +kernel
example : vecOf (Simd.ProjectionProfile .sse (wide 1) 17 2 true (simdMem, []))
    = vecOf (ProjectionProfile (wide 1) 17 2 true (simdMem, [])) := by decide +kernel

/-- Entry `i` of the caller's vector after the call. -/
def entry (r : Res VMem Unit) (i : Nat) : Option UInt32 := (vecOf r).bind fun l => l[i]?

/-- The horizontal profile of one row is the row itself; with AVX entry 4 becomes pixel
    16, with AVX-512 as well, with NEON entry 8 becomes pixel 0. -/
theorem C51_projection_horizontal_wrong :
    One simdMem (line 1) 64 1 ∧
    entry (ProjectionProfile (line 1) 64 1 true (simdMem, [])) 4 = some 81 ∧
    entry (Simd.ProjectionProfile .avx (line 1) 64 1 true (simdMem, [])) 4 = some 213 ∧
    entry (Simd.ProjectionProfile .avx512 (line 1) 64 1 true (simdMem, [])) 4 = some 213 ∧
    entry (ProjectionProfile (line 1) 64 1 true (simdMem, [])) 8 = some 125 ∧
    entry (Simd.ProjectionProfile .neon (line 1) 64 1 true (simdMem, [])) 8 = some 37 :=
  ⟨one_line 1 (by decide), by decide +kernel, by decide +kernel, by decide +kernel, by decide +kernel,
    by decide +kernel⟩

/-- `Accumulate` with AVX and AVX-512 adds pixel 16 to entry 4. -/
theorem C51_accumulate_wrong :
    One simdMem (line 1) 64 1 ∧
    entry (Accumulate (line 1) 64 1 (simdMem, List.replicate 64 0)) 4 = some 81 ∧
    entry (Simd.Accumulate .avx (line 1) 64 1 (simdMem, List.replicate 64 0)) 4 = some 213 ∧
    entry (Simd.Accumulate .avx512 (line 1) 64 1 (simdMem, List.replicate 64 0)) 4 = some 213 :=
  ⟨one_line 1 (by decide), by decide +kernel, by decide +kernel, by decide +kernel⟩

/-- The scalar `Accumulate` takes colour images, the vector form throws. -/
theorem C51_accumulate_colour_refused :
    One simdMem ⟨⟨1, 20, 1, 3, 60⟩, 0, 0⟩ 20 1 ∧
    (vecOf (Accumulate ⟨⟨1, 20, 1, 3, 60⟩, 0, 0⟩ 20 1 (simdMem, List.replicate 60 0))).isSome ∧
    vecOf (Simd.Accumulate .sse ⟨⟨1, 20, 1, 3, 60⟩, 0, 0⟩ 20 1 (simdMem, List.replicate 60 0)) = none :=
  ⟨⟨⟨by decide, by decide, by decide⟩, by decide, by decide, by decide, by decide, by decide, by decide⟩,
    by decide +kernel, by decide +kernel⟩

end PV.Props
