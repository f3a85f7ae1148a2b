import Verif.PoolMore
/-
  C103: pooled GammaCorrection.  C104: pooled Normalize.  C105: pooled Resize.
-/
namespace PV.Props
open PV

/-- Only the result of the single-threaded call counts. -/
theorem PooledLike.result {Γ : Type} {n : Nat} {setup : M BMem Γ} {count : Γ → Nat}
    {body : Γ → Nat → M BMem Unit} {prog : Γ → Nat → Prog UInt8 Unit} {f g : M BMem Unit} {m : BMem}
    (h : PooledLike n setup count body prog f m) (e : f m = g m) : PooledLike n setup count body prog g m := by
  obtain ⟨a, k, m', h1, h2, h3, h4, h5, h6, h7⟩ := h
  exact ⟨a, k, m', h1, h2, h3, h4, h5, e ▸ h6, h7⟩

/-! ### C103 : GammaCorrection -/

theorem lookup_tie {m : BMem} {inp out : View} {w h : Nat} {table : List UInt8} (hlen : table.length = 256)
    (r : Ready1 m inp out w h) :
    LookupTable inp out w h table m
      = (prog1 (fun a => table[a.toNat]'(by rw [hlen]; exact UInt8.toNat_lt _)) inp out w h).run m := by
  simp only [LookupTable]
  rw [bind_ok (validate_pre_ok (vs := [inp, out]) (by simp; exact ⟨⟨r.wfi, r.fiti⟩, r.wfo, r.fito⟩))]
  have hl : (table.length != 256) = false := by simp [hlen]
  rw [hl, throwIf_false, pure_bind', bind_ok (common_ok (by simp [r.co]))]
  have hb : (fun (outX inX : Nat) (_ : Unit) => (do
        let a ← readC inp.img.data inX
        let t ← orUb table[a.toNat]?
        writeC out.img.data outX t : M BMem Unit)) = fun outX inX _ => (do
        let a ← readC inp.img.data inX
        writeC out.img.data outX (table[a.toNat]'(by rw [hlen]; exact UInt8.toNat_lt _))) := by
    funext outX inX _
    congr 1
    funext a
    rw [List.getElem?_eq_getElem (by rw [hlen]; exact UInt8.toNat_lt _)]
    rfl
  rw [hb, prog1_run]
  exact congrFun (unaryRows_fold (f := fun a => table[a.toNat]'(by rw [hlen]; exact UInt8.toNat_lt _))
    r.wfi r.wfo r.fiti r.fito r.co) m

/-- **C103.** Under every interleaving of the accesses of its tasks the pooled GammaCorrection ends with the
    memory of the single-threaded one.  The program of a task replaces every byte by one of a table. -/
theorem C103_gamma {rnd : ℚ → ℚ} (r : Rounding rnd) {pow : ℚ → ℚ → ℚ} {a gamma : ℚ} (hp : PowOk pow gamma)
    (ha : 0 ≤ a) (hg : 0 ≤ gamma) {m : BMem} {inp out : View} {w h n : Nat} (hn : 0 < n) (hn' : n < 4294967296)
    (rd : Ready1 m inp out w h) :
    ∃ f : UInt8 → UInt8, PooledLike n (poolSetupGamma inp out w h a gamma n) (fun t => t.1.length)
      (task2 (fun v1 v2 w h => GammaCorrection rnd pow v1 v2 w h a gamma) inp out) (ptask2 (prog1 f) inp out)
      (GammaCorrection rnd pow inp out w h a gamma) m := by
  obtain ⟨t, h1, h2, _⟩ := gammaTable_run r hp ha
  have hneg : (decide (a < 0) || decide (gamma < 0)) = false := by simp [ha, hg]
  have hset : poolSetupGamma inp out w h a gamma n = poolSetup2 inp out w h n := by
    simp only [poolSetupGamma, hneg, throwIf_false, pure_bind']
    exact bind_pure' _
  refine ⟨fun a => t[a.toNat]'(by rw [h2]; exact UInt8.toNat_lt _), ?_⟩
  rw [hset]
  refine pooled_unary hn hn' rd (F := fun v1 v2 w h => GammaCorrection rnd pow v1 v2 w h a gamma) fun t' ht m₁ hs => ?_
  have r' := Ready1.sub rd hs ht
  have e : GammaCorrection rnd pow (inp.sub t') (out.sub t') t'.w t'.h a gamma m₁
      = LookupTable (inp.sub t') (out.sub t') t'.w t'.h t m₁ := by
    rw [GammaCorrection, bind_ok (validate_pre_ok (vs := [inp.sub t', out.sub t'])
      (by simp; exact ⟨⟨r'.wfi, r'.fiti⟩, r'.wfo, r'.fito⟩)), GetGammaCorrectionLookupTable, hneg, throwIf_false,
      pure_bind', h1]
    rfl
  rw [e]
  exact lookup_tie h2 r'

/-- **C103.** Rectangles that do not fit are refused by the calling thread. -/
theorem C103_rejects {a gamma : ℚ} {m : BMem} {inp out : View} {w h n : Nat} (hb : Bad [inp, out] w h True) :
    poolSetupGamma inp out w h a gamma n m = .throw m := by
  rw [poolSetupGamma, bind_throw ((C48_rejects (v3 := inp) n).2.1 hb)]

/-- **C103.** Negative parameters are refused by the calling thread. -/
theorem C103_rejects_parameters {a gamma : ℚ} {m : BMem} {inp out : View} {w h n : Nat} (hn : 0 < n) (hn' : n < 4294967296)
    (o1 : One m inp w h) (o2 : One m out w h) (hneg : a < 0 ∨ gamma < 0) :
    poolSetupGamma inp out w h a gamma n m = .throw m := by
  have : (decide (a < 0) || decide (gamma < 0)) = true := by simpa using hneg
  rw [poolSetupGamma, bind_ok (poolSetup2_eq hn hn' o1.wf o2.wf o1.fit o2.fit), this]
  rfl

/-- **C103.** Different colour counts: every task throws and writes nothing. -/
theorem C103_colours {rnd : ℚ → ℚ} (r : Rounding rnd) {pow : ℚ → ℚ → ℚ} {a gamma : ℚ} (hp : PowOk pow gamma)
    (ha : 0 ≤ a) (hg : 0 ≤ gamma) {m : BMem} {inp out : View} {w h n : Nat} (hn : 0 < n) (hn' : n < 4294967296)
    (o1 : One m inp w h) (o2 : One m out w h) (hc : out.img.cc ≠ inp.img.cc) :
    ∃ t, poolSetupGamma inp out w h a gamma n m = .ok t m ∧ 0 < t.1.length ∧ ∀ i, i < t.1.length →
      ∀ m₁ : BMem, m₁.size = m.size →
        task2 (fun v1 v2 w h => GammaCorrection rnd pow v1 v2 w h a gamma) inp out t i m₁ = .throw m₁ := by
  have hneg : (decide (a < 0) || decide (gamma < 0)) = false := by simp [ha, hg]
  have hset : poolSetupGamma inp out w h a gamma n = poolSetup2 inp out w h n := by
    simp only [poolSetupGamma, hneg, throwIf_false, pure_bind']
    exact bind_pure' _
  rw [hset]
  have hT := tilesOf_tiling hn o1.fit.wpos o1.fit.hpos
  have l1 := (tilesOf_length hn o1.fit.wpos o1.fit.hpos).1
  have hset2 := poolSetup2_eq (s := m) hn hn' o1.wf o2.wf o1.fit o2.fit
  generalize tilesOf w h n = L at *
  refine ⟨_, hset2, by simpa using l1, fun i hi m₁ hs => ?_⟩
  have hi : i < L.length := by simpa using hi
  have ti := hT.tileIn (List.getElem_mem hi)
  rw [task2_eq _ inp out hi]
  have hu : ∀ v : View, One m v w h → (v.sub L[i]).U32 := by
    intro v o
    obtain ⟨_, _, _, w1, h1, _⟩ := View.facts o.wf o.fit
    have b1 := o.fit.inX
    have b2 := o.fit.inY
    have a1 := ti.inX
    have a2 := ti.inY
    exact ⟨by simp only [View.sub]; omega, by simp only [View.sub]; omega, w1, h1⟩
  have a1 := ti.inX
  have a2 := ti.inY
  obtain ⟨_, _, _, w1, h1, _⟩ := View.facts o1.wf o1.fit
  have b1 := o1.fit.inX
  have b2 := o1.fit.inY
  refine C74_rejects r hp (inp := inp.sub L[i]) (out := out.sub L[i]) ⟨?_, by omega, by omega, Or.inr fun ⟨h, _⟩ => hc h⟩
  intro v hv
  simp only [List.mem_cons, List.not_mem_nil, or_false] at hv
  rcases hv with rfl | rfl
  · exact hu _ o1
  · exact hu _ o2

/-! ### C104 : Normalize -/

/-- **C104.** The pooled Normalize of a gray-scale image.  First the histogram is collected by a pooled call; under
    every interleaving it is the histogram of the rectangle.  Then the calling thread copies the rectangle, or a second pooled call
    replaces the values; under every interleaving the memory is in the end the one which the single-threaded Normalize leaves.

    Partial: colour images are missing, see `C104_colour_wrong`; and as in C34 either the conversion of values
    out of range is assumed to give some value, or the rectangle has the values 0 and 255 or is constant. -/
theorem C104_normalize_partial {rnd : ℚ → ℚ} (r : Rounding rnd) {oob : ℚ → Option UInt8} {m : BMem} {inp out : View} {w h n : Nat}
    (hn : 0 < n) (hn' : n < 4294967296) (a : Apart1 m inp out w h) (cc : inp.img.cc = 1)
    (ho : (∀ q, (oob q).isSome) ∨ Full m inp w h) :
    ∃ hist m', withVec (Histogram inp w h) m = .ok hist m ∧
      PooledValue n (poolSetup1 inp w h n) (fun a => a.length)
        (task1 (fun v w h => withVec (Histogram v w h)) inp) (ptask1 progHistogram inp) getArray (fun _ => .ok hist m) m ∧
      Normalize rnd oob inp out w h m = .ok () m' ∧
      ((poolNormalizePlan rnd oob hist m = .ok .copy m ∧ CopyRoi inp out w h m = .ok () m') ∨
       ∃ t, ∃ hl : t.length = 256, poolNormalizePlan rnd oob hist m = .ok (.table t) m ∧
        PooledLike n (poolSetup2 inp out w h n) (fun a => a.1.length)
          (task2 (fun v1 v2 w h => LookupTable v1 v2 w h t) inp out)
          (ptask2 (prog1 fun a => t[a.toNat]'(by rw [hl]; exact UInt8.toNat_lt _)) inp out) (fun _ => .ok () m') m) := by
  have o : One m inp w h := ⟨a.wfi, a.fiti⟩
  obtain ⟨hist, h1, h2, h3⟩ := histogram_gray o cc []
  have hh : withVec (Histogram inp w h) m = .ok hist m := by rw [withVec_eq, h1]; rfl
  obtain ⟨m', e1, _, _⟩ := normalize_run r a ho
  obtain ⟨mn, mx, emm, ehm, hmm⟩ := histMinMax_gray o cc h2 h3
  have hpv := C50_histogram hn hn' o cc
  refine ⟨hist, m', hh, ?_, e1, ?_⟩
  · obtain ⟨t, k, b, p1, p2, p3, p4, p5, p6, p7⟩ := hpv
    rw [hh] at p6
    obtain rfl := (Res.ok.inj p6).1
    exact ⟨t, k, hist, p1, p2, p3, p4, p5, rfl, p7⟩
  · have hl : (hist.length != 256) = false := by simp [h2]
    have en : Normalize rnd oob inp out w h m = normalizeWith rnd oob inp out w h (mn, mx) m := by
      rw [Normalize, bind_ok (validate_pre_ok (vs := [inp, out]) (by simp; exact ⟨⟨a.wfi, a.fiti⟩, a.wfo, a.fito⟩)),
        bind_ok (common_ok (by simp [a.co])), bind_ok emm]
    rw [en, normalizeWith] at e1
    simp only at e1
    rcases Nat.lt_or_eq_of_le (UInt8.le_iff_toNat_le.1 hmm) with hlt | heq
    · right
      have hne : mn ≠ mx := fun h => by rw [h] at hlt; exact Nat.lt_irrefl _ hlt
      have plan : ∀ t, normalTable rnd oob mn mx = some t →
          poolNormalizePlan rnd oob hist m = .ok (.table t) m := by
        intro t ht
        rw [poolNormalizePlan, hl, throwIf_false, pure_bind', bind_ok ehm, if_neg (by simp; omega),
          UInt8.ofNat_toNat, UInt8.ofNat_toNat, ht]
        rfl
      by_cases hc : (mn = 0 ∧ mx = 255) ∨ mn = mx
      · rw [if_pos hc] at e1
        obtain ⟨rfl, rfl⟩ := hc.resolve_right hne
        obtain ⟨t, t1, t2, t3⟩ := normalTable_full r oob
        refine ⟨t, t2, plan t t1, PooledLike.result (C49_lookupTable t t2 hn hn' a.toReady1) ?_⟩
        obtain ⟨m₁, q1, q2⟩ := C15_lookupTable t t2 a.toReady1
        obtain ⟨m₂, s1, s2⟩ := C16_copy a.wfi a.wfo a.fiti a.fito a.co a.apart
        rw [q1]
        rw [s1] at e1
        obtain rfl := (Res.ok.inj e1).2
        simp only [t3] at q2
        rw [q2.unique s2]
      · rw [if_neg hc] at e1
        cases ht : normalTable rnd oob mn mx with
        | none =>
          rw [ht] at e1
          exact absurd e1 (by simp [ubE])
        | some t =>
          rw [ht] at e1
          simp only at e1
          have t2 : t.length = 256 := by
            by_contra hno
            have hl : (t.length != 256) = true := by simpa using hno
            rw [LookupTable, bind_ok (validate_pre_ok (vs := [inp, out])
              (by simp; exact ⟨⟨a.wfi, a.fiti⟩, a.wfo, a.fito⟩)), hl, bind_throw (throwIf_true m)] at e1
            cases e1
          exact ⟨t, t2, plan t ht, PooledLike.result (C49_lookupTable t t2 hn hn' a.toReady1) e1⟩
    · left
      have heq := UInt8.toNat_inj.1 heq
      rw [if_pos (Or.inr heq)] at e1
      refine ⟨?_, e1⟩
      rw [poolNormalizePlan, hl, throwIf_false, pure_bind', bind_ok ehm, if_pos (by simp [heq])]
      rfl

/-- **C104.** A rectangle that does not fit the input is refused before anything is written. -/
theorem C104_rejects {m : BMem} {inp : View} {w h n : Nat} (hb : Bad [inp] w h True) :
    poolSetup1 inp w h n m = .throw m := (C48_rejects (v2 := inp) (v3 := inp) n).1 hb

/-- A run of `Function_Pool::Normalize` in which the tasks run one after the other. -/
def poolNormalizeRun (rnd : ℚ → ℚ) (oob : ℚ → Option UInt8) (inp out : View) (w h n : Nat) : M BMem Unit := do
  let hist ← poolRun (poolSetup1 inp w h n) (task1 (fun v w h => withVec (Histogram v w h)) inp) getArray
  let plan ← poolNormalizePlan rnd oob hist
  match plan with
  | .copy => CopyRoi inp out w h
  | .table t => do
    let a ← poolSetup2 inp out w h n
    fold (fun i _ => task2 (fun v1 v2 w h => LookupTable v1 v2 w h t) inp out a i) (List.range a.1.length) ()

/-- Three RGB pixels. -/
def colourMem : BMem where
  size b := if b = 0 then 0 else 9
  byte b i := if b = 1 then UInt8.ofNat (20 * i) else 0

/-- The content of a row of bytes after a call. -/
def rowAfter (b n : Nat) : Res BMem Unit → Option (List UInt8)
  | .ok _ m => some ((List.range n).map (m.byte b))
  | _ => none

/-- The call has thrown. -/
def isThrow {μ α : Type} : Res μ α → Bool
  | .throw _ => true
  | _ => false

/-- C104 is false for colour images: the histogram has 256 counters for every channel, and the pooled Normalize
    refuses it; the single-threaded one stretches the contrast of such images.  For the image of one
    pixel the histogram runs out of the image (C24), which is undefined. -/
theorem C104_colour_wrong :
    isThrow (poolNormalizeRun id (fun _ => some 0) ⟨⟨1, 3, 1, 3, 9⟩, 0, 0⟩ ⟨⟨2, 3, 1, 3, 9⟩, 0, 0⟩ 3 1 1 colourMem) = true ∧
    rowAfter 2 9 (Normalize id (fun _ => some 0) ⟨⟨1, 3, 1, 3, 9⟩, 0, 0⟩ ⟨⟨2, 3, 1, 3, 9⟩, 0, 0⟩ 3 1 colourMem)
      = some [0, 32, 64, 96, 128, 159, 191, 223, 255] ∧
    isUb (poolNormalizeRun id (fun _ => some 0) ⟨⟨1, 1, 1, 3, 3⟩, 0, 0⟩ ⟨⟨2, 1, 1, 3, 3⟩, 0, 0⟩ 1 1 1 colourMem) = true := by
  refine ⟨?_, ?_, ?_⟩ <;> decide +kernel

/-- A histogram which does not have 256 counters is always refused. -/
theorem C104_rejects_histogram {rnd : ℚ → ℚ} {oob : ℚ → Option UInt8} {m : BMem} {hist : List UInt32} (h : hist.length ≠ 256) :
    poolNormalizePlan rnd oob hist m = .throw m := by
  have : (hist.length != 256) = true := by simpa using h
  rw [poolNormalizePlan, this, bind_throw (throwIf_true m)]

/-! ### C105 : Resize -/

/-- A line of `so` output pixels is made from a line of `si` input pixels in `k` parts: both are cut into `k` parts
    (the first ones are one pixel longer if the length is not a multiple of `k`), and part `i` of the output is part `i`
    of the input, resized by the nearest pixel to the left. -/
def InParts (si so k : Nat) (src : Nat → Nat) : Prop :=
  ∀ i, i < k → ∀ d, d < cut so k (i + 1) - cut so k i →
    src (cut so k i + d) = cut si k i + d * (cut si k (i + 1) - cut si k i) % 2 ^ 32 / (cut so k (i + 1) - cut so k i)

/-- **C105.** What the pooled Resize does, exactly: under every interleaving of the accesses of its tasks it
    resizes in parts, either rows or columns, as many as there are threads at most. -/
theorem C105_resize_parts {m : BMem} {inp out : View} {wi hi wo ho n : Nat} (hn : 0 < n)
    (hn' : n < 4294967296) (p : Pair m inp wi hi out wo ho) (co : out.img.cc = inp.img.cc) :
    ∃ (kx ky : Nat) (srcX srcY : Nat → Nat) (m' : BMem), (kx = 1 ∨ ky = 1) ∧ 0 < kx * ky ∧ kx * ky ≤ n ∧
      InParts wi wo kx srcX ∧ InParts hi ho ky srcY ∧
      WritesRoi m m' out wo ho (fun x y c => inp.get m (srcX x) (srcY y) c) ∧
      PooledLike n (poolSetupResize inp wi hi out wo ho n) (fun a => a.1.length)
        (taskSizes Resize inp out) (ptaskSizes progResize inp out) (fun _ => .ok () m') m := by
  obtain ⟨kx, ky, srcX, srcY, ms, h1, h2, h3, h4, _, _, _, _, _, h5, h6, h7, h8⟩ := pooled_resize hn hn' p co
  exact ⟨kx, ky, srcX, srcY, ms, h1, Nat.mul_pos h2 h3, h4, h5, h6, h7, h8⟩

/-- The length of every part, if all have the same. -/
theorem cut_dvd {s k i : Nat} (h : k ∣ s) : cut s k i = i * (s / k) := by
  rw [cut, Nat.mod_eq_zero_of_dvd h, Nat.min_zero, Nat.add_zero]

theorem inParts_dvd {si so k : Nat} {src : Nat → Nat} (hk : 0 < k) (h : InParts si so k src) (d1 : k ∣ si) (d2 : k ∣ so)
    (hs : (so - 1) * si < 2 ^ 32) {q : Nat} (hq : q < so) : src q = q * si / so := by
  obtain ⟨i, hi, l1, l2⟩ := cut_find hk hq
  have e := h i hi (q - cut so k i) (by omega)
  rw [Nat.add_sub_cancel' l1] at e
  rw [e]
  obtain ⟨a, rfl⟩ := d1
  obtain ⟨b, rfl⟩ := d2
  have c1 : ∀ i, cut (k * a) k i = i * a := fun i => by
    rw [cut_dvd (Nat.dvd_mul_right _ _), Nat.mul_div_cancel_left _ hk]
  have c2 : ∀ i, cut (k * b) k i = i * b := fun i => by
    rw [cut_dvd (Nat.dvd_mul_right _ _), Nat.mul_div_cancel_left _ hk]
  rw [c2] at l1
  rw [c2] at l2
  rw [c1, c1, c2, c2, Nat.succ_mul, Nat.succ_mul, Nat.add_sub_cancel_left, Nat.add_sub_cancel_left]
  have hb : 0 < b := by
    rcases Nat.eq_zero_or_pos b with rfl | hb
    · simp at hq
    · exact hb
  have hle : (q - i * b) * a ≤ (k * b - 1) * (k * a) :=
    Nat.mul_le_mul (by omega) (Nat.le_mul_of_pos_left _ hk)
  rw [Nat.mod_eq_of_lt (by omega), show q * (k * a) = k * (q * a) by ring, Nat.mul_div_mul_left _ _ hk]
  have e3 : q * a = (q - i * b) * a + b * (i * a) := by
    have : q * a = (q - i * b + i * b) * a := by rw [Nat.sub_add_cancel l1]
    rw [this]
    ring
  rw [e3, Nat.add_mul_div_left _ _ hb, Nat.add_comm]

theorem inParts_same {s k : Nat} {src : Nat → Nat} (hk : 0 < k) (h : InParts s s k src)
    (hs : (s - 1) * s < 2 ^ 32) {q : Nat} (hq : q < s) : src q = q := by
  obtain ⟨i, hi, l1, l2⟩ := cut_find hk hq
  have e := h i hi (q - cut s k i) (by omega)
  rw [Nat.add_sub_cancel' l1] at e
  have hle := cut_le_total (total := s) (n := k) (i := i + 1) hk (by omega)
  have : (q - cut s k i) * (cut s k (i + 1) - cut s k i) ≤ (s - 1) * s := Nat.mul_le_mul (by omega) (by omega)
  rw [e, Nat.mod_eq_of_lt (by omega), Nat.mul_div_cancel _ (by omega)]
  omega

/-- **C105.** The pooled Resize is the same as the single-threaded Resize, if the number of threads divides both heights,
    or if the size does not change.

    Partial: for other sizes the result is different, see `C105_resize_wrong`. -/
theorem C105_resize_partial {m : BMem} {inp out : View} {wi hi wo ho n : Nat} (hn : 0 < n)
    (hn' : n < 4294967296) (p : Pair m inp wi hi out wo ho) (co : out.img.cc = inp.img.cc)
    (hx : (wo - 1) * wi < 2 ^ 32) (hy : (ho - 1) * hi < 2 ^ 32) (hc : (n ∣ hi ∧ n ∣ ho) ∨ (wi = wo ∧ hi = ho)) :
    PooledLike n (poolSetupResize inp wi hi out wo ho n) (fun a => a.1.length)
      (taskSizes Resize inp out) (ptaskSizes progResize inp out) (Resize inp wi hi out wo ho) m := by
  obtain ⟨kx, ky, srcX, srcY, ms, _, h2, h3, _, _, _, _, _, hrows, h5, h6, h7, h8⟩ := pooled_resize hn hn' p co
  obtain ⟨m', e1, e2⟩ := C31_resize_partial p co hx hy
  refine PooledLike.result h8 ?_
  rw [e1]
  have hX : ∀ x, x < wo → srcX x = x * wi / wo := by
    intro x hx'
    rcases hc with ⟨d1, d2⟩ | ⟨rfl, rfl⟩
    · have n1 := Nat.le_of_dvd p.fiti.hpos d1
      have n2 := Nat.le_of_dvd p.fito.hpos d2
      obtain ⟨rfl, rfl⟩ := hrows n1 n2
      exact inParts_dvd (by decide) h5 (Nat.one_dvd _) (Nat.one_dvd _) hx hx'
    · rw [inParts_same h2 h5 hx hx', Nat.mul_div_cancel _ p.fiti.wpos]
  have hY : ∀ y, y < ho → srcY y = y * hi / ho := by
    intro y hy'
    rcases hc with ⟨d1, d2⟩ | ⟨rfl, rfl⟩
    · have n1 := Nat.le_of_dvd p.fiti.hpos d1
      have n2 := Nat.le_of_dvd p.fito.hpos d2
      obtain ⟨rfl, rfl⟩ := hrows n1 n2
      exact inParts_dvd hn h6 d1 d2 hy hy'
    · rw [inParts_same h3 h6 hy hy', Nat.mul_div_cancel _ p.fiti.hpos]
  have hsame : WritesRoi m ms out wo ho (fun x y c => inp.get m (x * wi / wo) (y * hi / ho) c) := by
    refine ⟨h7.size_eq, fun x y c hx' hy' hc' => ?_, h7.outside⟩
    rw [h7.inside x y c hx' hy' hc', hX x hx', hY y hy']
  rw [hsame.unique e2]

/-- **C105.** With one thread the result is always that of the single-threaded Resize, also if products overflow. -/
theorem C105_one_thread {m : BMem} {inp out : View} {wi hi wo ho : Nat} (p : Pair m inp wi hi out wo ho)
    (co : out.img.cc = inp.img.cc) :
    PooledLike 1 (poolSetupResize inp wi hi out wo ho 1) (fun a => a.1.length)
      (taskSizes Resize inp out) (ptaskSizes progResize inp out) (Resize inp wi hi out wo ho) m := by
  obtain ⟨kx, ky, srcX, srcY, ms, _, h2, h3, h4, _, _, _, _, _, h5, h6, h7, h8⟩ := pooled_resize (n := 1) (by decide) (by decide) p co
  obtain ⟨m', e1, e2⟩ := C31_resize_wrapped p co
  have k1 : kx = 1 := by
    have : kx ≤ kx * ky := Nat.le_mul_of_pos_right _ h3
    omega
  have k2 : ky = 1 := by
    have : ky ≤ kx * ky := Nat.le_mul_of_pos_left _ h2
    omega
  subst k1 k2
  refine PooledLike.result h8 ?_
  rw [e1]
  have hsame : WritesRoi m ms out wo ho (fun x y c => inp.get m (x * wi % 2 ^ 32 / wo) (y * hi % 2 ^ 32 / ho) c) := by
    refine ⟨h7.size_eq, fun x y c hx' hy' hc' => ?_, h7.outside⟩
    have q1 := h5 0 (by decide) x (by rw [cut_one_one, cut_one_zero]; exact hx')
    have q2 := h6 0 (by decide) y (by rw [cut_one_one, cut_one_zero]; exact hy')
    simp only [cut_one_one, cut_one_zero, sample, u32, Nat.zero_add, Nat.sub_zero] at q1 q2
    rw [h7.inside x y c hx' hy' hc', q1, q2]
    rfl
  rw [hsame.unique e2]

/-- **C105.** Rectangles that do not fit are refused by the calling thread. -/
theorem C105_rejects {m : BMem} {inp out : View} {wi hi wo ho n : Nat} (ui : inp.U32) (uo : out.U32)
    (hwi : wi < 2 ^ 32) (hhi : hi < 2 ^ 32) (hwo : wo < 2 ^ 32) (hho : ho < 2 ^ 32)
    (hbad : ¬ inp.Fits wi hi ∨ ¬ out.Fits wo ho) : poolSetupResize inp wi hi out wo ho n m = .throw m := by
  rw [poolSetupResize]
  refine rois_bad_then (cond := out.Fits wo ho) ⟨by simp [ui], hwi, hhi, by simpa using hbad⟩ fun hn => ?_
  exact rois_bad_then (cond := True) ⟨by simp [uo], hwo, hho, Or.inl ⟨out, by simp, hn⟩⟩ fun h => absurd trivial h

/-- A run of the pooled Resize in which the tasks run one after the other. -/
def poolResizeRun (inp : View) (wi hi : Nat) (out : View) (wo ho n : Nat) : M BMem Unit := do
  let a ← poolSetupResize inp wi hi out wo ho n
  fold (fun i _ => taskSizes Resize inp out a i) (List.range a.1.length) ()

/-- A column of three pixels. -/
def columnMem : BMem where
  size b := if b = 0 then 0 else 3
  byte b i := if b = 1 then UInt8.ofNat (10 * i) else 0

/-- C105 is false: of a column of three pixels two are made; two threads take the last pixel, the single-threaded
    function the middle one. -/
theorem C105_resize_wrong :
    rowAfter 2 2 (poolResizeRun ⟨⟨1, 1, 3, 1, 1⟩, 0, 0⟩ 1 3 ⟨⟨2, 1, 2, 1, 1⟩, 0, 0⟩ 1 2 2 columnMem) = some [0, 20] ∧
    rowAfter 2 2 (Resize ⟨⟨1, 1, 3, 1, 1⟩, 0, 0⟩ 1 3 ⟨⟨2, 1, 2, 1, 1⟩, 0, 0⟩ 1 2 columnMem) = some [0, 10] := by
  constructor <;> decide +kernel

/-! ### Concrete cases -/

example : ∃ f : UInt8 → UInt8, PooledLike 2 (poolSetupGamma ⟨tight 1, 0, 0⟩ ⟨padded 2, 0, 0⟩ 2 2 2 1 2) (fun t => t.1.length)
    (task2 (fun v1 v2 w h => GammaCorrection double (fun x _ => x) v1 v2 w h 2 1) ⟨tight 1, 0, 0⟩ ⟨padded 2, 0, 0⟩)
    (ptask2 (prog1 f) ⟨tight 1, 0, 0⟩ ⟨padded 2, 0, 0⟩)
    (GammaCorrection double (fun x _ => x) ⟨tight 1, 0, 0⟩ ⟨padded 2, 0, 0⟩ 2 2 2 1) exMem :=
  C103_gamma Rounding.double ⟨fun _ h => h, fun _ _ _ h => h⟩ (by norm_num) (by norm_num) (by decide) (by decide)
    apart1_ex.toReady1

/-- Two threads. -/
example := C104_normalize_partial Rounding.double (oob := fun _ => some 0) (n := 2) (by decide) (by decide) apart1_ex rfl
  (Or.inl fun _ => rfl)
example : rowAfter 2 6 (poolNormalizeRun id (fun _ => some 0) ⟨tight 1, 0, 0⟩ ⟨padded 2, 0, 0⟩ 2 2 2 exMem)
    = rowAfter 2 6 (Normalize id (fun _ => some 0) ⟨tight 1, 0, 0⟩ ⟨padded 2, 0, 0⟩ 2 2 exMem) := by decide +kernel

/-- From 2 x 2 to 3 x 1 with 4 threads: one row only, hence one task. -/
example := C105_resize_parts (n := 4) (by decide) (by decide) pair_resize rfl
/-- From 2 x 2 to 2 x 2 with 2 threads. -/
example := C105_resize_partial (n := 2) (by decide) (by decide) pair_ex rfl (by decide) (by decide) (Or.inl ⟨by decide, by decide⟩)

end PV.Props
