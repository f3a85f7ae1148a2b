import Verif.Channel
import Verif.PropsPixel
/-
  Properties C18 - C23: functions that move pixels or change the number of channels.
-/
namespace PV.Props

/-- Refused calls: a rectangle does not fit, or the later checks (`cond`) fail. -/
theorem rois_bad_then {μ α : Type} {m : μ} {vs : List View} {w h : Nat} {cond : Prop} {k : M μ α}
    (hb : Bad vs w h cond) (hk : ¬ cond → k m = .throw m) :
    (validateRois vs w h >>= fun _ => k) m = .throw m := by
  rcases rois_dichotomy (m := m) hb with ht | ⟨ho, hc⟩
  · rw [bind_throw ht]
  · rw [bind_ok ho]
    exact hk hc

theorem validateRois_append (l₁ l₂ : List View) (w h : Nat) (k : M BMem Unit) :
    (validateRois (l₁ ++ l₂) w h >>= fun _ => k)
      = (validateRois l₁ w h >>= fun _ => validateRois l₂ w h >>= fun _ => k) := by
  induction l₁ with
  | nil => rfl
  | cons a l ih =>
    rw [List.cons_append, validateRois, validateRois, bind_assoc', bind_assoc']
    congr 1
    funext _
    exact ih

/-- Two images with distinct (or at least not overlapping) rectangles, both fitting. -/
structure Pair (m : BMem) (inp : View) (wi hi : Nat) (out : View) (wo ho : Nat) : Prop where
  wfi : inp.img.WF m
  wfo : out.img.WF m
  fiti : inp.Fits wi hi
  fito : out.Fits wo ho
  apart : Apart inp wi hi out wo ho

theorem Pair.validate {m : BMem} {inp out : View} {w h : Nat} (p : Pair m inp w h out w h)
    (k : M BMem Unit) : (validateRois [inp, out] w h >>= fun _ => k) m = k m := by
  rw [bind_ok (validate_pre_ok (vs := [inp, out])
    (by simp; exact ⟨⟨p.wfi, p.fiti⟩, p.wfo, p.fito⟩))]

/-- After a call that wrote only rectangle `out`, images keep owning their pixels. -/
theorem _root_.PV.WritesRoi.wf {m m' : BMem} {v : View} {w h : Nat} {F} (hw : WritesRoi m m' v w h F)
    {img : Image} (wf : img.WF m) : img.WF m' := Image.WF.of_size wf hw.size_eq

/-- Reading a rectangle apart from the written one. -/
theorem _root_.PV.WritesRoi.get_apart {m m' : BMem} {v u : View} {w h wu hu x y c : Nat} {F}
    (hw : WritesRoi m m' v w h F) (ha : Apart u wu hu v w h)
    (hx : x < wu) (hy : y < hu) (hc : c < u.img.cc) : u.get m' x y c = u.get m x y c := by
  refine hw.outside _ _ ?_
  rintro ⟨hb, x', y', c', hx', hy', hc', he⟩
  exact ha x y c x' y' c' hx hy hc hx' hy' hc' hb he

/-! ### C18 : Flip -/

/-- Mirror a coordinate of a line of `n` pixels if the flag is set. -/
def mirror (flag : Bool) (n i : Nat) : Nat := if flag then n - 1 - i else i

theorem mirror_lt {flag : Bool} {n i : Nat} (h : i < n) : mirror flag n i < n := by
  unfold mirror; split <;> omega

theorem mirror_mirror {flag : Bool} {n i : Nat} (h : i < n) : mirror flag n (mirror flag n i) = i := by
  unfold mirror; split <;> omega

/-- `Flip` as a walk over all pixels of the input. -/
theorem Flip_fold {m : BMem} {inp out : View} {w h : Nat} (hor ver : Bool)
    (p : Pair m inp w h out w h) (ci : inp.img.cc = 1) (co : out.img.cc = 1) :
    Flip inp out w h hor ver m
      = fold (fun q _ => copyC out.img.data (out.cell (mirror hor w q.2) (mirror ver h q.1) 0)
          inp.img.data (inp.cell q.2 q.1 0)) (grid h w) () m := by
  rw [Flip, p.validate, bind_ok (gray_ok (by simp [ci, co]))]
  have wpos := p.fito.wpos
  have hpos := p.fito.hpos
  have inY := p.fito.inY
  obtain ⟨_, hr, _, _, hhi, hfit, _, _, _, _⟩ := View.facts p.wfo p.fito
  have estart : out.start 1 = out.y * out.img.rowSize + out.x := by
    have := View.start_eq p.wfo p.fito
    rw [co, Nat.mul_one] at this
    exact this
  have ebot : u32 (u32 (out.y + h - 1) * out.img.rowSize) = (out.y + h - 1) * out.img.rowSize := by
    have h1 : (out.y + h - 1) * out.img.rowSize ≤ out.img.height * out.img.rowSize :=
      Nat.mul_le_mul_right _ (by omega)
    have := p.wfo.small
    rw [Nat.mul_comm] at this
    rw [u32_of_lt (n := out.y + h - 1) (by omega), u32_of_lt (by omega)]
  have hbotaddr : ∀ y, y < h → ((out.y + h - 1) * out.img.rowSize : Nat) - (y : Int) * out.img.rowSize
      = ((out.y + (h - 1 - y)) * out.img.rowSize : Nat) := by
    intro y hy
    have e : out.y + h - 1 = out.y + (h - 1 - y) + y := by omega
    rw [e, Nat.add_mul]
    simp only [Int.natCast_add, Int.natCast_mul]
    omega
  cases hor <;> cases ver
  · show CopyRoi inp out w h m = _
    rw [CopyRoi_fold p.wfi p.wfo p.fiti p.fito (by rw [co, ci]) p.apart, ci, fold_bytesL_one]
    rfl
  · simp only [Bool.not_false, Bool.not_true, Bool.and_false, Bool.and_true, Bool.false_eq_true,
      ↓reduceIte]
    rw [ebot, flipV_eq p.wfi p.fiti ci co p.apart]
    · rfl
    · intro y hy
      rw [View.cell, ← Nat.add_zero (_ + _), Int.natCast_add, Int.natCast_add]
      have := hbotaddr y hy
      simp only [Nat.add_zero, Int.natCast_add, co, Nat.mul_one, Int.natCast_zero, Int.add_zero]
      omega
  · simp only [Bool.not_false, Bool.not_true, Bool.and_true, Bool.false_eq_true,
      ↓reduceIte]
    rw [flipLoop_eq (σ := fun y => y) p.wfi p.fiti ci]
    · rfl
    · intro x y hx hy
      have e : ((out.y + y) * out.img.rowSize : Nat) = (out.y * out.img.rowSize : Nat) + (y : Int) * out.img.rowSize := by
        rw [Nat.add_mul]
        simp only [Int.natCast_add, Int.natCast_mul]
      rw [View.cell, estart, co]
      omega
  · simp only [Bool.not_true, Bool.and_false, Bool.and_true, Bool.false_eq_true,
      Bool.and_self, ↓reduceIte]
    rw [ebot, flipLoop_eq (σ := fun y => h - 1 - y) p.wfi p.fiti ci]
    · rfl
    · intro x y hx hy
      have := hbotaddr y hy
      rw [View.cell, co, Int.mul_neg]
      omega

theorem C18_flip {m : BMem} {inp out : View} {w h : Nat} (hor ver : Bool)
    (p : Pair m inp w h out w h) (ci : inp.img.cc = 1) (co : out.img.cc = 1) :
    ∃ m', Flip inp out w h hor ver m = .ok () m' ∧
      WritesRoi m m' out w h fun x y c => inp.get m (mirror hor w x) (mirror ver h y) c := by
  rw [Flip_fold hor ver p ci co]
  exact flip_fold p.wfi p.wfo p.fiti p.fito ci co p.apart (fun _ => mirror_lt) (fun _ => mirror_mirror)
    (fun _ => mirror_lt) (fun _ => mirror_mirror)

/-- Flipping twice with the same flags restores the rectangle (`back` may be `inp` itself
    or any other image). -/
theorem C18_flip_twice {m : BMem} {inp out back : View} {w h : Nat} (hor ver : Bool)
    (p : Pair m inp w h out w h) (p' : Pair m out w h back w h)
    (ci : inp.img.cc = 1) (co : out.img.cc = 1) (cb : back.img.cc = 1) :
    ∃ m₁ m₂, Flip inp out w h hor ver m = .ok () m₁ ∧ Flip out back w h hor ver m₁ = .ok () m₂ ∧
      ∀ x y c, x < w → y < h → c < 1 → back.get m₂ x y c = inp.get m x y c := by
  obtain ⟨m₁, h1, h2⟩ := C18_flip hor ver p ci co
  have q : Pair m₁ out w h back w h := ⟨h2.wf p'.wfi, h2.wf p'.wfo, p'.fiti, p'.fito, p'.apart⟩
  obtain ⟨m₂, h3, h4⟩ := C18_flip hor ver q co cb
  refine ⟨m₁, m₂, h1, h3, fun x y c hx hy hc => ?_⟩
  rw [h4.inside x y c hx hy (by omega), h2.inside _ _ c (mirror_lt hx) (mirror_lt hy) (by omega),
    mirror_mirror hx, mirror_mirror hy]

theorem C18_flip_rejects {m : BMem} {inp out : View} {w h : Nat} (hor ver : Bool)
    (hb : Bad [inp, out] w h (Gray1 inp out)) : Flip inp out w h hor ver m = .throw m := by
  rw [Flip, grayPrologue_bad hb]

theorem pair_ex : Pair exMem ⟨tight 1, 0, 0⟩ 2 2 ⟨padded 2, 0, 0⟩ 2 2 :=
  ⟨wf_tight 1 (by decide), wf_padded 2 (by decide), fits_tight 1 (by decide), fits_padded 2 (by decide),
    apart_of_ne _ _ _ _ (by decide)⟩

example : after (Flip ⟨tight 1, 0, 0⟩ ⟨padded 2, 0, 0⟩ 2 2 true true exMem) 2 5 = some 10 := by decide
example : after (Flip ⟨tight 1, 0, 0⟩ ⟨padded 2, 0, 0⟩ 2 2 false true exMem) 2 4 = some 10 := by decide
example : after (Flip ⟨tight 1, 0, 0⟩ ⟨padded 2, 0, 0⟩ 2 2 true false exMem) 2 4 = some 19 := by decide

/-! ### C19 : Transpose -/

theorem C19_transpose {m : BMem} {inp out : View} {w h : Nat}
    (p : Pair m inp w h out h w) (ci : inp.img.cc = 1) (co : out.img.cc = 1) :
    ∃ m', Transpose inp out w h m = .ok () m' ∧
      WritesRoi m m' out h w fun x y c => inp.get m y x c := by
  rw [Transpose, bind_ok (validate_pre_ok (vs := [inp]) (by simp; exact ⟨p.wfi, p.fiti⟩)),
    bind_ok (validate_pre_ok (vs := [out]) (by simp; exact ⟨p.wfo, p.fito⟩)),
    bind_ok (gray_ok (by simp [ci, co]))]
  exact transposeRows p.wfi p.wfo p.fiti p.fito ci co p.apart

theorem C19_transpose_twice {m : BMem} {inp out back : View} {w h : Nat}
    (p : Pair m inp w h out h w) (p' : Pair m out h w back w h)
    (ci : inp.img.cc = 1) (co : out.img.cc = 1) (cb : back.img.cc = 1) :
    ∃ m₁ m₂, Transpose inp out w h m = .ok () m₁ ∧ Transpose out back h w m₁ = .ok () m₂ ∧
      ∀ x y c, x < w → y < h → c < 1 → back.get m₂ x y c = inp.get m x y c := by
  obtain ⟨m₁, h1, h2⟩ := C19_transpose p ci co
  have q : Pair m₁ out h w back w h := ⟨h2.wf p'.wfi, h2.wf p'.wfo, p'.fiti, p'.fito, p'.apart⟩
  obtain ⟨m₂, h3, h4⟩ := C19_transpose q co cb
  refine ⟨m₁, m₂, h1, h3, fun x y c hx hy hc => ?_⟩
  rw [h4.inside x y c hx hy (by omega), h2.inside y x c hy hx (by omega)]

theorem C19_transpose_rejects {m : BMem} {inp out : View} {w h : Nat}
    (ui : inp.U32) (uo : out.U32) (hw : w < 2 ^ 32) (hh : h < 2 ^ 32)
    (hbad : ¬ inp.Fits w h ∨ ¬ out.Fits h w ∨ ¬ Gray1 inp out) :
    Transpose inp out w h m = .throw m := by
  rw [Transpose]
  refine rois_bad_then (cond := out.Fits h w ∧ Gray1 inp out)
    ⟨by simp; exact ui, hw, hh, ?_⟩ fun hc => ?_
  · rcases hbad with hb | hb | hb
    · exact Or.inl ⟨inp, by simp, hb⟩
    · exact Or.inr fun hcon => hb hcon.1
    · exact Or.inr fun hcon => hb hcon.2
  · refine rois_bad_then (cond := Gray1 inp out) ⟨by simp; exact uo, hh, hw, ?_⟩ fun hc' => ?_
    · by_cases hf : out.Fits h w
      · exact Or.inr fun hg => hc ⟨hf, hg⟩
      · exact Or.inl ⟨out, by simp, hf⟩
    · rw [bind_throw (gray_throw ?_)]
      by_cases h1 : inp.img.cc = 1
      · exact ⟨out.img, by simp, fun h2 => hc' ⟨h1, h2⟩⟩
      · exact ⟨inp.img, by simp, h1⟩

/-- A 3x2 image and its 2x3 transpose. -/
example : Pair exMem ⟨⟨1, 3, 2, 1, 4⟩, 0, 0⟩ 3 2 ⟨⟨2, 2, 3, 1, 2⟩, 0, 0⟩ 2 3 :=
  ⟨⟨by decide, by decide, by decide⟩, ⟨by decide, by decide, by decide⟩,
    ⟨by decide, Or.inl rfl, by decide, by decide, by decide, by decide⟩,
    ⟨by decide, Or.inl rfl, by decide, by decide, by decide, by decide⟩,
    apart_of_ne _ _ _ _ (by decide)⟩
example : after (Transpose ⟨⟨1, 3, 2, 1, 4⟩, 0, 0⟩ ⟨⟨2, 2, 3, 1, 2⟩, 0, 0⟩ 3 2 exMem) 2 5
    = some (10 + 36) := by decide

/-! ### C20 : ExtractChannel, Split, Merge (and ReplaceChannel) -/

theorem C20_extractChannel {m : BMem} {inp out : View} {w h ch : Nat}
    (p : Pair m inp w h out w h) (co : out.img.cc = 1) (hch : ch < inp.img.cc) :
    ∃ m', ExtractChannel inp out w h ch m = .ok () m' ∧
      WritesRoi m m' out w h fun x y _ => inp.get m x y ch := by
  rw [ExtractChannel, p.validate, bind_ok (gray_ok (by simp [co]))]
  have : decide (ch ≥ inp.img.cc) = false := by simp; omega
  rw [this, throwIf_false, pure_bind']
  exact extractRows p.wfi p.wfo p.fiti p.fito co hch p.apart

theorem C20_extractChannel_rejects {m : BMem} {inp out : View} {w h ch : Nat}
    (hb : Bad [inp, out] w h (out.img.cc = 1 ∧ ch < inp.img.cc)) :
    ExtractChannel inp out w h ch m = .throw m := by
  rw [ExtractChannel]
  refine rois_bad_then hb fun hc => ?_
  by_cases h1 : out.img.cc = 1
  · rw [bind_ok (gray_ok (by simp [h1]))]
    have : decide (ch ≥ inp.img.cc) = true := by
      simp only [ge_iff_le, decide_eq_true_eq]
      exact Nat.le_of_not_lt fun hlt => hc ⟨h1, hlt⟩
    rw [this, bind_throw (throwIf_true m)]
  · rw [bind_throw (gray_throw ⟨out.img, by simp, h1⟩)]

/-- Specification of `Split`: three gray-scale rectangles receive the channels, nothing
    else changes. -/
structure SplitSpec (m m' : BMem) (inp : View) (outs : Nat → View) (w h : Nat) : Prop where
  size_eq : m'.size = m.size
  inside : ∀ x y c, x < w → y < h → c < 3 → (outs c).get m' x y 0 = inp.get m x y c
  outside : ∀ b i, (∀ x y c, x < w → y < h → c < 3 →
    ¬ (b = (outs c).img.data ∧ i = (outs c).cell x y 0)) → m'.byte b i = m.byte b i

/-- The three outputs as a family. -/
def three (a b c : View) : Nat → View
  | 0 => a
  | 1 => b
  | _ => c

theorem C20_split {m : BMem} {inp o1 o2 o3 : View} {w h : Nat}
    (p1 : Pair m inp w h o1 w h) (p2 : Pair m inp w h o2 w h) (p3 : Pair m inp w h o3 w h)
    (a12 : Apart o1 w h o2 w h) (a13 : Apart o1 w h o3 w h) (a23 : Apart o2 w h o3 w h)
    (ci : inp.img.cc = 3) (c1 : o1.img.cc = 1) (c2 : o2.img.cc = 1) (c3 : o3.img.cc = 1) :
    ∃ m', Split inp o1 o2 o3 w h m = .ok () m' ∧ SplitSpec m m' inp (three o1 o2 o3) w h := by
  rw [Split, bind_ok (validate_pre_ok (vs := [inp]) (by simp; exact ⟨p1.wfi, p1.fiti⟩)),
    bind_ok (validate_pre_ok (vs := [o1, o2, o3])
      (by simp; exact ⟨⟨p1.wfo, p1.fito⟩, ⟨p2.wfo, p2.fito⟩, p3.wfo, p3.fito⟩)),
    bind_ok (rgb_ok (by simp [ci])), bind_ok (gray_ok (by simp [c1, c2, c3]))]
  obtain ⟨_, hr, _, _, _, hfit, _, _, hwcc, _⟩ := View.facts p1.wfi p1.fiti
  rw [ci] at hwcc
  rw [u32_of_lt hwcc, rowLoop4_eq () hr (by decide) hfit hwcc]
  have hP : ∀ c, c < 3 → Pair m inp w h (three o1 o2 o3 c) w h ∧ (three o1 o2 o3 c).img.cc = 1 := by
    intro c hc
    match c, hc with
    | 0, _ => exact ⟨p1, c1⟩
    | 1, _ => exact ⟨p2, c2⟩
    | 2, _ => exact ⟨p3, c3⟩
  have hA : ∀ c c', c < c' → c' < 3 → Apart (three o1 o2 o3 c) w h (three o1 o2 o3 c') w h := by
    intro c c' hlt hc
    match c, c', hlt, hc with
    | 0, 1, _, _ => exact a12
    | 0, 2, _, _ => exact a13
    | 1, 2, _, _ => exact a23
    | c + 2, c', h1, h2 => omega
  have e : fold (fun (q : Nat × Nat) (_ : Unit) => (do
        copyC o1.img.data (o1.start 1 + q.1 * o1.img.rowSize + q.2 * 1) inp.img.data
          (inp.start 3 + q.1 * inp.img.rowSize + q.2 * 3)
        copyC o2.img.data (o2.start 1 + q.1 * o2.img.rowSize + q.2 * 1) inp.img.data
          (inp.start 3 + q.1 * inp.img.rowSize + q.2 * 3 + 1)
        copyC o3.img.data (o3.start 1 + q.1 * o3.img.rowSize + q.2 * 1) inp.img.data
          (inp.start 3 + q.1 * inp.img.rowSize + q.2 * 3 + 2) : M BMem Unit)) (grid h w) ()
      = fold (fun (q : Nat × Nat × Nat) (_ : Unit) =>
          copyC (three o1 o2 o3 q.2.2).img.data ((three o1 o2 o3 q.2.2).cell q.1 q.2.1 0)
            inp.img.data (inp.cell q.1 q.2.1 q.2.2)) (pixL w h [0, 1, 2]) () := by
    rw [fold_pixL]
    refine fold_congr () fun q hq => ?_
    funext _
    rw [fold_three (fun c => copyC (three o1 o2 o3 c).img.data ((three o1 o2 o3 c).cell q.2 q.1 0)
            inp.img.data (inp.cell q.2 q.1 c))]
    simp only [View.cell_addr0 p1.wfo p1.fito c1, View.cell_addr0 p2.wfo p2.fito c2,
      View.cell_addr0 p3.wfo p3.fito c3, View.cell_addr0 p1.wfi p1.fiti ci]
    rfl
  rw [e]
  have hmem : ∀ q, q ∈ pixL w h [0, 1, 2] ↔ q.1 < w ∧ q.2.1 < h ∧ q.2.2 < 3 := by
    intro q
    rw [mem_pixL]
    simp only [List.mem_cons, List.not_mem_nil, or_false]
    omega
  have hcell : ∀ x y c x' y' c', x < w → y < h → c < 3 → x' < w → y' < h → c' < 3 →
      (three o1 o2 o3 c).img.data = (three o1 o2 o3 c').img.data →
      (three o1 o2 o3 c).cell x y 0 = (three o1 o2 o3 c').cell x' y' 0 →
      x = x' ∧ y = y' ∧ c = c' := by
    intro x y c x' y' c' hx hy hc hx' hy' hc' hd he
    have q := (hP c hc)
    have q' := (hP c' hc')
    rcases Nat.lt_trichotomy c c' with hlt | heq | hlt
    · exact absurd he (hA c c' hlt hc' x y 0 x' y' 0 hx hy (by omega) hx' hy' (by omega) hd)
    · subst heq
      obtain ⟨a, b, _⟩ := cell_inj q.1.wfo.row q.1.fito.inX hx (c := 0) (by omega) hx' (c' := 0)
        (by omega) hy hy' he
      exact ⟨a, b, rfl⟩
    · exact absurd he.symm (hA c' c hlt hc x' y' 0 x y 0 hx' hy' (by omega) hx hy (by omega) hd.symm)
  obtain ⟨m', r1, r2, r3, r4⟩ := fold_writes (m := m) (L := pixL w h [0, 1, 2])
    (body := fun (q : Nat × Nat × Nat) (_ : Unit) =>
          copyC (three o1 o2 o3 q.2.2).img.data ((three o1 o2 o3 q.2.2).cell q.1 q.2.1 0)
            inp.img.data (inp.cell q.1 q.2.1 q.2.2))
    (dst := fun q => ((three o1 o2 o3 q.2.2).img.data, (three o1 o2 o3 q.2.2).cell q.1 q.2.1 0))
    (val := fun q => inp.get m q.1 q.2.1 q.2.2) (nodup_pixL nodup3)
    (by
      intro q hq q' hq' he
      obtain ⟨h1, h2, h3⟩ := (hmem q).1 hq
      obtain ⟨h1', h2', h3'⟩ := (hmem q').1 hq'
      have := Prod.mk.inj he
      obtain ⟨a, b, c⟩ := hcell _ _ _ _ _ _ h1 h2 h3 h1' h2' h3' this.1 this.2
      exact Prod.ext a (Prod.ext b c))
    (by
      intro q hq m' hag
      obtain ⟨h1, h2, h3⟩ := (hmem q).1 hq
      obtain ⟨pq, cq⟩ := hP _ h3
      rw [copyC_get pq.wfi pq.fiti pq.wfo pq.fito hag.1 h1 h2 (by omega) h1 h2 (by omega)]
      have : inp.get m' q.1 q.2.1 q.2.2 = inp.get m q.1 q.2.1 q.2.2 := by
        refine hag.2 _ _ fun q' hq' _ he => ?_
        obtain ⟨h1', h2', h3'⟩ := (hmem q').1 hq'
        obtain ⟨pq', cq'⟩ := hP _ h3'
        have he' := Prod.mk.inj he
        exact pq'.apart _ _ _ _ _ 0 h1 h2 (by omega) h1' h2' (by omega) he'.1.symm he'.2.symm
      rw [this])
  refine ⟨m', r1, r2, ?_, ?_⟩
  · intro x y c hx hy hc
    exact r3 (x, y, c) ((hmem _).2 ⟨hx, hy, hc⟩)
  · intro b i hne
    refine r4 b i fun q hq he => ?_
    obtain ⟨h1, h2, h3⟩ := (hmem q).1 hq
    have he' := Prod.mk.inj he
    exact hne _ _ _ h1 h2 h3 ⟨he'.1.symm, he'.2.symm⟩

theorem C20_split_rejects {m : BMem} {inp o1 o2 o3 : View} {w h : Nat}
    (hb : Bad [inp, o1, o2, o3] w h (inp.img.cc = 3 ∧ o1.img.cc = 1 ∧ o2.img.cc = 1 ∧ o3.img.cc = 1)) :
    Split inp o1 o2 o3 w h m = .throw m := by
  rw [Split, ← validateRois_append [inp] [o1, o2, o3]]
  refine rois_bad_then hb fun hc => ?_
  by_cases h0 : inp.img.cc = 3
  · rw [bind_ok (rgb_ok (by simp [h0])), bind_throw (gray_throw ?_)]
    by_cases h1 : o1.img.cc = 1
    · by_cases h2 : o2.img.cc = 1
      · exact ⟨o3.img, by simp, fun h3 => hc ⟨h0, h1, h2, h3⟩⟩
      · exact ⟨o2.img, by simp, h2⟩
    · exact ⟨o1.img, by simp, h1⟩
  · rw [bind_throw (rgb_throw ⟨inp.img, by simp, h0⟩)]

theorem C20_merge {m : BMem} {i1 i2 i3 out : View} {w h : Nat}
    (p1 : Pair m i1 w h out w h) (p2 : Pair m i2 w h out w h) (p3 : Pair m i3 w h out w h)
    (co : out.img.cc = 3) (c1 : i1.img.cc = 1) (c2 : i2.img.cc = 1) (c3 : i3.img.cc = 1) :
    ∃ m', Merge i1 i2 i3 out w h m = .ok () m' ∧
      WritesRoi m m' out w h fun x y c => (three i1 i2 i3 c).get m x y 0 := by
  rw [Merge, bind_ok (validate_pre_ok (vs := [i1, i2, i3])
      (by simp; exact ⟨⟨p1.wfi, p1.fiti⟩, ⟨p2.wfi, p2.fiti⟩, p3.wfi, p3.fiti⟩)),
    bind_ok (validate_pre_ok (vs := [out]) (by simp; exact ⟨p1.wfo, p1.fito⟩)),
    bind_ok (gray_ok (by simp [c1, c2, c3])), bind_ok (rgb_ok (by simp [co]))]
  obtain ⟨_, hr, _, _, _, hfit, _, _, hwcc, _⟩ := View.facts p1.wfo p1.fito
  rw [co] at hwcc
  rw [u32_of_lt hwcc, rowLoop4_eq () hr (by decide) hfit hwcc]
  have hP : ∀ c, c < 3 → Pair m (three i1 i2 i3 c) w h out w h ∧ (three i1 i2 i3 c).img.cc = 1 := by
    intro c hc
    match c, hc with
    | 0, _ => exact ⟨p1, c1⟩
    | 1, _ => exact ⟨p2, c2⟩
    | 2, _ => exact ⟨p3, c3⟩
  refine pix_fold p1.wfo p1.fito (cs := [0, 1, 2]) nodup3 (by simp [co]; omega)
    (step := fun x y c => copyC out.img.data (out.cell x y c) (three i1 i2 i3 c).img.data
      ((three i1 i2 i3 c).cell x y 0)) ?_ ?_
  · intro x y hx hy
    rw [fold_three (fun c => copyC out.img.data (out.cell x y c) (three i1 i2 i3 c).img.data
      ((three i1 i2 i3 c).cell x y 0))]
    simp only [View.cell_addr0 p1.wfi p1.fiti c1, View.cell_addr0 p2.wfi p2.fiti c2,
      View.cell_addr0 p3.wfi p3.fiti c3, View.cell_addr0 p1.wfo p1.fito co]
    rfl
  · intro x y c hx hy hc m' ho
    obtain ⟨pq, cq⟩ := hP c (by omega)
    rw [copyC_get pq.wfi pq.fiti pq.wfo pq.fito ho.size_eq hx hy hc hx hy (by omega),
      ho.get_apart pq.apart hx hy (by omega)]

theorem C20_merge_rejects {m : BMem} {i1 i2 i3 out : View} {w h : Nat}
    (hb : Bad [i1, i2, i3, out] w h (out.img.cc = 3 ∧ i1.img.cc = 1 ∧ i2.img.cc = 1 ∧ i3.img.cc = 1)) :
    Merge i1 i2 i3 out w h m = .throw m := by
  rw [Merge, ← validateRois_append [i1, i2, i3] [out]]
  refine rois_bad_then hb fun hc => ?_
  by_cases hg : i1.img.cc = 1 ∧ i2.img.cc = 1 ∧ i3.img.cc = 1
  · rw [bind_ok (gray_ok (by simp [hg])), bind_throw (rgb_throw ⟨out.img, by simp, fun h0 => hc ⟨h0, hg⟩⟩)]
  · rw [bind_throw (gray_throw ?_)]
    by_cases h1 : i1.img.cc = 1
    · by_cases h2 : i2.img.cc = 1
      · exact ⟨i3.img, by simp, fun h3 => hg ⟨h1, h2, h3⟩⟩
      · exact ⟨i2.img, by simp, h2⟩
    · exact ⟨i1.img, by simp, h1⟩

/-- Splitting a colour image and merging the channels restores it (`back` may be the
    original image or another one). -/
theorem C20_merge_split {m : BMem} {inp back o1 o2 o3 : View} {w h : Nat}
    (p1 : Pair m inp w h o1 w h) (p2 : Pair m inp w h o2 w h) (p3 : Pair m inp w h o3 w h)
    (q1 : Pair m o1 w h back w h) (q2 : Pair m o2 w h back w h) (q3 : Pair m o3 w h back w h)
    (a12 : Apart o1 w h o2 w h) (a13 : Apart o1 w h o3 w h) (a23 : Apart o2 w h o3 w h)
    (ci : inp.img.cc = 3) (cb : back.img.cc = 3)
    (c1 : o1.img.cc = 1) (c2 : o2.img.cc = 1) (c3 : o3.img.cc = 1) :
    ∃ m₁ m₂, Split inp o1 o2 o3 w h m = .ok () m₁ ∧ Merge o1 o2 o3 back w h m₁ = .ok () m₂ ∧
      ∀ x y c, x < w → y < h → c < 3 → back.get m₂ x y c = inp.get m x y c := by
  obtain ⟨m₁, h1, h2⟩ := C20_split p1 p2 p3 a12 a13 a23 ci c1 c2 c3
  have mk : ∀ o : View, Pair m o w h back w h → Pair m₁ o w h back w h := fun o q =>
    ⟨Image.WF.of_size q.wfi h2.size_eq, Image.WF.of_size q.wfo h2.size_eq, q.fiti, q.fito, q.apart⟩
  obtain ⟨m₂, h3, h4⟩ := C20_merge (mk _ q1) (mk _ q2) (mk _ q3) cb c1 c2 c3
  refine ⟨m₁, m₂, h1, h3, fun x y c hx hy hc => ?_⟩
  rw [h4.inside x y c hx hy (by omega), h2.inside x y c hx hy hc]

/-- `ReplaceChannel` changes exactly the chosen channel. -/
theorem C67_replaceChannel {m : BMem} {channel rgb : View} {w h ch : Nat}
    (p : Pair m channel w h rgb w h) (cc : channel.img.cc = 1) (cr : rgb.img.cc = 3) (hch : ch < 3) :
    ∃ m', ReplaceChannel channel rgb w h ch m = .ok () m' ∧
      WritesRoi m m' rgb w h fun x y c => if c = ch then channel.get m x y 0 else rgb.get m x y c := by
  rw [ReplaceChannel, p.validate, bind_ok (gray_ok (by simp [cc])), bind_ok (rgb_ok (by simp [cr]))]
  have : decide (ch ≥ 3) = false := by simp; omega
  rw [this, throwIf_false, pure_bind']
  obtain ⟨_, hr, _, _, _, hfit, _, _, hwcc, _⟩ := View.facts p.wfo p.fito
  rw [cr] at hwcc
  rw [u32_of_lt hwcc, rowLoop2_eq () hr (by decide) hfit hwcc]
  have e : fold (fun (q : Nat × Nat) (_ : Unit) =>
        copyC rgb.img.data (rgb.start 3 + ch + q.1 * rgb.img.rowSize + q.2 * 3) channel.img.data
          (channel.start 1 + q.1 * channel.img.rowSize + q.2 * 1)) (grid h w) ()
      = fold (fun (q : Nat × Nat × Nat) (_ : Unit) => copyC rgb.img.data (rgb.cell q.1 q.2.1 q.2.2)
          channel.img.data (channel.cell q.1 q.2.1 0)) (pixL w h [ch]) () := by
    rw [fold_pixL]
    refine fold_congr () fun q hq => ?_
    funext _
    rw [fold_one (fun c => copyC rgb.img.data (rgb.cell q.2 q.1 c) channel.img.data (channel.cell q.2 q.1 0))]
    rw [View.cell_addr0 p.wfi p.fiti cc, ← View.cell_addr p.wfo p.fito cr]
    congr 1
    omega
  rw [e]
  obtain ⟨m', h1, h2⟩ := roi_writes_on (m := m) (P := fun _ _ c => decide (c = ch))
    (val := fun x y _ => channel.get m x y 0)
    (body := fun (q : Nat × Nat × Nat) (_ : Unit) => copyC rgb.img.data (rgb.cell q.1 q.2.1 q.2.2)
          channel.img.data (channel.cell q.1 q.2.1 0)) (L := pixL w h [ch]) (vo := rgb) (w := w) (h := h)
    p.wfo p.fito (nodup_pixL (by simp)) (by
      intro q
      rw [mem_pixL]
      simp only [List.mem_cons, List.not_mem_nil, or_false, decide_eq_true_eq]
      omega) (by
      intro x y c hx hy hc _ m' ho
      rw [copyC_get p.wfi p.fiti p.wfo p.fito ho.size_eq hx hy hc hx hy (by omega),
        ho.get_apart p.apart hx hy (by omega)])
  refine ⟨m', h1, h2.size_eq, ?_, h2.outside⟩
  intro x y c hx hy hc
  rw [h2.inside x y c hx hy hc]
  simp only [decide_eq_true_eq]

theorem C67_replaceChannel_rejects {m : BMem} {channel rgb : View} {w h ch : Nat}
    (hb : Bad [channel, rgb] w h (channel.img.cc = 1 ∧ rgb.img.cc = 3 ∧ ch < 3)) :
    ReplaceChannel channel rgb w h ch m = .throw m := by
  rw [ReplaceChannel]
  refine rois_bad_then hb fun hc => ?_
  by_cases h1 : channel.img.cc = 1
  · rw [bind_ok (gray_ok (by simp [h1]))]
    by_cases h2 : rgb.img.cc = 3
    · rw [bind_ok (rgb_ok (by simp [h2]))]
      have : decide (ch ≥ 3) = true := by
        simp only [ge_iff_le, decide_eq_true_eq]
        exact Nat.le_of_not_lt fun hlt => hc ⟨h1, h2, hlt⟩
      rw [this, bind_throw (throwIf_true m)]
    · rw [bind_throw (rgb_throw ⟨rgb.img, by simp, h2⟩)]
  · rw [bind_throw (gray_throw ⟨channel.img, by simp, h1⟩)]

/-- A 1x2 RGB image with a padded row. -/
def rgbEx (b : Nat) : Image := ⟨b, 1, 2, 3, 4⟩
/-- A 1x2 gray-scale image. -/
def grayEx (b : Nat) : Image := ⟨b, 1, 2, 1, 1⟩

theorem pair_rgb_gray (b c : Nat) (hb : b ≠ 0) (hc : c ≠ 0) (hne : b ≠ c) :
    Pair exMem ⟨rgbEx b, 0, 0⟩ 1 2 ⟨grayEx c, 0, 0⟩ 1 2 :=
  ⟨⟨by simp [rgbEx], by simp [rgbEx, exMem, hb], by simp [rgbEx]⟩,
   ⟨by simp [grayEx], by simp [grayEx, exMem, hc], by simp [grayEx]⟩,
   ⟨hb, Or.inr (Or.inl rfl), by decide, by decide, by simp [rgbEx], by simp [rgbEx]⟩,
   ⟨hc, Or.inl rfl, by decide, by decide, by simp [grayEx], by simp [grayEx]⟩,
   apart_of_ne _ _ _ _ hne⟩

example : after (Split ⟨rgbEx 1, 0, 0⟩ ⟨grayEx 2, 0, 0⟩ ⟨grayEx 3, 0, 0⟩ ⟨grayEx 4, 0, 0⟩ 1 2 exMem) 4 1
    = some (10 + 36) := by decide
example : after (Merge ⟨grayEx 2, 0, 0⟩ ⟨grayEx 3, 0, 0⟩ ⟨grayEx 4, 0, 0⟩ ⟨rgbEx 1, 0, 0⟩ 1 2 exMem) 1 6
    = some 41 := by decide
example : after (ExtractChannel ⟨rgbEx 1, 0, 0⟩ ⟨grayEx 2, 0, 0⟩ 1 2 1 exMem) 2 1 = some 35 := by decide
example : after (ReplaceChannel ⟨grayEx 2, 0, 0⟩ ⟨rgbEx 1, 0, 0⟩ 1 2 2 exMem) 1 6 = some 21 := by decide

/-! ### C21 : RgbToBgr -/

/-- C21 for images with separate storage.  Missing for the full claim: the in-place case,
    for which the claim is false (`C21_inPlace_wrong`). -/
theorem C21_rgbToBgr_partial {m : BMem} {inp out : View} {w h : Nat}
    (p : Pair m inp w h out w h) (ci : inp.img.cc = 3) (co : out.img.cc = 3) :
    ∃ m', RgbToBgr inp out w h m = .ok () m' ∧
      WritesRoi m m' out w h fun x y c => inp.get m x y (2 - c) := by
  rw [RgbToBgr, p.validate, bind_ok (rgb_ok (by simp [ci, co]))]
  obtain ⟨_, hr, _, _, _, hfit, _, _, hwcc, _⟩ := View.facts p.wfo p.fito
  rw [co] at hwcc
  rw [u32_of_lt hwcc, rowLoop2_opt () ⟨out.img, by simp, rfl⟩ ⟨inp.img, by simp, rfl⟩ hr (by decide) hfit
    hwcc p.fito.hpos]
  have := copyRows p.wfi p.wfo p.fiti p.fito ci co p.apart nodup3'
    (by simp only [List.mem_cons, List.not_mem_nil, or_false]; omega) (fun c => 2 - c) (by omega)
  rw [← show fold (fun p _ => do
      copyC out.img.data (out.start 3 + p.1 * out.img.rowSize + p.2 * 3 + 2) inp.img.data
        (inp.start 3 + p.1 * inp.img.rowSize + p.2 * 3)
      copyC out.img.data (out.start 3 + p.1 * out.img.rowSize + p.2 * 3 + 1) inp.img.data
        (inp.start 3 + p.1 * inp.img.rowSize + p.2 * 3 + 1)
      copyC out.img.data (out.start 3 + p.1 * out.img.rowSize + p.2 * 3) inp.img.data
        (inp.start 3 + p.1 * inp.img.rowSize + p.2 * 3 + 2)) (grid h w) () = _ from
      fold_congr () fun q _ => by
        funext _
        rw [fold_three (fun c =>
          copyC out.img.data (out.start 3 + q.1 * out.img.rowSize + q.2 * 3 + c)
            inp.img.data (inp.start 3 + q.1 * inp.img.rowSize + q.2 * 3 + (2 - c)))]
        rfl] at this
  exact this

/-- Applying it twice restores the colours. -/
theorem C21_rgbToBgr_twice_partial {m : BMem} {inp out back : View} {w h : Nat}
    (p : Pair m inp w h out w h) (p' : Pair m out w h back w h)
    (ci : inp.img.cc = 3) (co : out.img.cc = 3) (cb : back.img.cc = 3) :
    ∃ m₁ m₂, RgbToBgr inp out w h m = .ok () m₁ ∧ RgbToBgr out back w h m₁ = .ok () m₂ ∧
      ∀ x y c, x < w → y < h → c < 3 → back.get m₂ x y c = inp.get m x y c := by
  obtain ⟨m₁, h1, h2⟩ := C21_rgbToBgr_partial p ci co
  have q : Pair m₁ out w h back w h := ⟨h2.wf p'.wfi, h2.wf p'.wfo, p'.fiti, p'.fito, p'.apart⟩
  obtain ⟨m₂, h3, h4⟩ := C21_rgbToBgr_partial q co cb
  refine ⟨m₁, m₂, h1, h3, fun x y c hx hy hc => ?_⟩
  rw [h4.inside x y c hx hy (by omega), h2.inside x y _ hx hy (by omega)]
  congr 1
  omega

theorem C21_rgbToBgr_rejects {m : BMem} {inp out : View} {w h : Nat}
    (hb : Bad [inp, out] w h (inp.img.cc = 3 ∧ out.img.cc = 3)) : RgbToBgr inp out w h m = .throw m := by
  rw [RgbToBgr]
  refine rois_bad_then hb fun hc => ?_
  rw [bind_throw (rgb_throw ?_)]
  by_cases h1 : inp.img.cc = 3
  · exact ⟨out.img, by simp, fun h2 => hc ⟨h1, h2⟩⟩
  · exact ⟨inp.img, by simp, h1⟩

/-- C21 is false in place: of the pixel (R,G,B) = (10,11,14) the call makes (10,11,10)
    instead of (14,11,10). -/
theorem C21_inPlace_wrong :
    after (RgbToBgr ⟨rgbEx 1, 0, 0⟩ ⟨rgbEx 1, 0, 0⟩ 1 2 exMem) 1 0 = some 10 ∧
    (⟨rgbEx 1, 0, 0⟩ : View).get exMem 0 0 0 = 10 ∧ (⟨rgbEx 1, 0, 0⟩ : View).get exMem 0 0 2 = 14 := by
  decide

example : after (RgbToBgr ⟨rgbEx 1, 0, 0⟩ ⟨rgbEx 2, 0, 0⟩ 1 2 exMem) 2 0 = some 14 := by decide

/-! ### C22 : ConvertToRgb, ConvertToGrayScale -/

theorem C22_convertToRgb_gray {m : BMem} {inp out : View} {w h : Nat}
    (p : Pair m inp w h out w h) (ci : inp.img.cc = 1) (co : out.img.cc = 3) :
    ∃ m', ConvertToRgb inp out w h m = .ok () m' ∧
      WritesRoi m m' out w h fun x y _ => inp.get m x y 0 := by
  rw [ConvertToRgb, p.validate, bind_ok (rgb_ok (by simp [co]))]
  simp only [ci, Nat.reduceBEq, Bool.false_eq_true, ↓reduceIte]
  exact rgbRows p.wfi p.wfo p.fiti p.fito ci co p.apart

/-- RGB to RGB is a copy. -/
theorem C22_convertToRgb_rgb {m : BMem} {inp out : View} {w h : Nat}
    (p : Pair m inp w h out w h) (ci : inp.img.cc = 3) (co : out.img.cc = 3) :
    ∃ m', ConvertToRgb inp out w h m = .ok () m' ∧
      WritesRoi m m' out w h fun x y c => inp.get m x y c := by
  rw [ConvertToRgb, p.validate, bind_ok (rgb_ok (by simp [co]))]
  simp only [ci, Nat.reduceBEq, ↓reduceIte]
  exact CopyRoi_rows p.wfi p.wfo p.fiti p.fito (by rw [ci, co]) p.apart

/-- The mean of three values, rounded down. -/
def specMean (a b c : UInt8) : UInt8 := UInt8.ofNat ((a.toNat + b.toNat + c.toNat) / 3)

theorem C22_convertToGrayScale_rgb {m : BMem} {inp out : View} {w h : Nat}
    (p : Pair m inp w h out w h) (ci : inp.img.cc = 3) (co : out.img.cc = 1) :
    ∃ m', ConvertToGrayScale inp out w h m = .ok () m' ∧
      WritesRoi m m' out w h fun x y _ =>
        specMean (inp.get m x y 0) (inp.get m x y 1) (inp.get m x y 2) := by
  rw [ConvertToGrayScale, p.validate, bind_ok (gray_ok (by simp [co]))]
  simp only [ci, Nat.reduceBEq, Bool.false_eq_true, ↓reduceIte]
  exact grayRows p.wfi p.wfo p.fiti p.fito ci co p.apart

/-- Gray to gray is a copy. -/
theorem C22_convertToGrayScale_gray {m : BMem} {inp out : View} {w h : Nat}
    (p : Pair m inp w h out w h) (ci : inp.img.cc = 1) (co : out.img.cc = 1) :
    ∃ m', ConvertToGrayScale inp out w h m = .ok () m' ∧
      WritesRoi m m' out w h fun x y c => inp.get m x y c := by
  rw [ConvertToGrayScale, p.validate, bind_ok (gray_ok (by simp [co]))]
  simp only [ci, Nat.reduceBEq, ↓reduceIte]
  exact CopyRoi_rows p.wfi p.wfo p.fiti p.fito (by rw [ci, co]) p.apart

theorem specMean_same (a : UInt8) : specMean a a a = a := by
  apply UInt8.toNat_inj.1
  have := a.toNat_lt
  rw [specMean, ofNat_toNat' (by omega)]
  omega

/-- Gray -> RGB -> gray is the identity. -/
theorem C22_gray_rgb_gray {m : BMem} {inp out back : View} {w h : Nat}
    (p : Pair m inp w h out w h) (p' : Pair m out w h back w h)
    (ci : inp.img.cc = 1) (co : out.img.cc = 3) (cb : back.img.cc = 1) :
    ∃ m₁ m₂, ConvertToRgb inp out w h m = .ok () m₁ ∧
      ConvertToGrayScale out back w h m₁ = .ok () m₂ ∧
      ∀ x y, x < w → y < h → back.get m₂ x y 0 = inp.get m x y 0 := by
  obtain ⟨m₁, h1, h2⟩ := C22_convertToRgb_gray p ci co
  have q : Pair m₁ out w h back w h := ⟨h2.wf p'.wfi, h2.wf p'.wfo, p'.fiti, p'.fito, p'.apart⟩
  obtain ⟨m₂, h3, h4⟩ := C22_convertToGrayScale_rgb q co cb
  refine ⟨m₁, m₂, h1, h3, fun x y hx hy => ?_⟩
  rw [h4.inside x y 0 hx hy (by omega), h2.inside x y 0 hx hy (by omega),
    h2.inside x y 1 hx hy (by omega), h2.inside x y 2 hx hy (by omega), specMean_same]

theorem C22_rejects {m : BMem} {inp out : View} {w h : Nat} :
    (Bad [inp, out] w h (out.img.cc = 3) → ConvertToRgb inp out w h m = .throw m) ∧
    (Bad [inp, out] w h (out.img.cc = 1) → ConvertToGrayScale inp out w h m = .throw m) := by
  constructor
  · intro hb
    rw [ConvertToRgb]
    refine rois_bad_then hb fun hc => ?_
    rw [bind_throw (rgb_throw ⟨out.img, by simp, hc⟩)]
  · intro hb
    rw [ConvertToGrayScale]
    refine rois_bad_then hb fun hc => ?_
    rw [bind_throw (gray_throw ⟨out.img, by simp, hc⟩)]

/-- The bytes of an image seen as an image with `n` colours and the same rows. -/
def asColors (n : Nat) (v : View) : View := { v with img := { v.img with cc := n } }

theorem pair_asColors {m : BMem} {inp out : View} {w h n : Nat} (p : Pair m inp w h out w h)
    (hn : n = 1 ∨ n = 3) (hc : n ≤ inp.img.cc) (hd : inp.img.data ≠ out.img.data) :
    Pair m (asColors n inp) w h out w h :=
  ⟨⟨Nat.le_trans (Nat.mul_le_mul_left inp.img.width hc) p.wfi.row, p.wfi.block, p.wfi.small⟩, p.wfo,
    { p.fiti with colors := hn.imp id .inl }, p.fito, fun _ _ _ _ _ _ _ _ _ _ _ _ h => absurd h hd⟩

/-- `ConvertToRgb` treats every image that is not RGB as gray-scale image. -/
theorem convertToRgb_asColors {m : BMem} {inp out : View} {w h : Nat} (p : Pair m inp w h out w h)
    (q : Pair m (asColors 1 inp) w h out w h) (ci : inp.img.cc ≠ 3) (co : out.img.cc = 3) :
    ConvertToRgb inp out w h m = ConvertToRgb (asColors 1 inp) out w h m := by
  have c1 : (inp.img.cc == 3) = false := by simpa using ci
  have c2 : ((asColors 1 inp).img.cc == 3) = false := rfl
  have e1 : (asColors 1 inp).start 1 = inp.start 1 := rfl
  have e2 : (asColors 1 inp).img.rowSize = inp.img.rowSize := rfl
  have e3 : (asColors 1 inp).img.data = inp.img.data := rfl
  rw [ConvertToRgb, p.validate, bind_ok (rgb_ok (by simp [co])), ConvertToRgb, q.validate,
    bind_ok (rgb_ok (by simp [co])), c1, c2]
  simp only [Bool.false_eq_true, if_false, e1, e2, e3]

/-- `ConvertToGrayScale` treats every image that is not gray-scale as RGB image. -/
theorem convertToGrayScale_asColors {m : BMem} {inp out : View} {w h : Nat} (p : Pair m inp w h out w h)
    (q : Pair m (asColors 3 inp) w h out w h) (ci : inp.img.cc ≠ 1) (co : out.img.cc = 1) :
    ConvertToGrayScale inp out w h m = ConvertToGrayScale (asColors 3 inp) out w h m := by
  have c1 : (inp.img.cc == 1) = false := by simpa using ci
  have c2 : ((asColors 3 inp).img.cc == 1) = false := rfl
  have e1 : (asColors 3 inp).start 3 = inp.start 3 := rfl
  have e2 : (asColors 3 inp).img.rowSize = inp.img.rowSize := rfl
  have e3 : (asColors 3 inp).img.data = inp.img.data := rfl
  rw [ConvertToGrayScale, p.validate, bind_ok (gray_ok (by simp [co])), ConvertToGrayScale, q.validate,
    bind_ok (gray_ok (by simp [co])), c1, c2]
  simp only [Bool.false_eq_true, if_false, e1, e2, e3]

/-- C22, exact for RGBA images: the input row is read as if its pixels had one colour, so all three
    colours of a pixel of the result are one byte of the input row, counted in bytes. -/
theorem C22_toRgb_rgba_exact {m : BMem} {inp out : View} {w h : Nat} (p : Pair m inp w h out w h)
    (hd : inp.img.data ≠ out.img.data) (ci : inp.img.cc = 4) (co : out.img.cc = 3) :
    ∃ m', ConvertToRgb inp out w h m = .ok () m' ∧ WritesRoi m m' out w h fun x y _ =>
      m.byte inp.img.data ((inp.y + y) * inp.img.rowSize + (inp.x + x)) := by
  have q := pair_asColors p (n := 1) (by simp) (by omega) hd
  obtain ⟨m', h1, h2⟩ := C22_convertToRgb_gray q rfl co
  refine ⟨m', by rw [convertToRgb_asColors p q (by omega) co]; exact h1,
    ⟨h2.size_eq, fun x y c hx hy hc => (h2.inside x y c hx hy hc).trans ?_, h2.outside⟩⟩
  simp [View.get, View.cell, asColors]

/-- C22, exact for RGBA images: the input row is read as if its pixels had three colours. -/
theorem C22_toGray_rgba_exact {m : BMem} {inp out : View} {w h : Nat} (p : Pair m inp w h out w h)
    (hd : inp.img.data ≠ out.img.data) (ci : inp.img.cc = 4) (co : out.img.cc = 1) :
    ∃ m', ConvertToGrayScale inp out w h m = .ok () m' ∧ WritesRoi m m' out w h fun x y _ =>
      specMean (m.byte inp.img.data ((inp.y + y) * inp.img.rowSize + (inp.x + x) * 3))
        (m.byte inp.img.data ((inp.y + y) * inp.img.rowSize + (inp.x + x) * 3 + 1))
        (m.byte inp.img.data ((inp.y + y) * inp.img.rowSize + (inp.x + x) * 3 + 2)) := by
  have q := pair_asColors p (n := 3) (by simp) (by omega) hd
  obtain ⟨m', h1, h2⟩ := C22_convertToGrayScale_rgb q rfl co
  refine ⟨m', by rw [convertToGrayScale_asColors p q (by omega) co]; exact h1,
    ⟨h2.size_eq, fun x y c hx hy hc => (h2.inside x y c hx hy hc).trans ?_, h2.outside⟩⟩
  simp [View.get, View.cell, asColors]

/-- A 2x1 RGBA image and a 2x1 RGB image meet the hypotheses. -/
example : ∃ m', ConvertToRgb ⟨⟨1, 2, 1, 4, 8⟩, 0, 0⟩ ⟨⟨2, 2, 1, 3, 6⟩, 0, 0⟩ 2 1 exMem = .ok () m' ∧
    m'.byte 2 4 = exMem.byte 1 1 := by
  have p : Pair exMem ⟨⟨1, 2, 1, 4, 8⟩, 0, 0⟩ 2 1 ⟨⟨2, 2, 1, 3, 6⟩, 0, 0⟩ 2 1 :=
    ⟨⟨by decide, by decide, by decide⟩, ⟨by decide, by decide, by decide⟩,
      ⟨by decide, Or.inr (Or.inr rfl), by decide, by decide, by decide, by decide⟩,
      ⟨by decide, Or.inr (Or.inl rfl), by decide, by decide, by decide, by decide⟩,
      fun _ _ _ _ _ _ _ _ _ _ _ _ h => absurd h (by decide)⟩
  obtain ⟨m', h1, h2⟩ := C22_toRgb_rgba_exact p (by decide) rfl rfl
  exact ⟨m', h1, h2.inside 1 0 1 (by decide) (by decide) (by decide)⟩

/-- RGBA inputs are accepted by both functions but read with the wrong stride: the second
    gray pixel of a 2x1 RGBA image must be the mean of bytes 4..6, which is 35, and is the
    mean of bytes 3..5. -/
theorem C22_rgba_wrong :
    after (ConvertToGrayScale ⟨⟨1, 2, 1, 4, 8⟩, 0, 0⟩ ⟨⟨2, 2, 1, 1, 2⟩, 0, 0⟩ 2 1 exMem) 2 1 = some 26 ∧
    specMean (exMem.byte 1 4) (exMem.byte 1 5) (exMem.byte 1 6) = 35 := by decide

example : after (ConvertToRgb ⟨grayEx 1, 0, 0⟩ ⟨rgbEx 2, 0, 0⟩ 1 2 exMem) 2 5 = some 11 := by decide
example : after (ConvertToGrayScale ⟨rgbEx 1, 0, 0⟩ ⟨grayEx 2, 0, 0⟩ 1 2 exMem) 2 0 = some 11 := by decide

/-! ### C23 : RgbToRgba, RgbaToRgb -/

theorem C23_rgbToRgba {m : BMem} {inp out : View} {w h : Nat}
    (p : Pair m inp w h out w h) (ci : inp.img.cc = 3) (co : out.img.cc = 4) :
    ∃ m', RgbToRgba inp out w h m = .ok () m' ∧
      WritesRoi m m' out w h fun x y c => if c = 3 then 255 else inp.get m x y c := by
  rw [RgbToRgba, p.validate, bind_ok (rgb_ok (by simp [ci])), bind_ok (rgba_ok (by simp [co]))]
  obtain ⟨_, hr, _, _, _, hfit, _, _, hwcc, _⟩ := View.facts p.wfo p.fito
  rw [co] at hwcc
  rw [u32_of_lt hwcc, rowLoop2_eq () hr (by decide) hfit hwcc]
  refine pix_fold p.wfo p.fito (cs := [0, 1, 2, 3]) nodup4 (by simp [co]; omega)
    (step := fun x y c => if c = 3 then writeC out.img.data (out.cell x y c) 255
      else copyC out.img.data (out.cell x y c) inp.img.data (inp.cell x y c)) ?_ ?_
  · intro x y hx hy
    rw [fold_four (fun c => if c = 3 then writeC out.img.data (out.cell x y c) 255
      else copyC out.img.data (out.cell x y c) inp.img.data (inp.cell x y c))]
    simp only [View.cell_addr0 p.wfo p.fito co, View.cell_addr0 p.wfi p.fiti ci]
    rfl
  · intro x y c hx hy hc m' ho
    by_cases h3 : c = 3
    · simp only [h3, ↓reduceIte]
      rw [writeC_get p.wfo p.fito ho.size_eq hx hy (by omega)]
    · simp only [h3, ↓reduceIte]
      rw [copyC_get p.wfi p.fiti p.wfo p.fito ho.size_eq hx hy hc hx hy (by omega),
        ho.get_apart p.apart hx hy (by omega)]

theorem C23_rgbaToRgb {m : BMem} {inp out : View} {w h : Nat}
    (p : Pair m inp w h out w h) (ci : inp.img.cc = 4) (co : out.img.cc = 3) :
    ∃ m', RgbaToRgb inp out w h m = .ok () m' ∧
      WritesRoi m m' out w h fun x y c => inp.get m x y c := by
  rw [RgbaToRgb, p.validate, bind_ok (rgba_ok (by simp [ci])), bind_ok (rgb_ok (by simp [co]))]
  obtain ⟨_, hr, _, _, _, hfit, _, _, hwcc, _⟩ := View.facts p.wfo p.fito
  rw [co] at hwcc
  rw [u32_of_lt hwcc, rowLoop2_eq () hr (by decide) hfit hwcc]
  refine pix_fold p.wfo p.fito (cs := [0, 1, 2]) nodup3 (by simp [co]; omega)
    (step := fun x y c => copyC out.img.data (out.cell x y c) inp.img.data (inp.cell x y c)) ?_ ?_
  · intro x y hx hy
    rw [fold_three (fun c => copyC out.img.data (out.cell x y c) inp.img.data (inp.cell x y c))]
    simp only [View.cell_addr0 p.wfo p.fito co, View.cell_addr0 p.wfi p.fiti ci]
    rfl
  · intro x y c hx hy hc m' ho
    rw [copyC_get p.wfi p.fiti p.wfo p.fito ho.size_eq hx hy hc hx hy (by omega),
      ho.get_apart p.apart hx hy (by omega)]

/-- RGB -> RGBA -> RGB is the identity. -/
theorem C23_rgb_rgba_rgb {m : BMem} {inp out back : View} {w h : Nat}
    (p : Pair m inp w h out w h) (p' : Pair m out w h back w h)
    (ci : inp.img.cc = 3) (co : out.img.cc = 4) (cb : back.img.cc = 3) :
    ∃ m₁ m₂, RgbToRgba inp out w h m = .ok () m₁ ∧ RgbaToRgb out back w h m₁ = .ok () m₂ ∧
      ∀ x y c, x < w → y < h → c < 3 → back.get m₂ x y c = inp.get m x y c := by
  obtain ⟨m₁, h1, h2⟩ := C23_rgbToRgba p ci co
  have q : Pair m₁ out w h back w h := ⟨h2.wf p'.wfi, h2.wf p'.wfo, p'.fiti, p'.fito, p'.apart⟩
  obtain ⟨m₂, h3, h4⟩ := C23_rgbaToRgb q co cb
  refine ⟨m₁, m₂, h1, h3, fun x y c hx hy hc => ?_⟩
  rw [h4.inside x y c hx hy (by omega), h2.inside x y c hx hy (by omega), if_neg (by omega)]

theorem C23_rejects {m : BMem} {inp out : View} {w h : Nat} :
    (Bad [inp, out] w h (inp.img.cc = 3 ∧ out.img.cc = 4) → RgbToRgba inp out w h m = .throw m) ∧
    (Bad [inp, out] w h (inp.img.cc = 4 ∧ out.img.cc = 3) → RgbaToRgb inp out w h m = .throw m) := by
  constructor
  · intro hb
    rw [RgbToRgba]
    refine rois_bad_then hb fun hc => ?_
    by_cases h1 : inp.img.cc = 3
    · rw [bind_ok (rgb_ok (by simp [h1])), bind_throw (rgba_throw ⟨out.img, by simp, fun h2 => hc ⟨h1, h2⟩⟩)]
    · rw [bind_throw (rgb_throw ⟨inp.img, by simp, h1⟩)]
  · intro hb
    rw [RgbaToRgb]
    refine rois_bad_then hb fun hc => ?_
    by_cases h1 : inp.img.cc = 4
    · rw [bind_ok (rgba_ok (by simp [h1])), bind_throw (rgb_throw ⟨out.img, by simp, fun h2 => hc ⟨h1, h2⟩⟩)]
    · rw [bind_throw (rgba_throw ⟨inp.img, by simp, h1⟩)]

example : after (RgbToRgba ⟨rgbEx 1, 0, 0⟩ ⟨⟨2, 1, 2, 4, 4⟩, 0, 0⟩ 1 2 exMem) 2 7 = some 255 := by decide
example : after (RgbaToRgb ⟨⟨2, 1, 2, 4, 4⟩, 0, 0⟩ ⟨rgbEx 1, 0, 0⟩ 1 2 exMem) 1 6 = some (20 + 36) := by decide

end PV.Props
