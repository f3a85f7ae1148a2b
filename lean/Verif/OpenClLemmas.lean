import Verif.OpenCl
/-
  Lemmas about the calls of Verif/OpenCl.lean.
-/
namespace PV

/-! ### Kernels for colours, for any form of addresses -/

theorem View.cell_add (v : View) (x y c : Nat) : v.cell x y 0 + c = v.cell x y c := by
  unfold View.cell
  omega

theorem kernelGray_writes {L : Launch} {m : BMem} {inp out : View} {w h : Nat} (p : Props.Pair m inp w h out w h) (co : out.img.cc = 1)
    (hL : L.Covers w h) {a ao : Addr} (hk : L.kernel = guarded w h (Cuda.kernelGray inp.img.cc a ao))
    (ha : ∀ X Y, X < w → Y < h → a X Y = (inp.img.data, inp.cell X Y 0)) (ho : ao.Of out (PosMap.pixels w h out.img.cc co)) :
    L.Always m fun m' => WritesRoi m m' out w h fun x y _ =>
      UInt8.ofNat (((List.range inp.img.cc).map fun c => (inp.get m x y c).toNat).sum / inp.img.cc) := by
  obtain ⟨c1, _⟩ := View.facts p.wfi p.fiti
  have c4 : inp.img.cc ≤ 4 := by rcases p.fiti.colors with h | h | h <;> omega
  refine Launch.writes_one p.wfo p.fito hL (PosMap.pixels w h out.img.cc co) hk
    (fun X Y a => ∃ c, c < inp.img.cc ∧ a = (inp.img.data, inp.cell X Y c)) ?_ ?_ ?_
  · intro X Y hX hY
    unfold Cuda.kernelGray
    refine Prog.foot_bind (Prog.foot_fold _ fun c hc s => ?_) fun sum => ?_
    · rw [List.mem_range] at hc
      refine Prog.foot_bind (Prog.foot_load ⟨c, hc, ?_⟩) fun _ => trivial
      rw [ha X Y hX hY, View.cell_add]
    · rw [if_neg (by omega)]
      exact Prog.foot_store _ (ho X Y hX hY)
  · rintro X Y a hX hY ⟨c, hc, rfl⟩ x' y' c' hx' hy' hc' he
    exact absurd (Prod.mk.inj he).2 (p.apart _ _ _ _ _ _ hX hY hc hx' hy' hc' (Prod.mk.inj he).1)
  · intro X Y hX hY
    rw [Cuda.kernelGray_run (x := X) (y := Y) (a := a) (ao := ao) (b := inp.img.data) (i := inp.cell X Y 0) c1 c4
      (fun c hc => by rw [View.cell_add]; exact View.cell_valid p.wfi p.fiti hX hY hc)
      (View.cell_valid p.wfo p.fito hX hY (by omega : 0 < out.img.cc)) (ha X Y hX hY) (ho X Y hX hY)]
    simp only [View.cell_add]
    rfl

theorem kernelRgb_writes {L : Launch} {m : BMem} {inp out : View} {w h : Nat} (p : Props.Pair m inp w h out w h) (ci : 0 < inp.img.cc)
    (hL : L.Covers w h) {a ao : Addr} (hk : L.kernel = guarded w h (Cuda.kernelRgb out.img.cc a ao))
    (ha : ∀ X Y, X < w → Y < h → a X Y = (inp.img.data, inp.cell X Y 0))
    (ho : ∀ X Y, X < w → Y < h → ao X Y = (out.img.data, out.cell X Y 0)) :
    L.Always m fun m' => WritesRoi m m' out w h fun x y _ => inp.get m x y 0 := by
  refine Launch.writes p.wfo p.fito hL (fun x y _ => (x, y)) (fun x y c hx hy _ => ⟨hx, hy⟩)
    (fun X Y a => a = (inp.img.data, inp.cell X Y 0)) ?_ ?_ ?_ ?_
  · intro X Y hn
    rw [hk, guarded, if_neg hn]
  · intro X Y hX hY
    rw [hk, guarded, if_pos ⟨hX, hY⟩, Cuda.kernelRgb]
    refine Prog.foot_fold _ fun c hc _ => ?_
    rw [List.mem_range] at hc
    refine Prog.foot_bind (Prog.foot_load (ha X Y hX hY)) fun _ => Prog.foot_store _ ⟨X, Y, c, hX, hY, hc, rfl, ?_⟩
    rw [ho X Y hX hY, View.cell_add]
  · rintro X Y _ hX hY rfl x' y' c' hx' hy' hc' he
    exact absurd (Prod.mk.inj he).2 (p.apart _ _ _ _ _ _ hX hY ci hx' hy' hc' (Prod.mk.inj he).1)
  · intro X Y hX hY
    rw [hk, guarded, if_pos ⟨hX, hY⟩]
    obtain ⟨m', h1, h2⟩ := Cuda.kernelRgb_run (m := m) (cc := out.img.cc) (b := inp.img.data) (i := inp.cell X Y 0) (bo := out.img.data)
      (io := out.cell X Y 0) (a := a) (ao := ao)
      (View.cell_valid p.wfi p.fiti hX hY ci)
      (fun c hc => by rw [View.cell_add]; exact View.cell_valid p.wfo p.fito hX hY hc)
      (fun c hc he => by
        rw [View.cell_add] at he
        exact p.apart _ _ _ _ _ _ hX hY ci hX hY hc (Prod.mk.inj he).1 (Prod.mk.inj he).2)
      (ha X Y hX hY) (ho X Y hX hY)
    refine ⟨m', h1, fun x' y' c' hx' hy' hc' he => ?_⟩
    obtain ⟨rfl, rfl⟩ := Prod.mk.inj he
    have := h2 c' hc'
    rw [View.cell_add] at this
    exact this

end PV

namespace PV.OpenCl
open Props (Ready1 Ready2 Pair One Bad rois_bad_then SameColors2 common2_throw Gray1 mirror mirror_lt mirror_mirror)

theorem launch_runs {total : Nat} {m : BMem} {W H : Nat} {kernel : Nat → Nat → Prog UInt8 Unit} {Q : BMem → Prop}
    (d : Device total) (hW : 0 < W) (hH : 0 < H) (hW2 : W < 4294967296) (hH2 : H < 4294967296)
    (h : ∀ L : Launch, L.Covers W H → L.kernel = kernel → L.Always m Q) : Runs (launch2D total W H kernel) m Q := by
  obtain ⟨g, e, hL⟩ := geometry_ok (μ := BMem) d hW hH hW2 hH2
  exact ⟨⟨g, kernel⟩, by rw [launch2D, e]; rfl, h _ hL rfl⟩

theorem launchA_runs {total : Nat} {m : BMem} {W H : Nat} {kernel : Nat → Nat → AProg} {β : Type} {vec : List UInt32}
    {result : List UInt32 → β} {Q : β → Prop} (d : Device total) (hW : 0 < W) (hH : 0 < H) (hW2 : W < 4294967296) (hH2 : H < 4294967296)
    (h : ∀ L : ALaunch β, L.Covers W H → L.kernel = kernel → L.vec = vec → L.result = result → L.Always m Q) :
    ARuns (launchA total W H kernel vec result) m Q := by
  obtain ⟨g, e, hL⟩ := geometry_ok (μ := BMem) d hW hH hW2 hH2
  exact ⟨⟨g, kernel, vec, result⟩, by rw [launchA, e]; rfl, h _ hL rfl rfl rfl⟩

/-! ### Offsets and addresses -/

theorem fits_small {m : BMem} {v : View} {w h : Nat} (wf : v.img.WF m) (fit : v.Fits w h) : w < 4294967296 ∧ h < 4294967296 := by
  obtain ⟨h1, h2, h3, h4, h5, _⟩ := View.facts wf fit
  have := fit.inX
  have := fit.inY
  omega

theorem offYX_eq {m : BMem} {v : View} {w h : Nat} (wf : v.img.WF m) (fit : v.Fits w h) : offYX v v.img.cc = v.start v.img.cc := by
  have e := View.start_eq wf fit
  obtain ⟨hcc, hr, _, _, _, _, h7, h8, _, _⟩ := View.facts wf fit
  have hrow := wf.row
  have hsm := wf.small
  have : (v.x + w) * v.img.cc ≤ v.img.width * v.img.cc := Nat.mul_le_mul_right _ fit.inX
  rw [Nat.add_mul] at this
  have h2 : (v.y + h) * v.img.rowSize ≤ v.img.height * v.img.rowSize := Nat.mul_le_mul_right _ fit.inY
  rw [Nat.add_mul, Nat.mul_comm v.img.height] at h2
  have h3 : 1 * v.img.rowSize ≤ h * v.img.rowSize := Nat.mul_le_mul_right _ fit.hpos
  have h4 : 1 * v.img.cc ≤ w * v.img.cc := Nat.mul_le_mul_right _ fit.wpos
  rw [offYX, View.start, u32_of_lt]
  rw [u32_of_lt h7, u32_of_lt h8]
  omega

/-- The rectangle with the coordinates of its corner exchanged: the one that calls with the wrong offset work on. -/
def swap (v : View) : View := ⟨v.img, v.y, v.x⟩

theorem swap_eq {v : View} (hd : v.x = v.y) : swap v = v := by
  obtain ⟨img, x, y⟩ := v
  have hd : x = y := hd
  subst hd
  rfl

theorem addr_of {m : BMem} {v : View} {w h cc off : Nat} (wf : v.img.WF m) (fit : v.Fits w h) (hcc : v.img.cc = cc) (h0 : 0 < cc)
    (ho : off = v.start v.img.cc) : (addr v.img.data off v.img.rowSize).Of v (PosMap.bytes w h cc h0) := by
  subst hcc
  intro X Y hX hY
  have h1 : X / v.img.cc < w := by rw [Nat.div_lt_iff_lt_mul h0]; exact hX
  have e : X = X / v.img.cc * v.img.cc + X % v.img.cc := by rw [Nat.mul_comm, Nat.div_add_mod]
  have hs := Cuda.row_small wf fit hX hY
  have hst : v.start v.img.cc < 8589934592 := by
    unfold View.start
    have a := u32_lt (v.y * v.img.rowSize)
    have b := u32_lt (v.x * v.img.cc)
    omega
  rw [addr, size64_keeps (Y * v.img.rowSize) (by omega), size64_keeps (off + _) (by omega), size64_keeps _ (by omega), ho]
  have := View.start_cell wf fit (X / v.img.cc) Y (X % v.img.cc)
  rw [← e] at this
  rw [this]
  rfl

theorem pixel_addr {m : BMem} {v : View} {w h cc off : Nat} (wf : v.img.WF m) (fit : v.Fits w h) (hcc : v.img.cc = cc) (h1 : cc = 1)
    (ho : off = v.start v.img.cc) : (addr v.img.data off v.img.rowSize).Of v (PosMap.pixels w h cc h1) := by
  have hv : v.img.cc = 1 := by omega
  have := addr_of wf fit hv (by decide) ho
  intro X Y hX hY
  rw [this X Y (by omega) hY]
  show (v.img.data, v.cell (X / 1) Y (X % 1)) = _
  rw [Nat.div_one, Nat.mod_one]
  rfl

theorem pixAddr_eq {m : BMem} {v : View} {w h off : Nat} (wf : v.img.WF m) (fit : v.Fits w h) (ho : off = v.start v.img.cc)
    {X Y : Nat} (hX : X < w) (hY : Y < h) : pixAddr v.img.data off v.img.rowSize v.img.cc X Y = (v.img.data, v.cell X Y 0) := by
  obtain ⟨hcc, _⟩ := View.facts wf fit
  have hs := Cuda.row_small wf fit (mul_add_lt hX hcc) hY
  rw [pixAddr, Nat.mul_comm v.img.rowSize, size64_keeps (Y * v.img.rowSize) (by omega), size64_keeps (X * v.img.cc) (by omega), ho,
    ← View.start_cell wf fit X Y 0]
  rfl

/-! ### Calls -/

theorem offYX_gray {m : BMem} {v : View} {w h : Nat} (wf : v.img.WF m) (fit : v.Fits w h) (g : v.img.cc = 1) : offYX v 1 = v.start v.img.cc := by
  rw [← offYX_eq wf fit, g]

theorem offXY_eq' {v : View} {cc : Nat} (hd : v.x = v.y) : offXY v cc = offYX v cc := by rw [offXY, offYX, hd]

theorem offXY_start {m : BMem} {v : View} {w h : Nat} (wf : v.img.WF m) (fit : (swap v).Fits w h) :
    offXY v v.img.cc = (swap v).start v.img.cc := offYX_eq (v := swap v) wf fit

theorem offXY_gray {m : BMem} {v : View} {w h : Nat} (wf : v.img.WF m) (fit : (swap v).Fits w h) (g : v.img.cc = 1) :
    offXY v 1 = (swap v).start v.img.cc := offYX_gray (v := swap v) wf fit g

section
variable {total : Nat} {m : BMem} {w h : Nat}

theorem binary_runs {in1 in2 out : View} {f : UInt8 → UInt8 → UInt8} (r : Ready2 m in1 in2 out w h) (d : Device total) :
    Runs (binary f total in1 in2 out w h) m fun m' => WritesRoi m m' out w h fun x y c => f (in1.get m x y c) (in2.get m x y c) := by
  obtain ⟨h1, _, _, _, _, _, _, _, h9, _⟩ := View.facts r.wfo r.fito
  refine Cuda.Runs_congr (c' := launch2D total (w * out.img.cc) h (guarded (w * out.img.cc) h (kernelBinary f
    (addr in1.img.data (offYX in1 out.img.cc) in1.img.rowSize) (addr in2.img.data (offYX in2 out.img.cc) in2.img.rowSize)
    (addr out.img.data (offYX out out.img.cc) out.img.rowSize)))) ?_ ?_
  · rw [binary, bind_ok (validate_pre_ok (vs := [in1, in2, out])
      (by simp; exact ⟨⟨r.wf1, r.fit1⟩, ⟨r.wf2, r.fit2⟩, r.wfo, r.fito⟩)), bind_ok (common_ok (by simp [r.c2, r.co])), ← r.co, u32_of_lt h9]
  · refine launch_runs d (Nat.mul_pos r.fito.wpos h1) r.fito.hpos h9 (fits_small r.wfo r.fito).2 fun L hL hk => ?_
    have e1 : in1.img.cc = out.img.cc := r.co.symm
    have e2 : in2.img.cc = out.img.cc := r.c2.trans r.co.symm
    exact kernelBinary_writes r.wf1 r.wf2 r.wfo r.fit1 r.fit2 r.fito e1 e2 r.n1 r.n2 hL (PosMap.bytes w h out.img.cc h1) hk
      (addr_of r.wf1 r.fit1 e1 h1 (by rw [← e1, offYX_eq r.wf1 r.fit1])) (addr_of r.wf2 r.fit2 e2 h1 (by rw [← e2, offYX_eq r.wf2 r.fit2]))
      (addr_of r.wfo r.fito rfl h1 (offYX_eq r.wfo r.fito))

theorem binary_bad {in1 in2 out : View} {f : UInt8 → UInt8 → UInt8} (hb : Bad [in1, in2, out] w h (SameColors2 in1 in2 out)) :
    binary f total in1 in2 out w h m = .throw m := rois_bad_then hb fun hc => bind_throw (common2_throw hc)

/-- One output byte per thread, for inputs found at `offI` and outputs at `offO`. -/
theorem unary_launch {inp out : View} {f : UInt8 → UInt8} {offI offO : Nat} (r : Ready1 m inp out w h) (d : Device total)
    (hi : offI = inp.start inp.img.cc) (ho : offO = out.start out.img.cc) :
    Runs (launch2D total (u32 (w * inp.img.cc)) h (guarded (u32 (w * inp.img.cc)) h (kernelUnary f (addr inp.img.data offI inp.img.rowSize)
      (addr out.img.data offO out.img.rowSize)))) m fun m' => WritesRoi m m' out w h fun x y c => f (inp.get m x y c) := by
  obtain ⟨h1, _, _, _, _, _, _, _, h9, _⟩ := View.facts r.wfo r.fito
  rw [← r.co, u32_of_lt h9]
  refine launch_runs d (Nat.mul_pos r.fito.wpos h1) r.fito.hpos h9 (fits_small r.wfo r.fito).2 fun L hL hk => ?_
  exact kernelUnary_writes r.wfi r.wfo r.fiti r.fito r.co.symm r.n1 hL (PosMap.bytes w h out.img.cc h1) hk
    (addr_of r.wfi r.fiti r.co.symm h1 hi) (addr_of r.wfo r.fito rfl h1 ho)

theorem invert_runs {inp out : View} (r : Ready1 m inp out w h) (d : Device total) :
    Runs (Invert total inp out w h) m fun m' => WritesRoi m m' out w h fun x y c => ~~~ inp.get m x y c := by
  refine Cuda.Runs_congr ?_ (unary_launch (f := (~~~ ·)) r d (offYX_eq r.wfi r.fiti) (offYX_eq r.wfo r.fito))
  rw [Invert, bind_ok (Cuda.validate_ready r), bind_ok (common_ok (by simp [r.co])), r.co]

theorem invert_bad {inp out : View} (hb : Bad [inp, out] w h (out.img.cc = inp.img.cc)) : Invert total inp out w h m = .throw m :=
  rois_bad_then hb fun hc => bind_throw (common_throw ⟨out.img, by simp, hc⟩)

/-- The rectangle that `Copy` writes to, wherever it is asked to write. -/
def second (v : View) : View := ⟨v.img, 0, 1⟩

theorem copy_runs {inp out : View} (r : Ready1 m inp out w h) (r' : Ready1 m (swap inp) (second out) w h) (d : Device total) :
    Runs (Copy total inp out w h) m fun m' => WritesRoi m m' (second out) w h fun x y c => (swap inp).get m x y c := by
  refine Cuda.Runs_congr ?_ ((unary_launch (f := id) (offO := out.img.rowSize) r' d (offXY_start r.wfi r'.fiti) ?_).mono fun _ h => h)
  · rw [Copy, bind_ok (Cuda.validate_ready r), bind_ok (common_ok (by simp [r.co]))]
    rfl
  · obtain ⟨_, _, h3, _⟩ := View.facts r.wfo r.fito
    rw [View.start, second, Nat.one_mul, Nat.zero_mul, u32_of_lt h3]
    rfl

theorem lookup_runs {inp out : View} {table : List UInt8} (hlen : table.length = 256) (r : Ready1 m inp out w h)
    (r' : Ready1 m (swap inp) out w h) (d : Device total) :
    Runs (LookupTable total inp out w h table) m fun m' =>
      WritesRoi m m' out w h fun x y c => Cuda.tableFn table hlen ((swap inp).get m x y c) := by
  refine Cuda.Runs_congr ?_ (unary_launch r' d (offXY_start r.wfi r'.fiti) (offYX_eq r.wfo r.fito))
  have hl : (table.length != 256) = false := by simp [hlen]
  rw [LookupTable, bind_ok (Cuda.validate_ready r), hl, throwIf_false, pure_bind', bind_ok (common_ok (by simp [r.co])),
    Cuda.kernelLookup_eq hlen, r.co]
  rfl

theorem unaryGray_runs {inp out : View} {f : UInt8 → UInt8} (r : Ready1 m inp out w h) (r' : Ready1 m (swap inp) out w h) (g : inp.img.cc = 1)
    (d : Device total) :
    Runs (unaryGray f total inp out w h) m fun m' => WritesRoi m m' out w h fun x y c => f ((swap inp).get m x y c) := by
  have g' : out.img.cc = 1 := by rw [r.co, g]
  obtain ⟨s1, s2⟩ := fits_small r.wfo r.fito
  refine Cuda.Runs_congr (c' := launch2D total w h (guarded w h (kernelUnary f (addr inp.img.data (offXY inp 1) inp.img.rowSize)
    (addr out.img.data (offYX out 1) out.img.rowSize)))) ?_ (launch_runs d r.fito.wpos r.fito.hpos s1 s2 fun L hL hk => ?_)
  · rw [unaryGray, bind_ok (Cuda.validate_ready r), bind_ok (gray_ok (by simp [g, g']))]
  · exact kernelUnary_writes r'.wfi r.wfo r'.fiti r.fito r.co.symm r'.n1 hL (PosMap.pixels w h out.img.cc g') hk
      (pixel_addr r'.wfi r'.fiti r.co.symm g' (offXY_gray r.wfi r'.fiti g)) (pixel_addr r.wfo r.fito rfl g' (offYX_gray r.wfo r.fito g'))

theorem fill_runs {v : View} {value : UInt8} (o : One m v w h) (o' : One m (swap v) w h) (g : v.img.cc = 1) (d : Device total) :
    Runs (Fill total v w h value) m fun m' => WritesRoi m m' (swap v) w h fun _ _ _ => value := by
  obtain ⟨s1, s2⟩ := fits_small o.wf o.fit
  refine Cuda.Runs_congr (c' := launch2D total w h (guarded w h (kernelFill value (addr v.img.data (offXY v 1) v.img.rowSize)))) ?_
    (launch_runs d o.fit.wpos o.fit.hpos s1 s2 fun L hL hk => ?_)
  · rw [Fill, bind_ok (Cuda.validate_one o), bind_ok (gray_ok (by simp [g]))]
  · exact kernelFill_writes o'.wf o'.fit hL (PosMap.pixels w h v.img.cc g) hk (pixel_addr o'.wf o'.fit rfl g (offXY_gray o.wf o'.fit g))

theorem extract_runs {inp out : View} {ch : Nat} (p : Pair m inp w h out w h) (co : out.img.cc = 1) (hch : ch < inp.img.cc) (d : Device total)
    (hd : inp.x = inp.y) (hone : h = 1 ∨ inp.img.cc = 1) :
    Runs (ExtractChannel total inp out w h ch) m fun m' => WritesRoi m m' out w h fun x y _ => inp.get m x y ch := by
  obtain ⟨s1, s2⟩ := fits_small p.wfo p.fito
  have hdc : decide (ch ≥ inp.img.cc) = false := by simp; omega
  have c4 : inp.img.cc ≤ 4 := by rcases p.fiti.colors with h | h | h <;> omega
  refine Cuda.Runs_congr (c' := launch2D total w h (guarded w h (kernelUnary id
    (fun x y => (inp.img.data, size64 (size64 (offXY inp inp.img.cc + size64 (size64 (size64 (y * inp.img.rowSize) + x) * inp.img.cc)) + ch)))
    (addr out.img.data (offYX out 1) out.img.rowSize)))) ?_ (launch_runs d p.fito.wpos p.fito.hpos s1 s2 fun L hL hk => ?_)
  · rw [ExtractChannel, bind_ok (Cuda.validate_pair p), bind_ok (gray_ok (by simp [co])), hdc, throwIf_false, pure_bind']
  · refine kernelUnary_apart p.wfi p.wfo p.fiti p.fito p.apart hL (PosMap.pixels w h out.img.cc co) hk (fun x y _ => (x, y, ch))
      (fun x y c hx hy hc => ⟨hx, hy, hch⟩) ?_ (pixel_addr p.wfo p.fito rfl co (offYX_gray p.wfo p.fito co))
    rintro X Y hX hY _ rfl
    obtain ⟨hcc, _⟩ := View.facts p.wfi p.fiti
    have hr := Cuda.row_small p.wfi p.fiti (mul_add_lt hX hcc) hY
    have hst : inp.start inp.img.cc < 8589934592 := by
      unfold View.start
      have a := u32_lt (inp.y * inp.img.rowSize)
      have b := u32_lt (inp.x * inp.img.cc)
      omega
    have e : (Y * inp.img.rowSize + X) * inp.img.cc = Y * inp.img.rowSize + X * inp.img.cc := by
      rcases hone with h1 | h1
      · have : Y = 0 := by omega
        rw [this, Nat.zero_mul, Nat.zero_add, Nat.zero_add]
      · rw [h1, Nat.mul_one, Nat.mul_one]
    have hX1 : X * 1 ≤ X * inp.img.cc := Nat.mul_le_mul_left _ hcc
    show (inp.img.data, _) = (inp.img.data, inp.cell X Y ch)
    rw [size64_keeps (Y * inp.img.rowSize) (by omega), size64_keeps (_ + X) (by omega), e, size64_keeps (_ + X * _) (by omega),
      offXY_eq' hd, offYX_eq p.wfi p.fiti, size64_keeps (inp.start _ + _) (by omega), size64_keeps _ (by omega), ← View.start_cell p.wfi p.fiti]
    congr 1
    omega

theorem flipCoord_eq {flag : Bool} {n i : Nat} (hi : i < n) (hn : n < 4294967296) : flipCoord flag n i = mirror flag n i := by
  unfold flipCoord mirror
  split
  · rw [show n + 18446744073709551615 - i = (n - 1 - i) + 18446744073709551616 by omega, size64, Nat.add_mod_right, Nat.mod_eq_of_lt (by omega)]
  · rfl

theorem flip_runs {inp out : View} (hor ver : Bool) (p : Pair m inp w h out w h) (ci : inp.img.cc = 1) (co : out.img.cc = 1) (d : Device total)
    (hf : (hor || ver) = true) (hw : w = inp.img.width) (hh : h = inp.img.height) :
    Runs (Flip total inp out w h hor ver) m fun m' => WritesRoi m m' out w h fun x y c => inp.get m (mirror hor w x) (mirror ver h y) c := by
  obtain ⟨s1, s2⟩ := fits_small p.wfo p.fito
  have hf' : (!hor && !ver) = false := by cases hor <;> cases ver <;> first | rfl | cases hf
  refine Cuda.Runs_congr (c' := launch2D total w h (guarded w h (kernelUnary id (addr inp.img.data (offYX inp 1) inp.img.rowSize)
      (fun x y => addr out.img.data (offYX out 1) out.img.rowSize (flipCoord hor w x) (flipCoord ver h y))))) ?_
      (launch_runs d p.fito.wpos p.fito.hpos s1 s2 fun L hL hk => ?_)
  · rw [Flip, bind_ok (Cuda.validate_pair p), bind_ok (gray_ok (by simp [ci, co])), hf', hw, hh]
    rfl
  · refine (kernelUnary_apart p.wfi p.wfo p.fiti p.fito p.apart hL (PosMap.mirrored w h out.img.cc co hor ver) hk
        (fun x y c => (mirror hor w x, mirror ver h y, c)) (fun x y c hx hy hc => ⟨mirror_lt hx, mirror_lt hy, by rw [ci, ← co]; exact hc⟩)
        ?_ ?_).mono fun m' h => h
    · rintro X Y hX hY _ rfl
      rw [pixel_addr p.wfi p.fiti (ci.trans co.symm) co (offYX_gray p.wfi p.fiti ci) X Y hX hY]
      show (inp.img.data, inp.cell X Y 0) = (inp.img.data, inp.cell (mirror hor w (mirror hor w X)) (mirror ver h (mirror ver h Y)) 0)
      rw [mirror_mirror hX, mirror_mirror hY]
    · intro X Y hX hY
      show addr out.img.data (offYX out 1) out.img.rowSize (flipCoord hor w X) (flipCoord ver h Y) = _
      rw [flipCoord_eq hX s1, flipCoord_eq hY s2, pixel_addr p.wfo p.fito rfl co (offYX_gray p.wfo p.fito co) _ _ (mirror_lt hX) (mirror_lt hY)]
      rfl

/-- The call of a conversion returns a launch. -/
def Launches (call : M BMem (Option Launch)) (m : BMem) (Q : BMem → Prop) : Prop := ∃ L, call m = .ok (some L) m ∧ L.Always m Q

theorem gray_runs {inp out : View} (p : Pair m inp w h out w h) (p' : Pair m (swap inp) w h out w h) (ci : inp.img.cc ≠ 1) (co : out.img.cc = 1)
    (d : Device total) :
    Launches (ConvertToGrayScale total inp out w h) m fun m' => WritesRoi m m' out w h fun x y _ =>
      UInt8.ofNat (((List.range inp.img.cc).map fun c => ((swap inp).get m x y c).toNat).sum / inp.img.cc) := by
  obtain ⟨s1, s2⟩ := fits_small p.wfo p.fito
  have hb : (inp.img.cc == 1) = false := by simpa using ci
  obtain ⟨L, h1, h2⟩ := launch_runs (m := m) (kernel := guarded w h (Cuda.kernelGray inp.img.cc
      (pixAddr inp.img.data (offXY inp inp.img.cc) inp.img.rowSize inp.img.cc) (addr out.img.data (offYX out out.img.cc) out.img.rowSize)))
    d p.fito.wpos p.fito.hpos s1 s2 fun L hL hk =>
    kernelGray_writes p' co hL hk (fun X Y hX hY => pixAddr_eq p'.wfi p'.fiti (offXY_start p.wfi p'.fiti) hX hY)
      (pixel_addr p.wfo p.fito rfl co (offYX_eq p.wfo p.fito))
  refine ⟨L, ?_, h2⟩
  rw [ConvertToGrayScale, bind_ok (Cuda.validate_pair p), bind_ok (gray_ok (by simp [co])), hb]
  exact bind_ok h1

theorem rgb_runs {inp out : View} (p : Pair m inp w h out w h) (p' : Pair m (swap inp) w h out w h) (ci : inp.img.cc = 1) (co : out.img.cc = 3)
    (d : Device total) :
    Launches (ConvertToRgb total inp out w h) m fun m' => WritesRoi m m' out w h fun x y _ => (swap inp).get m x y 0 := by
  obtain ⟨s1, s2⟩ := fits_small p.wfo p.fito
  have hb : (inp.img.cc == 3) = false := by simp [ci]
  obtain ⟨L, h1, h2⟩ := launch_runs (m := m) (kernel := guarded w h (Cuda.kernelRgb out.img.cc
      (addr inp.img.data (offXY inp inp.img.cc) inp.img.rowSize) (pixAddr out.img.data (offYX out out.img.cc) out.img.rowSize out.img.cc)))
    d p.fito.wpos p.fito.hpos s1 s2 fun L hL hk =>
    kernelRgb_writes p' (show 0 < inp.img.cc by omega) hL hk
      (fun X Y hX hY => pixel_addr p'.wfi p'.fiti ci rfl (offXY_start p.wfi p'.fiti) X Y hX hY)
      (fun X Y hX hY => pixAddr_eq p.wfo p.fito (offYX_eq p.wfo p.fito) hX hY)
  refine ⟨L, ?_, h2⟩
  rw [ConvertToRgb, bind_ok (Cuda.validate_pair p), bind_ok (rgb_ok (by simp [co])), hb]
  exact bind_ok h1

end
end PV.OpenCl
