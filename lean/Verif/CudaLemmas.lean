import Verif.Cuda
import Verif.PropsNormalize
import Verif.PropsChannel
/-
  Lemmas about the calls of Verif/Cuda.lean.
-/
namespace PV

/-- The call returns a launch, and the launch leads to `Q` in every order of the accesses. -/
def Runs (call : M BMem Launch) (m : BMem) (Q : BMem → Prop) : Prop := ∃ L, call m = .ok L m ∧ L.Always m Q

theorem Launch.Always.mono {L : Launch} {m : BMem} {Q Q' : BMem → Prop} (h : L.Always m Q) (hq : ∀ m', Q m' → Q' m') :
    L.Always m Q' := ⟨h.safe, h.ends, fun σ hd => hq _ (h.result σ hd)⟩

theorem Runs.mono {call : M BMem Launch} {m : BMem} {Q Q' : BMem → Prop} (h : Runs call m Q) (hq : ∀ m', Q m' → Q' m') :
    Runs call m Q' := by
  obtain ⟨L, h1, h2⟩ := h
  exact ⟨L, h1, h2.mono hq⟩

/-- One thread for every pixel of a gray-scale rectangle. -/
def PosMap.pixels (w h cc : Nat) (hcc : cc = 1) : PosMap w h w h cc where
  pos X Y := (X, Y, 0)
  owner x y _ := (x, y)
  posIn X Y hX hY := ⟨hX, hY, by show 0 < cc; omega⟩
  ownerIn x y c hx hy hc := ⟨hx, hy⟩
  left X Y _ _ := rfl
  right x y c _ _ hc := by
    have : c = 0 := by omega
    rw [this]

/-- The same with mirrored coordinates. -/
def PosMap.mirrored (w h cc : Nat) (hcc : cc = 1) (hor ver : Bool) : PosMap w h w h cc where
  pos X Y := (Props.mirror hor w X, Props.mirror ver h Y, 0)
  owner x y _ := (Props.mirror hor w x, Props.mirror ver h y)
  posIn X Y hX hY := ⟨Props.mirror_lt hX, Props.mirror_lt hY, by show 0 < cc; omega⟩
  ownerIn x y c hx hy hc := ⟨Props.mirror_lt hx, Props.mirror_lt hy⟩
  left X Y hX hY := by rw [Props.mirror_mirror hX, Props.mirror_mirror hY]
  right x y c hx hy hc := by
    have : c = 0 := by omega
    rw [Props.mirror_mirror hx, Props.mirror_mirror hy, this]

end PV

namespace PV.Cuda
open Props (Ready1 Ready2 Pair Bad rois_bad_then SameColors2 common2_throw Gray1 mirror mirror_lt mirror_mirror)

theorem launch_runs {d : CudaDevice} {m : BMem} {W H : Nat} {kernel : Nat → Nat → Prog UInt8 Unit} {Q : BMem → Prop}
    (s : d.Serves W H) (hW : 0 < W) (hH : 0 < H) (h : ∀ L : Launch, L.Covers W H → L.kernel = kernel → L.Always m Q) :
    Runs (launch2D d W H kernel) m Q := by
  obtain ⟨L, e, hk, hL⟩ := launch2D_ok (μ := BMem) s hW hH kernel
  exact ⟨L, by rw [e]; rfl, h L hL hk⟩

theorem Runs_congr {c c' : M BMem Launch} {m : BMem} {Q : BMem → Prop} (h : c m = c' m) (r : Runs c' m Q) : Runs c m Q := by
  obtain ⟨L, h1, h2⟩ := r
  exact ⟨L, by rw [h, h1], h2⟩

theorem pixel_addr {m : BMem} {v : View} {w h cc : Nat} (wf : v.img.WF m) (fit : v.Fits w h) (hcc : v.img.cc = cc) (h1 : cc = 1)
    {addr : Nat × Nat → Nat → Addr} (ha : addr = ptrAddr ∨ addr = idxAddr) :
    (addr (base v 1) v.img.rowSize).Of v (PosMap.pixels w h cc h1) := by
  have hv : v.img.cc = 1 := by omega
  have := addr_of wf fit hv (by decide) ha
  intro X Y hX hY
  rw [this X Y (by omega) hY]
  show (v.img.data, v.cell (X / 1) Y (X % 1)) = _
  rw [Nat.div_one, Nat.mod_one]
  rfl

theorem binary_runs {d : CudaDevice} {m : BMem} {in1 in2 out : View} {w h : Nat} {f : UInt8 → UInt8 → UInt8}
    {addr : Nat × Nat → Nat → Addr} (ha : addr = ptrAddr ∨ addr = idxAddr) (r : Ready2 m in1 in2 out w h)
    (s : d.Serves (w * out.img.cc) h) :
    Runs (binary addr f d in1 in2 out w h) m fun m' =>
      WritesRoi m m' out w h fun x y c => f (in1.get m x y c) (in2.get m x y c) := by
  obtain ⟨h1, _, _, _, _, _, _, _, h9, _⟩ := View.facts r.wfo r.fito
  refine Runs_congr (c' := launch2D d (w * out.img.cc) h (guarded (w * out.img.cc) h (kernelBinary f (addr (base in1 out.img.cc) in1.img.rowSize)
    (addr (base in2 out.img.cc) in2.img.rowSize) (addr (base out out.img.cc) out.img.rowSize)))) ?_ ?_
  · rw [binary, bind_ok (validate_pre_ok (vs := [in1, in2, out])
      (by simp; exact ⟨⟨r.wf1, r.fit1⟩, ⟨r.wf2, r.fit2⟩, r.wfo, r.fito⟩)), bind_ok (common_ok (by simp [r.c2, r.co])), ← r.co, u32_of_lt h9]
  · refine launch_runs s (Nat.mul_pos r.fito.wpos h1) r.fito.hpos fun L hL hk => ?_
    exact kernelBinary_writes r.wf1 r.wf2 r.wfo r.fit1 r.fit2 r.fito r.co.symm (r.c2.trans r.co.symm) r.n1 r.n2 hL
      (PosMap.bytes w h out.img.cc h1) hk (addr_of r.wf1 r.fit1 r.co.symm h1 ha) (addr_of r.wf2 r.fit2 (r.c2.trans r.co.symm) h1 ha)
      (addr_of r.wfo r.fito rfl h1 ha)

theorem binary_bad {d : CudaDevice} {m : BMem} {in1 in2 out : View} {w h : Nat} {f : UInt8 → UInt8 → UInt8}
    {addr : Nat × Nat → Nat → Addr} (hb : Bad [in1, in2, out] w h (SameColors2 in1 in2 out)) :
    binary addr f d in1 in2 out w h m = .throw m :=
  rois_bad_then hb fun hc => bind_throw (common2_throw hc)

/-- The part of `unary` and `LookupTable` after the checks. -/
theorem unary_launch {d : CudaDevice} {m : BMem} {inp out : View} {w h : Nat} {f : UInt8 → UInt8}
    (r : Ready1 m inp out w h) (s : d.Serves (w * out.img.cc) h) :
    Runs (launch2D d (u32 (w * inp.img.cc)) h (guarded (u32 (w * inp.img.cc)) h (kernelUnary f (idxAddr (base inp inp.img.cc) inp.img.rowSize)
      (idxAddr (base out inp.img.cc) out.img.rowSize)))) m fun m' => WritesRoi m m' out w h fun x y c => f (inp.get m x y c) := by
  obtain ⟨h1, _, _, _, _, _, _, _, h9, _⟩ := View.facts r.wfo r.fito
  rw [← r.co, u32_of_lt h9]
  refine launch_runs s (Nat.mul_pos r.fito.wpos h1) r.fito.hpos fun L hL hk => ?_
  exact kernelUnary_writes r.wfi r.wfo r.fiti r.fito r.co.symm r.n1 hL (PosMap.bytes w h out.img.cc h1) hk
    (addr_of r.wfi r.fiti r.co.symm h1 (Or.inr rfl)) (addr_of r.wfo r.fito rfl h1 (Or.inr rfl))

theorem validate_ready {m : BMem} {inp out : View} {w h : Nat} (r : Ready1 m inp out w h) :
    validateRois [inp, out] w h m = .ok () m :=
  validate_pre_ok (vs := [inp, out]) (by simp; exact ⟨⟨r.wfi, r.fiti⟩, r.wfo, r.fito⟩)

theorem validate_pair {m : BMem} {inp out : View} {w h : Nat} (r : Pair m inp w h out w h) :
    validateRois [inp, out] w h m = .ok () m :=
  validate_pre_ok (vs := [inp, out]) (by simp; exact ⟨⟨r.wfi, r.fiti⟩, r.wfo, r.fito⟩)

theorem unary_runs {d : CudaDevice} {m : BMem} {inp out : View} {w h : Nat} {f : UInt8 → UInt8}
    (r : Ready1 m inp out w h) (s : d.Serves (w * out.img.cc) h) :
    Runs (unary f d inp out w h) m fun m' => WritesRoi m m' out w h fun x y c => f (inp.get m x y c) := by
  refine Runs_congr ?_ (unary_launch r s)
  rw [unary, bind_ok (validate_ready r), bind_ok (common_ok (by simp [r.co]))]

theorem unary_bad {d : CudaDevice} {m : BMem} {inp out : View} {w h : Nat} {f : UInt8 → UInt8}
    (hb : Bad [inp, out] w h (out.img.cc = inp.img.cc)) : unary f d inp out w h m = .throw m :=
  rois_bad_then hb fun hc => bind_throw (common_throw ⟨out.img, by simp, hc⟩)

theorem gray_pair_throw {m : BMem} {inp out : View} (hc : ¬ Gray1 inp out) : verifyGray [inp.img, out.img] m = .throw m := by
  refine gray_throw ?_
  by_cases h1 : inp.img.cc = 1
  · exact ⟨out.img, by simp, fun h2 => hc ⟨h1, h2⟩⟩
  · exact ⟨inp.img, by simp, h1⟩

theorem unaryGray_runs {d : CudaDevice} {m : BMem} {inp out : View} {w h : Nat} {f : UInt8 → UInt8}
    (r : Ready1 m inp out w h) (g : inp.img.cc = 1) (s : d.Serves w h) :
    Runs (unaryGray f d inp out w h) m fun m' => WritesRoi m m' out w h fun x y c => f (inp.get m x y c) := by
  have g' : out.img.cc = 1 := by rw [r.co, g]
  refine Runs_congr (c' := launch2D d w h (guarded w h (kernelUnary f (idxAddr (base inp 1) inp.img.rowSize)
    (idxAddr (base out 1) out.img.rowSize)))) ?_ (launch_runs s r.fito.wpos r.fito.hpos fun L hL hk => ?_)
  · rw [unaryGray, bind_ok (validate_ready r), bind_ok (gray_ok (by simp [g, g']))]
  · exact kernelUnary_writes r.wfi r.wfo r.fiti r.fito r.co.symm r.n1 hL (PosMap.pixels w h out.img.cc g') hk
      (pixel_addr r.wfi r.fiti r.co.symm g' (Or.inr rfl)) (pixel_addr r.wfo r.fito rfl g' (Or.inr rfl))

theorem unaryGray_bad {d : CudaDevice} {m : BMem} {inp out : View} {w h : Nat} {f : UInt8 → UInt8}
    (hb : Bad [inp, out] w h (Gray1 inp out)) : unaryGray f d inp out w h m = .throw m :=
  rois_bad_then hb fun hc => bind_throw (gray_pair_throw hc)

/-- A table with 256 entries is a function. -/
def tableFn (table : List UInt8) (hlen : table.length = 256) (v : UInt8) : UInt8 :=
  table[v.toNat]'(by rw [hlen]; exact UInt8.toNat_lt _)

theorem kernelLookup_eq {table : List UInt8} (hlen : table.length = 256) (a ao : Addr) :
    kernelLookup table a ao = kernelUnary (tableFn table hlen) a ao := by
  funext x y
  unfold kernelLookup kernelUnary
  congr 1
  funext p
  have : table[p.toNat]? = some (tableFn table hlen p) := List.getElem?_eq_getElem _
  rw [this]

theorem lookup_runs {d : CudaDevice} {m : BMem} {inp out : View} {w h : Nat} {table : List UInt8} (hlen : table.length = 256)
    (r : Ready1 m inp out w h) (s : d.Serves (w * out.img.cc) h) :
    Runs (LookupTable d inp out w h table) m fun m' => WritesRoi m m' out w h fun x y c => tableFn table hlen (inp.get m x y c) := by
  refine Runs_congr ?_ (unary_launch r s)
  have hl : (table.length != 256) = false := by simp [hlen]
  rw [LookupTable, bind_ok (validate_ready r), hl, throwIf_false, pure_bind', bind_ok (common_ok (by simp [r.co])),
    kernelLookup_eq hlen]

theorem lookup_bad {d : CudaDevice} {m : BMem} {inp out : View} {w h : Nat} {table : List UInt8}
    (hb : Bad [inp, out] w h (out.img.cc = inp.img.cc ∧ table.length = 256)) : LookupTable d inp out w h table m = .throw m := by
  refine rois_bad_then hb fun hc => ?_
  by_cases hl : table.length = 256
  · have : (table.length != 256) = false := by simp [hl]
    rw [this, throwIf_false, pure_bind', bind_throw (common_throw ⟨out.img, by simp, fun h => hc ⟨h, hl⟩⟩)]
  · have : (table.length != 256) = true := by simp [hl]
    rw [this]
    exact bind_throw (throwIf_true m)

theorem fill_runs {d : CudaDevice} {m : BMem} {v : View} {w h : Nat} {value : UInt8} (wf : v.img.WF m) (fit : v.Fits w h)
    (g : v.img.cc = 1) (s : d.Serves w h) :
    Runs (Fill d v w h value) m fun m' => WritesRoi m m' v w h fun _ _ _ => value := by
  refine Runs_congr (c' := launch2D d w h (guarded w h (kernelFill value (idxAddr (base v 1) v.img.rowSize)))) ?_
    (launch_runs s fit.wpos fit.hpos fun L hL hk => ?_)
  · rw [Fill, bind_ok (validate_pre_ok (vs := [v]) (by simp; exact ⟨wf, fit⟩)), bind_ok (gray_ok (by simp [g]))]
  · exact kernelFill_writes wf fit hL (PosMap.pixels w h v.img.cc g) hk (pixel_addr wf fit rfl g (Or.inr rfl))

theorem fill_bad {d : CudaDevice} {m : BMem} {v : View} {w h : Nat} {value : UInt8} (hb : Bad [v] w h (v.img.cc = 1)) :
    Fill d v w h value m = .throw m :=
  rois_bad_then hb fun hc => bind_throw (gray_throw ⟨v.img, by simp, hc⟩)

/-! ### ExtractChannel and Flip -/

theorem extract_runs {d : CudaDevice} {m : BMem} {inp out : View} {w h ch : Nat} (p : Pair m inp w h out w h)
    (co : out.img.cc = 1) (hch : ch < inp.img.cc) (s : d.Serves w h) :
    Runs (ExtractChannel d inp out w h ch) m fun m' => WritesRoi m m' out w h fun x y _ => inp.get m x y ch := by
  have hd : decide (ch ≥ inp.img.cc) = false := by simp; omega
  refine Runs_congr (c' := launch2D d w h (guarded w h (kernelUnary id
    (fun x y => idxAddr (inp.img.data, inp.start inp.img.cc + ch) inp.img.rowSize (u32 (x * inp.img.cc)) y)
    (idxAddr (base out 1) out.img.rowSize)))) ?_ (launch_runs s p.fito.wpos p.fito.hpos fun L hL hk => ?_)
  · rw [ExtractChannel, bind_ok (validate_pair p), bind_ok (gray_ok (by simp [co])), hd, throwIf_false, pure_bind']
  · refine kernelUnary_apart p.wfi p.wfo p.fiti p.fito p.apart hL (PosMap.pixels w h out.img.cc co) hk (fun x y _ => (x, y, ch))
      (fun x y c hx hy hc => ⟨hx, hy, hch⟩) ?_ (pixel_addr p.wfo p.fito rfl co (Or.inr rfl))
    rintro X Y hX hY _ rfl
    have h0 : X * inp.img.cc + 0 < w * inp.img.cc := mul_add_lt hX (by omega)
    have hr := row_small p.wfi p.fiti h0 hY
    show (inp.img.data, inp.start inp.img.cc + ch + u32 (u32 (Y * inp.img.rowSize) + u32 (X * inp.img.cc))) = (inp.img.data, inp.cell X Y ch)
    rw [u32_of_lt (n := X * inp.img.cc) (by omega), u32_of_lt (n := Y * inp.img.rowSize) (by omega), u32_of_lt (by omega),
      ← View.start_cell p.wfi p.fiti]
    congr 1
    omega

theorem extract_bad {d : CudaDevice} {m : BMem} {inp out : View} {w h ch : Nat}
    (hb : Bad [inp, out] w h (out.img.cc = 1 ∧ ch < inp.img.cc)) : ExtractChannel d inp out w h ch m = .throw m := by
  refine rois_bad_then hb fun hc => ?_
  by_cases h1 : out.img.cc = 1
  · have hd : decide (ch ≥ inp.img.cc) = true := by simp; exact Nat.le_of_not_lt fun h => hc ⟨h1, h⟩
    rw [bind_ok (gray_ok (by simp [h1])), hd]
    exact bind_throw (throwIf_true m)
  · exact bind_throw (gray_throw ⟨out.img, by simp, h1⟩)

theorem flipCoord_eq {flag : Bool} {n i : Nat} (hi : i < n) (hn : n < 4294967296) : flipCoord flag n i = mirror flag n i := by
  unfold flipCoord mirror
  split
  · rw [show n + 4294967295 - i = (n - 1 - i) + 4294967296 by omega, u32, Nat.add_mod_right, Nat.mod_eq_of_lt (by omega)]
  · rfl

theorem flip_runs {d : CudaDevice} {m : BMem} {inp out : View} {w h : Nat} (hor ver : Bool) (p : Pair m inp w h out w h)
    (ci : inp.img.cc = 1) (co : out.img.cc = 1) (s : d.Serves w h) :
    Runs (Flip d inp out w h hor ver) m fun m' =>
      WritesRoi m m' out w h fun x y c => inp.get m (mirror hor w x) (mirror ver h y) c := by
  have s' : d.Serves (w * out.img.cc) h := by rw [co, Nat.mul_one]; exact s
  have r : Ready1 m inp out w h := ⟨p.wfi, p.wfo, p.fiti, p.fito, by rw [ci, co], noClash_of_apart p.apart⟩
  obtain ⟨_, _, _, _, _, _, _, _, h9, _⟩ := View.facts p.wfo p.fito
  have hw : w < 4294967296 := by rw [co, Nat.mul_one] at h9; exact h9
  have hh : h < 4294967296 := by have := s.hsmall; have := s.tpos; omega
  cases hf : (!hor && !ver) with
  | true =>
    simp only [Bool.and_eq_true, Bool.not_eq_eq_eq_not, Bool.not_true] at hf
    obtain ⟨rfl, rfl⟩ := hf
    refine Runs_congr ?_ ((unary_runs (f := id) r s').mono fun m' h => h)
    rw [Flip, bind_ok (validate_pair p), bind_ok (gray_ok (by simp [ci, co]))]
    rfl
  | false =>
    refine Runs_congr (c' := launch2D d w h (guarded w h (kernelUnary id (idxAddr (base inp 1) inp.img.rowSize)
      (fun x y => idxAddr (base out 1) out.img.rowSize (flipCoord hor w x) (flipCoord ver h y))))) ?_
      (launch_runs s p.fito.wpos p.fito.hpos fun L hL hk => ?_)
    · rw [Flip, bind_ok (validate_pair p), bind_ok (gray_ok (by simp [ci, co])), hf, ci]
      show launch2D d (u32 (w * 1)) h (guarded (u32 (w * 1)) h _) m = _
      rw [Nat.mul_one, u32_of_lt hw]
    · refine (kernelUnary_apart p.wfi p.wfo p.fiti p.fito p.apart hL (PosMap.mirrored w h out.img.cc co hor ver) hk
        (fun x y c => (mirror hor w x, mirror ver h y, c)) (fun x y c hx hy hc => ⟨mirror_lt hx, mirror_lt hy, by rw [ci, ← co]; exact hc⟩)
        ?_ ?_).mono fun m' h => h
      · rintro X Y hX hY _ rfl
        rw [pixel_addr p.wfi p.fiti (ci.trans co.symm) co (Or.inr rfl) X Y hX hY]
        show (inp.img.data, inp.cell X Y 0) = (inp.img.data, inp.cell (mirror hor w (mirror hor w X)) (mirror ver h (mirror ver h Y)) 0)
        rw [mirror_mirror hX, mirror_mirror hY]
      · intro X Y hX hY
        show idxAddr (base out 1) out.img.rowSize (flipCoord hor w X) (flipCoord ver h Y) = _
        rw [flipCoord_eq hX hw, flipCoord_eq hY hh, pixel_addr p.wfo p.fito rfl co (Or.inr rfl) _ _ (mirror_lt hX) (mirror_lt hY)]
        rfl

theorem flip_bad {d : CudaDevice} {m : BMem} {inp out : View} {w h : Nat} (hor ver : Bool)
    (hb : Bad [inp, out] w h (Gray1 inp out)) : Flip d inp out w h hor ver m = .throw m :=
  rois_bad_then hb fun hc => bind_throw (gray_pair_throw hc)

/-! ### Conversion of colours -/

theorem kernelGray_run {m : BMem} {b i : Nat} {cc : Nat} (hcc : 0 < cc) (hsmall : cc ≤ 4) (hv : ∀ c, c < cc → m.Valid b (i + c)) {bo io : Nat}
    (hvo : m.Valid bo io) {a ao : Addr} {x y : Nat} (ha : a x y = (b, i)) (hao : ao x y = (bo, io)) :
    (kernelGray cc a ao x y).run m = .ok () (m.set bo io (UInt8.ofNat (((List.range cc).map fun c => (m.byte b (i + c)).toNat).sum / cc))) := by
  have key : ∀ n, n ≤ cc → ∀ s, s + 256 * n ≤ 4294967296 → ∀ k, k + n = cc →
      fold (fun c sum => (do
        let v ← Prog.load (a x y).1 ((a x y).2 + c)
        pure (u32 (sum + v.toNat)) : Prog UInt8 Nat).run) (List.range' k n) s m
        = .ok (s + ((List.range' k n).map fun c => (m.byte b (i + c)).toNat).sum) m := by
    intro n
    induction n with
    | zero => intro _ s _ k _; rfl
    | succ n ih =>
      intro hn s hs k hk
      rw [List.range'_succ, fold_cons]
      have h1 : (do
        let v ← Prog.load (a x y).1 ((a x y).2 + k)
        pure (u32 (s + v.toNat)) : Prog UInt8 Nat).run m = .ok (s + (m.byte b (i + k)).toNat) m := by
        rw [ha, Prog.run_bind, Prog.run_load, bind_ok (readC_valid (hv k (by omega)))]
        have := (m.byte b (i + k)).toNat_lt
        show Res.ok (u32 _) m = _
        rw [u32_of_lt (by omega)]
      have := (m.byte b (i + k)).toNat_lt
      rw [bind_ok h1, ih (by omega) _ (by omega) (k + 1) (by omega), List.map_cons, List.sum_cons, Nat.add_assoc]
  have h1 := key cc (Nat.le_refl _) 0 (by omega) 0 (by omega)
  rw [← List.range_eq_range', Nat.zero_add] at h1
  rw [kernelGray, Prog.run_bind, Prog.run_fold, bind_ok h1, if_neg (by omega), hao, Prog.run_store, writeC_valid hvo]

theorem gray_runs {d : CudaDevice} {m : BMem} {inp out : View} {w h : Nat} (p : Pair m inp w h out w h)
    (ci : inp.img.cc ≠ 1) (co : out.img.cc = 1) (s : d.Serves w h) :
    Runs (ConvertToGrayScale d inp out w h) m fun m' => WritesRoi m m' out w h fun x y _ =>
      UInt8.ofNat (((List.range inp.img.cc).map fun c => (inp.get m x y c).toNat).sum / inp.img.cc) := by
  obtain ⟨c1, _⟩ := View.facts p.wfi p.fiti
  have c4 : inp.img.cc ≤ 4 := by rcases p.fiti.colors with h | h | h <;> omega
  have hb : (inp.img.cc == 1) = false := by simpa using ci
  have haddr : ∀ X Y, X < w → Y < h → ∀ c, (inp.img.data, inp.start inp.img.cc + u32 (Y * inp.img.rowSize) + u32 (X * inp.img.cc) + c)
      = (inp.img.data, inp.cell X Y c) := by
    intro X Y hX hY c
    have h0 : X * inp.img.cc + 0 < w * inp.img.cc := mul_add_lt hX (by omega)
    have hr := row_small p.wfi p.fiti h0 hY
    rw [u32_of_lt (n := X * inp.img.cc) (by omega), u32_of_lt (n := Y * inp.img.rowSize) (by omega), ← View.start_cell p.wfi p.fiti]
    congr 1
    omega
  refine Runs_congr (c' := launch2D d w h (guarded w h (kernelGray inp.img.cc
      (fun x y => (inp.img.data, inp.start inp.img.cc + u32 (y * inp.img.rowSize) + u32 (x * inp.img.cc)))
      (idxAddr (base out 1) out.img.rowSize)))) ?_ (launch_runs s p.fito.wpos p.fito.hpos fun L hL hk => ?_)
  · rw [ConvertToGrayScale, bind_ok (validate_pair p), bind_ok (gray_ok (by simp [co])), hb]
    rfl
  · have hout := pixel_addr p.wfo p.fito rfl co (Or.inr rfl)
    refine Launch.writes_one p.wfo p.fito hL (PosMap.pixels w h out.img.cc co) hk
      (fun X Y a => ∃ c, c < inp.img.cc ∧ a = (inp.img.data, inp.cell X Y c)) ?_ ?_ ?_
    · intro X Y hX hY
      unfold kernelGray
      refine Prog.foot_bind (Prog.foot_fold _ fun c hc a => ?_) fun sum => ?_
      · rw [List.mem_range] at hc
        exact Prog.foot_bind (Prog.foot_load ⟨c, hc, haddr X Y hX hY c⟩) fun _ => trivial
      · rw [if_neg (by omega)]
        exact Prog.foot_store _ (hout X Y hX hY)
    · rintro X Y a hX hY ⟨c, hc, rfl⟩ x' y' c' hx' hy' hc' he
      exact absurd (Prod.mk.inj he).2 (p.apart _ _ _ _ _ _ hX hY hc hx' hy' hc' (Prod.mk.inj he).1)
    · intro X Y hX hY
      have e : ∀ c, inp.start inp.img.cc + u32 (Y * inp.img.rowSize) + u32 (X * inp.img.cc) + c = inp.cell X Y c :=
        fun c => (Prod.mk.inj (haddr X Y hX hY c)).2
      rw [kernelGray_run (x := X) (y := Y) (ao := idxAddr (base out 1) out.img.rowSize)
        (a := fun x y => (inp.img.data, inp.start inp.img.cc + u32 (y * inp.img.rowSize) + u32 (x * inp.img.cc))) (b := inp.img.data) (i := inp.start inp.img.cc + u32 (Y * inp.img.rowSize) + u32 (X * inp.img.cc)) c1 c4 (fun c hc => by rw [e c]; exact View.cell_valid p.wfi p.fiti hX hY hc)
        (View.cell_valid p.wfo p.fito hX hY (by omega : 0 < out.img.cc)) rfl (hout X Y hX hY)]
      simp only [e]
      rfl

theorem gray_copy {d : CudaDevice} {m : BMem} {inp out : View} {w h : Nat} (r : Ready1 m inp out w h)
    (ci : inp.img.cc = 1) (s : d.Serves w h) :
    Runs (ConvertToGrayScale d inp out w h) m fun m' => WritesRoi m m' out w h fun x y c => inp.get m x y c := by
  have co : out.img.cc = 1 := by rw [r.co, ci]
  have s' : d.Serves (w * out.img.cc) h := by rw [co, Nat.mul_one]; exact s
  refine Runs_congr ?_ ((unary_runs (f := id) r s').mono fun m' h => h)
  rw [ConvertToGrayScale, bind_ok (validate_ready r), bind_ok (gray_ok (by simp [co])), ci]
  rfl

theorem gray_bad {d : CudaDevice} {m : BMem} {inp out : View} {w h : Nat} (hb : Bad [inp, out] w h (out.img.cc = 1)) :
    ConvertToGrayScale d inp out w h m = .throw m :=
  rois_bad_then hb fun hc => bind_throw (gray_throw ⟨out.img, by simp, hc⟩)

theorem rgb_copy {d : CudaDevice} {m : BMem} {inp out : View} {w h : Nat} (r : Ready1 m inp out w h)
    (ci : inp.img.cc = 3) (s : d.Serves (w * 3) h) :
    Runs (ConvertToRgb d inp out w h) m fun m' => WritesRoi m m' out w h fun x y c => inp.get m x y c := by
  have co : out.img.cc = 3 := by rw [r.co, ci]
  have s' : d.Serves (w * out.img.cc) h := by rw [co]; exact s
  refine Runs_congr ?_ ((unary_runs (f := id) r s').mono fun m' h => h)
  rw [ConvertToRgb, bind_ok (validate_ready r), bind_ok (rgb_ok (by simp [co])), ci]
  rfl

theorem rgb_bad {d : CudaDevice} {m : BMem} {inp out : View} {w h : Nat} (hb : Bad [inp, out] w h (out.img.cc = 3)) :
    ConvertToRgb d inp out w h m = .throw m :=
  rois_bad_then hb fun hc => bind_throw (rgb_throw ⟨out.img, by simp, hc⟩)

/-- Writing one value to consecutive bytes. -/
theorem kernelRgb_run {m : BMem} {b i bo io cc : Nat} (hv : m.Valid b i) (hvo : ∀ c, c < cc → m.Valid bo (io + c))
    (hne : ∀ c, c < cc → (b, i) ≠ (bo, io + c)) {a ao : Addr} {x y : Nat} (ha : a x y = (b, i)) (hao : ao x y = (bo, io)) :
    ∃ m', (kernelRgb cc a ao x y).run m = .ok () m' ∧ ∀ c, c < cc → m'.byte bo (io + c) = m.byte b i := by
  have key : ∀ n k (m₁ : BMem), k + n = cc → m₁.size = m.size → m₁.byte b i = m.byte b i →
      (∀ c, c < k → m₁.byte bo (io + c) = m.byte b i) →
      ∃ m', fold (fun c (_ : Unit) => (do
        let v ← Prog.load (a x y).1 (a x y).2
        Prog.store (ao x y).1 ((ao x y).2 + c) v : Prog UInt8 Unit).run) (List.range' k n) () m₁ = .ok () m' ∧
        ∀ c, c < cc → m'.byte bo (io + c) = m.byte b i := by
    intro n
    induction n with
    | zero =>
      intro k m₁ hk hs hb hc
      exact ⟨m₁, rfl, fun c h => hc c (by omega)⟩
    | succ n ih =>
      intro k m₁ hk hs hb hc
      rw [List.range'_succ, fold_cons]
      have valid : ∀ {b i}, m.Valid b i → m₁.Valid b i := fun h => ⟨h.1, by rw [hs]; exact h.2⟩
      have h1 : (do
        let v ← Prog.load (a x y).1 (a x y).2
        Prog.store (ao x y).1 ((ao x y).2 + k) v : Prog UInt8 Unit).run m₁ = .ok () (m₁.set bo (io + k) (m.byte b i)) := by
        rw [ha, hao, Prog.run_bind, Prog.run_load, bind_ok (readC_valid (valid hv)), Prog.run_store, writeC_valid (valid (hvo k (by omega))), hb]
      rw [bind_ok h1]
      refine ih (k + 1) _ (by omega) hs ?_ ?_
      · rw [Mem.set_other _ _ fun h => hne k (by omega) (Prod.ext h.1 h.2)]
        exact hb
      · intro c hck
        by_cases e : c = k
        · subst e
          exact Mem.set_same _ _ _ _
        · rw [Mem.set_other _ _ fun h => e (by omega)]
          exact hc c (by omega)
  obtain ⟨m', h1, h2⟩ := key cc 0 m (by omega) rfl rfl (fun c h => absurd h (by omega))
  rw [← List.range_eq_range'] at h1
  exact ⟨m', by rw [kernelRgb, Prog.run_fold, h1], h2⟩

theorem rgb_runs {d : CudaDevice} {m : BMem} {inp out : View} {w h : Nat} (p : Pair m inp w h out w h)
    (ci : inp.img.cc = 1) (co : out.img.cc = 3) (s : d.Serves w h) :
    Runs (ConvertToRgb d inp out w h) m fun m' => WritesRoi m m' out w h fun x y _ => inp.get m x y 0 := by
  have hb : (inp.img.cc == 3) = false := by simp [ci]
  obtain ⟨c1, _⟩ := View.facts p.wfo p.fito
  have haddr : ∀ X Y, X < w → Y < h → ∀ c, out.start out.img.cc + u32 (Y * out.img.rowSize) + u32 (X * out.img.cc) + c
      = out.cell X Y c := by
    intro X Y hX hY c
    have h0 : X * out.img.cc + 0 < w * out.img.cc := mul_add_lt hX (by omega)
    have hr := row_small p.wfo p.fito h0 hY
    rw [u32_of_lt (n := X * out.img.cc) (by omega), u32_of_lt (n := Y * out.img.rowSize) (by omega), ← View.start_cell p.wfo p.fito]
    omega
  refine Runs_congr (c' := launch2D d w h (guarded w h (kernelRgb out.img.cc (ptrAddr (base inp 1) inp.img.rowSize)
      (fun x y => (out.img.data, out.start out.img.cc + u32 (y * out.img.rowSize) + u32 (x * out.img.cc)))))) ?_
    (launch_runs s p.fito.wpos p.fito.hpos fun L hL hk => ?_)
  · rw [ConvertToRgb, bind_ok (validate_pair p), bind_ok (rgb_ok (by simp [co])), hb]
    rfl
  · have hin : ∀ X Y, X < w → Y < h → ptrAddr (base inp 1) inp.img.rowSize X Y = (inp.img.data, inp.cell X Y 0) :=
      fun X Y hX hY => pixel_addr p.wfi p.fiti ci rfl (Or.inl rfl) X Y hX hY
    refine Launch.writes p.wfo p.fito hL (fun x y _ => (x, y)) (fun x y c hx hy _ => ⟨hx, hy⟩)
      (fun X Y a => a = (inp.img.data, inp.cell X Y 0)) ?_ ?_ ?_ ?_
    · intro X Y hn
      rw [hk, guarded, if_neg hn]
    · intro X Y hX hY
      rw [hk, guarded, if_pos ⟨hX, hY⟩, kernelRgb]
      refine Prog.foot_fold _ fun c hc _ => ?_
      rw [List.mem_range] at hc
      exact Prog.foot_bind (Prog.foot_load (hin X Y hX hY)) fun _ =>
        Prog.foot_store _ ⟨X, Y, c, hX, hY, hc, rfl, Prod.ext rfl (haddr X Y hX hY c)⟩
    · rintro X Y _ hX hY rfl x' y' c' hx' hy' hc' he
      exact absurd (Prod.mk.inj he).2 (p.apart _ _ _ _ _ _ hX hY (by omega) hx' hy' hc' (Prod.mk.inj he).1)
    · intro X Y hX hY
      rw [hk, guarded, if_pos ⟨hX, hY⟩]
      obtain ⟨m', h1, h2⟩ := kernelRgb_run (m := m) (cc := out.img.cc) (b := inp.img.data) (i := inp.cell X Y 0) (bo := out.img.data)
        (io := out.start out.img.cc + u32 (Y * out.img.rowSize) + u32 (X * out.img.cc))
        (a := ptrAddr (base inp 1) inp.img.rowSize)
        (ao := fun x y => (out.img.data, out.start out.img.cc + u32 (y * out.img.rowSize) + u32 (x * out.img.cc)))
        (View.cell_valid p.wfi p.fiti hX hY (by omega))
        (fun c hc => by rw [haddr X Y hX hY c]; exact View.cell_valid p.wfo p.fito hX hY hc)
        (fun c hc he => by
          rw [haddr X Y hX hY c] at he
          exact p.apart _ _ _ _ _ _ hX hY (by omega) hX hY hc (Prod.mk.inj he).1 (Prod.mk.inj he).2)
        (hin X Y hX hY) rfl
      refine ⟨m', h1, fun x' y' c' hx' hy' hc' he => ?_⟩
      obtain ⟨rfl, rfl⟩ := Prod.mk.inj he
      have := h2 c' hc'
      rw [haddr x' y' hX hY c'] at this
      exact this

end PV.Cuda
