import Verif.Gpu
/-
  Kernels in which every thread of a W by H launch writes one byte of an output rectangle.
-/
namespace PV

/-- Which byte of a `w` by `h` rectangle with `cc` channels is written at launch position (X, Y), and back.
    Not in the code: for statements and proofs. -/
structure PosMap (W H w h cc : Nat) where
  pos : Nat → Nat → Nat × Nat × Nat
  owner : Nat → Nat → Nat → Nat × Nat
  posIn : ∀ X Y, X < W → Y < H → (pos X Y).1 < w ∧ (pos X Y).2.1 < h ∧ (pos X Y).2.2 < cc
  ownerIn : ∀ x y c, x < w → y < h → c < cc → (owner x y c).1 < W ∧ (owner x y c).2 < H
  left : ∀ X Y, X < W → Y < H → owner (pos X Y).1 (pos X Y).2.1 (pos X Y).2.2 = (X, Y)
  right : ∀ x y c, x < w → y < h → c < cc → pos (owner x y c).1 (owner x y c).2 = (x, y, c)

/-- One thread for every byte of the rows. Not in the code: for statements and proofs. -/
def PosMap.bytes (w h cc : Nat) (hcc : 0 < cc) : PosMap (w * cc) h w h cc where
  pos X Y := (X / cc, Y, X % cc)
  owner x y c := (x * cc + c, y)
  posIn X Y hX hY := ⟨by rw [Nat.div_lt_iff_lt_mul hcc]; exact hX, hY, Nat.mod_lt _ hcc⟩
  ownerIn x y c hx hy hc := ⟨mul_add_lt hx hc, hy⟩
  left X Y _ _ := by rw [Nat.mul_comm, Nat.div_add_mod]
  right x y c _ _ hc := by
    rw [Nat.mul_comm, Nat.mul_add_div hcc, Nat.mul_add_mod, Nat.div_eq_of_lt hc, Nat.mod_eq_of_lt hc, Nat.add_zero]

/-- Kernel body: only positions inside `W` by `H` do something.
    `if ( x < width && y < height )`, for example src/cuda/image_function_cuda.cu 73. -/
def guarded (W H : Nat) (body : Nat → Nat → Prog UInt8 Unit) (x y : Nat) : Prog UInt8 Unit :=
  if x < W ∧ y < H then body x y else .ret ()

theorem Launch.writes_one {L : Launch} {m : BMem} {out : View} {w h W H : Nat} (wf : out.img.WF m) (fit : out.Fits w h)
    (hL : L.Covers W H) {F : Nat → Nat → Nat → UInt8} (pm : PosMap W H w h out.img.cc) {body : Nat → Nat → Prog UInt8 Unit}
    (hk : L.kernel = guarded W H body) (R : Nat → Nat → Nat × Nat → Prop)
    (hfoot : ∀ X Y, X < W → Y < H → (body X Y).Foot (R X Y) fun a =>
      a = (out.img.data, out.cell (pm.pos X Y).1 (pm.pos X Y).2.1 (pm.pos X Y).2.2))
    (hR : ∀ X Y a, X < W → Y < H → R X Y a → ∀ x y c, x < w → y < h → c < out.img.cc →
      a = (out.img.data, out.cell x y c) → (x, y, c) = pm.pos X Y)
    (hrun : ∀ X Y, X < W → Y < H → (body X Y).run m = .ok () (m.set out.img.data
      (out.cell (pm.pos X Y).1 (pm.pos X Y).2.1 (pm.pos X Y).2.2) (F (pm.pos X Y).1 (pm.pos X Y).2.1 (pm.pos X Y).2.2))) :
    L.Always m fun m' => WritesRoi m m' out w h F := by
  have hback : ∀ X Y x y c, X < W → Y < H → x < w → y < h → c < out.img.cc → (pm.owner x y c = (X, Y) ↔ (x, y, c) = pm.pos X Y) := by
    intro X Y x y c hX hY hx hy hc
    constructor
    · intro ho
      have := pm.right x y c hx hy hc
      rw [ho] at this
      exact this.symm
    · intro he
      have := pm.left X Y hX hY
      rw [← he] at this
      exact this
  refine Launch.writes wf fit hL pm.owner pm.ownerIn R ?_ ?_ ?_ ?_
  · intro X Y hn
    rw [hk, guarded, if_neg hn]
  · intro X Y hX hY
    rw [hk, guarded, if_pos ⟨hX, hY⟩]
    have e : (fun a : Nat × Nat => ∃ x y c, x < w ∧ y < h ∧ c < out.img.cc ∧ pm.owner x y c = (X, Y) ∧ a = (out.img.data, out.cell x y c))
        = fun a => a = (out.img.data, out.cell (pm.pos X Y).1 (pm.pos X Y).2.1 (pm.pos X Y).2.2) := by
      funext a
      refine propext ⟨?_, ?_⟩
      · rintro ⟨x, y, c, hx, hy, hc, ho, rfl⟩
        rw [← (hback X Y x y c hX hY hx hy hc).1 ho]
      · intro ha
        obtain ⟨p1, p2, p3⟩ := pm.posIn X Y hX hY
        exact ⟨_, _, _, p1, p2, p3, pm.left X Y hX hY, ha⟩
    rw [e]
    exact hfoot X Y hX hY
  · intro X Y a hX hY hr x y c hx hy hc ha
    exact (hback X Y x y c hX hY hx hy hc).2 (hR X Y a hX hY hr x y c hx hy hc ha)
  · intro X Y hX hY
    refine ⟨_, by rw [hk, guarded, if_pos ⟨hX, hY⟩]; exact hrun X Y hX hY, fun x y c hx hy hc ho => ?_⟩
    have e := (hback X Y x y c hX hY hx hy hc).1 ho
    rw [← e]
    exact Mem.set_same _ _ _ _

/-! ### Kernels with none, one or two input bytes -/

/-- Where position (x, y) is found: a block and an index. Not in the code: machinery of the model. -/
abbrev Addr := Nat → Nat → Nat × Nat

/-- `out[..] = f(in1[..], in2[..])`. For example src/cuda/image_function_cuda.cu 67-79. -/
def kernelBinary (f : UInt8 → UInt8 → UInt8) (a1 a2 ao : Addr) (x y : Nat) : Prog UInt8 Unit := do
  let p ← Prog.load (a1 x y).1 (a1 x y).2
  let q ← Prog.load (a2 x y).1 (a2 x y).2
  Prog.store (ao x y).1 (ao x y).2 (f p q)

/-- `out[..] = f(in[..])`. For example src/cuda/image_function_cuda.cu 163-171. -/
def kernelUnary (f : UInt8 → UInt8) (a ao : Addr) (x y : Nat) : Prog UInt8 Unit := do
  let p ← Prog.load (a x y).1 (a x y).2
  Prog.store (ao x y).1 (ao x y).2 (f p)

/-- `out[..] = value`. src/cuda/image_function_cuda.cu 183, src/opencl/image_function_opencl.cpp 188. -/
def kernelFill (value : UInt8) (ao : Addr) (x y : Nat) : Prog UInt8 Unit := Prog.store (ao x y).1 (ao x y).2 value

/-- `a` finds the bytes of the rectangle of `v`, in the order of the map. Not in the code: for statements and proofs. -/
def Addr.Of (a : Addr) (v : View) {W H w h cc : Nat} (pm : PosMap W H w h cc) : Prop :=
  ∀ X Y, X < W → Y < H → a X Y = (v.img.data, v.cell (pm.pos X Y).1 (pm.pos X Y).2.1 (pm.pos X Y).2.2)

theorem readC_valid {m : BMem} {b i : Nat} (h : m.Valid b i) : readC b i m = .ok (m.byte b i) m := by
  rw [readC, if_pos h]

theorem writeC_valid {m : BMem} {b i : Nat} {v : UInt8} (h : m.Valid b i) : writeC b i v m = .ok () (m.set b i v) := by
  rw [writeC, if_pos h]

theorem kernelBinary_writes {L : Launch} {m : BMem} {in1 in2 out : View} {w h W H : Nat} {f : UInt8 → UInt8 → UInt8} {a1 a2 ao : Addr}
    (wf1 : in1.img.WF m) (wf2 : in2.img.WF m) (wfo : out.img.WF m) (fit1 : in1.Fits w h) (fit2 : in2.Fits w h) (fito : out.Fits w h)
    (c1 : in1.img.cc = out.img.cc) (c2 : in2.img.cc = out.img.cc) (n1 : NoClash in1 out w h) (n2 : NoClash in2 out w h)
    (hL : L.Covers W H) (pm : PosMap W H w h out.img.cc) (hk : L.kernel = guarded W H (kernelBinary f a1 a2 ao))
    (h1 : a1.Of in1 pm) (h2 : a2.Of in2 pm) (ho : ao.Of out pm) :
    L.Always m fun m' => WritesRoi m m' out w h fun x y c => f (in1.get m x y c) (in2.get m x y c) := by
  refine Launch.writes_one wfo fito hL pm hk (fun X Y a => a = a1 X Y ∨ a = a2 X Y) ?_ ?_ ?_
  · intro X Y hX hY
    rw [← ho X Y hX hY]
    exact Prog.foot_bind (Prog.foot_load (Or.inl rfl)) fun _ => Prog.foot_bind (Prog.foot_load (Or.inr rfl)) fun _ =>
      Prog.foot_store _ rfl
  · intro X Y a hX hY hr x y c hx hy hc ha
    obtain ⟨p1, p2, p3⟩ := pm.posIn X Y hX hY
    rcases hr with hr | hr
    · rw [hr, h1 X Y hX hY] at ha
      obtain ⟨e1, e2, e3⟩ := n1 _ _ _ _ _ _ p1 p2 (by rw [c1]; exact p3) hx hy hc (Prod.mk.inj ha).1 (Prod.mk.inj ha).2
      rw [← e1, ← e2, ← e3]
    · rw [hr, h2 X Y hX hY] at ha
      obtain ⟨e1, e2, e3⟩ := n2 _ _ _ _ _ _ p1 p2 (by rw [c2]; exact p3) hx hy hc (Prod.mk.inj ha).1 (Prod.mk.inj ha).2
      rw [← e1, ← e2, ← e3]
  · intro X Y hX hY
    obtain ⟨p1, p2, p3⟩ := pm.posIn X Y hX hY
    rw [kernelBinary, h1 X Y hX hY, h2 X Y hX hY, ho X Y hX hY]
    rw [Prog.run_bind, Prog.run_load, bind_ok (readC_valid (View.cell_valid wf1 fit1 p1 p2 (by rw [c1]; exact p3))),
      Prog.run_bind, Prog.run_load, bind_ok (readC_valid (View.cell_valid wf2 fit2 p1 p2 (by rw [c2]; exact p3))),
      Prog.run_store, writeC_valid (View.cell_valid wfo fito p1 p2 p3)]
    rfl

theorem kernelUnary_writes {L : Launch} {m : BMem} {inp out : View} {w h W H : Nat} {f : UInt8 → UInt8} {a ao : Addr}
    (wfi : inp.img.WF m) (wfo : out.img.WF m) (fiti : inp.Fits w h) (fito : out.Fits w h)
    (ci : inp.img.cc = out.img.cc) (n : NoClash inp out w h)
    (hL : L.Covers W H) (pm : PosMap W H w h out.img.cc) (hk : L.kernel = guarded W H (kernelUnary f a ao))
    (hi : a.Of inp pm) (ho : ao.Of out pm) :
    L.Always m fun m' => WritesRoi m m' out w h fun x y c => f (inp.get m x y c) := by
  refine Launch.writes_one wfo fito hL pm hk (fun X Y b => b = a X Y) ?_ ?_ ?_
  · intro X Y hX hY
    rw [← ho X Y hX hY]
    exact Prog.foot_bind (Prog.foot_load rfl) fun _ => Prog.foot_store _ rfl
  · intro X Y b hX hY hr x y c hx hy hc ha
    obtain ⟨p1, p2, p3⟩ := pm.posIn X Y hX hY
    rw [hr, hi X Y hX hY] at ha
    obtain ⟨e1, e2, e3⟩ := n _ _ _ _ _ _ p1 p2 (by rw [ci]; exact p3) hx hy hc (Prod.mk.inj ha).1 (Prod.mk.inj ha).2
    rw [← e1, ← e2, ← e3]
  · intro X Y hX hY
    obtain ⟨p1, p2, p3⟩ := pm.posIn X Y hX hY
    rw [kernelUnary, hi X Y hX hY, ho X Y hX hY]
    rw [Prog.run_bind, Prog.run_load, bind_ok (readC_valid (View.cell_valid wfi fiti p1 p2 (by rw [ci]; exact p3))),
      Prog.run_store, writeC_valid (View.cell_valid wfo fito p1 p2 p3)]
    rfl

/-- The input byte may be any byte of a rectangle that has nothing in common with the output rectangle. -/
theorem kernelUnary_apart {L : Launch} {m : BMem} {inp out : View} {wi hi w h W H : Nat} {f : UInt8 → UInt8} {a ao : Addr}
    (wfi : inp.img.WF m) (wfo : out.img.WF m) (fiti : inp.Fits wi hi) (fito : out.Fits w h)
    (n : Apart inp wi hi out w h)
    (hL : L.Covers W H) (pm : PosMap W H w h out.img.cc) (hk : L.kernel = guarded W H (kernelUnary f a ao))
    (src : Nat → Nat → Nat → Nat × Nat × Nat)
    (hsrc : ∀ x y c, x < w → y < h → c < out.img.cc → (src x y c).1 < wi ∧ (src x y c).2.1 < hi ∧ (src x y c).2.2 < inp.img.cc)
    (ha : ∀ X Y, X < W → Y < H → ∀ s, s = src (pm.pos X Y).1 (pm.pos X Y).2.1 (pm.pos X Y).2.2 →
      a X Y = (inp.img.data, inp.cell s.1 s.2.1 s.2.2)) (ho : ao.Of out pm) :
    L.Always m fun m' => WritesRoi m m' out w h fun x y c => f (inp.get m (src x y c).1 (src x y c).2.1 (src x y c).2.2) := by
  refine Launch.writes_one wfo fito hL pm hk (fun X Y b => b = a X Y) ?_ ?_ ?_
  · intro X Y hX hY
    rw [← ho X Y hX hY]
    exact Prog.foot_bind (Prog.foot_load rfl) fun _ => Prog.foot_store _ rfl
  · intro X Y b hX hY hr x y c hx hy hc hb
    obtain ⟨p1, p2, p3⟩ := pm.posIn X Y hX hY
    obtain ⟨s1, s2, s3⟩ := hsrc _ _ _ p1 p2 p3
    rw [hr, ha X Y hX hY _ rfl] at hb
    exact absurd (Prod.mk.inj hb).2 (n _ _ _ _ _ _ s1 s2 s3 hx hy hc (Prod.mk.inj hb).1)
  · intro X Y hX hY
    obtain ⟨p1, p2, p3⟩ := pm.posIn X Y hX hY
    obtain ⟨s1, s2, s3⟩ := hsrc _ _ _ p1 p2 p3
    rw [kernelUnary, ha X Y hX hY _ rfl, ho X Y hX hY]
    rw [Prog.run_bind, Prog.run_load, bind_ok (readC_valid (View.cell_valid wfi fiti s1 s2 s3)),
      Prog.run_store, writeC_valid (View.cell_valid wfo fito p1 p2 p3)]
    rfl

theorem kernelFill_writes {L : Launch} {m : BMem} {out : View} {w h W H : Nat} {value : UInt8} {ao : Addr}
    (wfo : out.img.WF m) (fito : out.Fits w h)
    (hL : L.Covers W H) (pm : PosMap W H w h out.img.cc) (hk : L.kernel = guarded W H (kernelFill value ao)) (ho : ao.Of out pm) :
    L.Always m fun m' => WritesRoi m m' out w h fun _ _ _ => value := by
  refine Launch.writes_one wfo fito hL pm hk (fun _ _ _ => False) ?_ (fun _ _ _ _ _ hr => hr.elim) ?_
  · intro X Y hX hY
    rw [← ho X Y hX hY]
    exact Prog.foot_store _ rfl
  · intro X Y hX hY
    obtain ⟨p1, p2, p3⟩ := pm.posIn X Y hX hY
    rw [kernelFill, ho X Y hX hY, Prog.run_store, writeC_valid (View.cell_valid wfo fito p1 p2 p3)]

end PV
