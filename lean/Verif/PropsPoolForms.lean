import Verif.PoolForms
import Verif.PropsDeviceForms
/-
  Property C170: forms of pooled functions that return a new image, and forms for whole images.
-/
namespace PV.Props

open Forms

/-! ### What is said about the result -/

/-- The tasks of a pooled call in memory `m`: at least one and no more than threads; `prog` is the sequence of memory accesses of each
    task; in every interleaving of the accesses nothing goes wrong, and when all tasks are done the memory satisfies `Q`;
    complete interleavings exist. -/
def TasksAlways (threads k : Nat) (body : Nat → M BMem Unit) (prog : Nat → Prog UInt8 Unit) (m : BMem) (Q : BMem → Prop) : Prop :=
  0 < k ∧ k ≤ threads ∧
    (∀ i, i < k → ∀ m₁ : BMem, m₁.size = m.size → (prog i).run m₁ = body i m₁) ∧
    (∀ σ : List (Fin k),
      ((⟨m, fun i => prog i⟩ : Sys UInt8 Unit (Fin k)).exec σ).NoError ∧
      ((∀ i, (((⟨m, fun i => prog i⟩ : Sys UInt8 Unit (Fin k)).exec σ).task i).Done) →
        Q ((⟨m, fun i => prog i⟩ : Sys UInt8 Unit (Fin k)).exec σ).mem)) ∧
    ∃ σ : List (Fin k), ∀ i, (((⟨m, fun i => prog i⟩ : Sys UInt8 Unit (Fin k)).exec σ).task i).Done

/-- The call makes an image and leaves tasks behind; in every order of their accesses nothing goes wrong, and when they are
    done the image and the heap satisfy `Q`. -/
def HeapPooled {Γ : Type} (threads : Nat) (call : M Heap (Image × Γ)) (count : Γ → Nat) (body : Image → Γ → Nat → M BMem Unit)
    (prog : Image → Γ → Nat → Prog UInt8 Unit) (d : Heap) (Q : Image → Heap → Prop) : Prop :=
  ∃ img a d1, call d = .ok (img, a) d1 ∧
    TasksAlways threads (count a) (body img a) (prog img a) d1.mem fun m' => Q img ⟨m', d1.next⟩

/-! ### Lemmas -/

theorem _root_.PV.PooledLike.tasks {Γ : Type} {threads : Nat} {setup : M BMem Γ} {count : Γ → Nat} {body : Γ → Nat → M BMem Unit}
    {prog : Γ → Nat → Prog UInt8 Unit} {single : M BMem Unit} {m m' : BMem} {Q : BMem → Prop}
    (h : PooledLike threads setup count body prog single m) (hs : single m = .ok () m') (hq : Q m') :
    ∃ a, setup m = .ok a m ∧ TasksAlways threads (count a) (body a) (prog a) m Q := by
  obtain ⟨a, k, m'', h1, rfl, h3, h4, h5, h6, h7, h8⟩ := h
  have e : m'' = m' := (Res.ok.inj (h6.symm.trans hs)).2
  subst e
  exact ⟨a, h1, h3, h4, h5, fun σ => ⟨(h7 σ).1, fun hd => by rw [(h7 σ).2 hd]; exact hq⟩, h8⟩

theorem TasksAlways.mono {threads k : Nat} {body : Nat → M BMem Unit} {prog : Nat → Prog UInt8 Unit} {m : BMem} {P Q : BMem → Prop}
    (h : TasksAlways threads k body prog m P) (hpq : ∀ m', P m' → Q m') : TasksAlways threads k body prog m Q :=
  ⟨h.1, h.2.1, h.2.2.1, fun σ => ⟨(h.2.2.2.1 σ).1, fun hd => hpq _ ((h.2.2.2.1 σ).2 hd)⟩, h.2.2.2.2⟩

theorem pending_pooled {Γ : Type} {threads : Nat} {count : Γ → Nat} {d : Heap} (hd : HeapOk d) {w h cc : Nat} (hs : w * cc * h < 4294967296)
    {setup : M BMem Γ} {body : Γ → Nat → M BMem Unit} {prog : Γ → Nat → Prog UInt8 Unit} {single : M BMem Unit} {m' : BMem}
    {G : Nat → Nat → Nat → UInt8} {call : M Heap (Image × Γ)} {body' : Image → Γ → Nat → M BMem Unit}
    {prog' : Image → Γ → Nat → Prog UInt8 Unit}
    (hcall : call d = pending (made d w h cc) setup (grown d w h cc))
    (hb : body' (made d w h cc) = body) (hp : prog' (made d w h cc) = prog)
    (hl : PooledLike threads setup count body prog single (grown d w h cc).mem)
    (hsingle : single (grown d w h cc).mem = .ok () m')
    (hw : WritesRoi (grown d w h cc).mem m' (whole (made d w h cc)) w h G) :
    HeapPooled threads call count body' prog' d fun img d' => NewImage d d' img w h cc G := by
  obtain ⟨a, h1, h2⟩ := hl.tasks (Q := fun m' => NewImage d ⟨m', (grown d w h cc).next⟩ (made d w h cc) w h cc G) hsingle
    (made_new hd hs hw)
  subst hb hp
  exact ⟨_, a, _, hcall.trans (pending_ok h1), h2⟩

/-! ### Functions of one image -/

/-- The functions of one image whose pixels are given by a formula. -/
inductive PoolOp1
  | toGray | toRgb | extract (ch : Nat) | flip (hor ver : Bool) | invert | lookup (table : List UInt8) | bgr
  | threshold (t : UInt8) | threshold2 (lo hi : UInt8)

/-- The same function without a pool: its pixels, colours and parameters are those of C101. -/
def PoolOp1.op : PoolOp1 → Op1
  | .toGray => .toGray
  | .toRgb => .toRgb
  | .extract ch => .extract ch
  | .flip hor ver => .flip hor ver
  | .invert => .invert
  | .lookup table => .lookup table
  | .bgr => .bgr
  | .threshold t => .threshold t
  | .threshold2 lo hi => .threshold2 lo hi

/-- The function called. -/
def PoolOp1.fn : PoolOp1 → Pooled1
  | .toGray => OnPool.convertToGrayScale
  | .toRgb => OnPool.convertToRgb
  | .extract ch => OnPool.extractChannel ch
  | .flip hor ver => OnPool.flip hor ver
  | .invert => OnPool.invert
  | .lookup table => OnPool.lookupTable table
  | .bgr => OnPool.rgbToBgr
  | .threshold t => OnPool.threshold t
  | .threshold2 lo hi => OnPool.threshold2 lo hi

/-- The memory accesses of the tasks. -/
def PoolOp1.prog (o : PoolOp1) : View → View → List Tile × List Tile → Nat → Prog UInt8 Unit :=
  match o with
  | .toGray => ptask2 progGray
  | .toRgb => ptask2 progRgb
  | .extract ch => ptask2 (progExtract ch)
  | .flip hor ver => ptask2 (progFlip hor ver)
  | .invert => ptask2 (prog1 fun a => ~~~ a)
  | .lookup table => ptask2 (prog1 fun a => table.getD a.toNat 0)
  | .bgr => ptask2 progBgr
  | .threshold t => ptask2 (prog1 (thrE t))
  | .threshold2 lo hi => ptask2 (prog1 (thr2E lo hi))

theorem PoolOp1.cc_eq (o : PoolOp1) (n : Nat) : o.fn.cc n = o.op.colors n := by cases o <;> rfl

theorem PoolOp1.full (o : PoolOp1) {m : BMem} {inp out : View} {w h n : Nat} (hn : 0 < n) (hn' : n < 4294967296)
    (p : Pair m inp w h out w h) (hg : o.op.good inp.img.cc out.img.cc) :
    PooledLike n (o.fn.setup inp out w h n) (fun a => a.1.length) (o.fn.task inp out) (o.prog inp out) (o.op.fn.full inp out w h) m := by
  have r1 : out.img.cc = inp.img.cc → Ready1 m inp out w h := fun co =>
    ⟨p.wfi, p.wfo, p.fiti, p.fito, co, noClash_of_apart p.apart⟩
  cases o with
  | toGray => exact C49_convertToGrayScale hn hn' p hg.1.symm hg.2
  | toRgb => exact C49_convertToRgb hn hn' p hg.1 hg.2
  | extract ch => exact C49_extractChannel hn hn' p hg.2 hg.1
  | flip hor ver =>
    have h1 := C49_flip hor ver hn hn' p hg.1 hg.2
    obtain ⟨a, k, m', e1, rest⟩ := h1
    refine ⟨a, k, m', ?_, rest⟩
    show (validateRois [inp, out] w h >>= fun _ => verifyGray [inp.img, out.img] >>= fun _ => poolSetupFlip inp out w h hor ver n : M BMem _) m = _
    rw [bind_ok (validate_pre_ok (vs := [inp, out]) (by simp; exact ⟨⟨p.wfi, p.fiti⟩, p.wfo, p.fito⟩)),
      bind_ok (gray_ok (by simp; exact ⟨hg.1, hg.2⟩))]
    exact e1
  | invert => exact C49_invert hn hn' (r1 hg)
  | lookup table =>
    have h1 := C49_lookupTable table hg.1 hn hn' (r1 hg.2)
    have e : (fun a : UInt8 => table[a.toNat]'(by rw [hg.1]; exact UInt8.toNat_lt _)) = fun a => table.getD a.toNat 0 := by
      funext a
      have : a.toNat < table.length := by rw [hg.1]; exact UInt8.toNat_lt _
      simp [this]
    rw [e] at h1
    exact h1
  | bgr => exact C49_rgbToBgr hn hn' p hg.1 hg.2
  | threshold t => exact C49_threshold t hn hn' (r1 (hg.2.trans hg.1.symm)) hg.1
  | threshold2 lo hi => exact C49_threshold2 lo hi hg.1 hn hn' (r1 (hg.2.2.trans hg.2.1.symm)) hg.2.1

/-- **C170.** `Image F( in, startX, startY, width, height )` in a pool of any number of threads, for every function of one image: when the
    tasks are done, in whatever order they worked, there is a new image of the size of the rectangle, of the right colours, with the
    right pixels; no image that existed is changed.

    Partial: LookupTable only for gray-scale images, ConvertToGrayScale and ConvertToRgb not for RGBA images (C101). -/
theorem C170_region_partial (o : PoolOp1) {n : Nat} (hn : 0 < n) (hn' : n < 2 ^ 32) {d : Heap} (hd : HeapOk d) {v : View} {w h : Nat}
    (i : Input d v w h) (hg : o.op.good v.img.cc (o.op.colors v.img.cc)) (hs : w * o.op.colors v.img.cc * h < 2 ^ 32) :
    HeapPooled n ((o.fn.call n).newRoi v w h) (fun a => a.1.length) (fun img => o.fn.task v (whole img)) (fun img => o.prog v (whole img)) d
      fun img d' => NewImage d d' img w h (o.op.colors v.img.cc) (o.op.pixel d.mem v w h) := by
  have p := i.pair hd i.fit.wpos i.fit.hpos (o.op.colors_ok i.fit.colors) hs
  have hl := o.full hn hn' p hg
  obtain ⟨m', h1, h2⟩ := o.op.full_ok p hg
  rw [o.op.pixel_grown] at h2
  refine pending_pooled hd hs ?_ rfl rfl hl h1 h2
  rw [Call1.newRoi, bind_ok (heapMem_keep (validateRoi_ok _ i.fit i.u32.1 i.u32.2))]
  show (generate w h (o.fn.cc v.img.cc) >>= fun out => pending out (o.fn.setup v ⟨out, 0, 0⟩ w h n)) d = _
  rw [o.cc_eq, bind_ok (generate_ok i.fit.wpos i.fit.hpos hs)]
  rfl

/-- **C170.** `Image F( in )`. Partial as above. -/
theorem C170_image_partial (o : PoolOp1) {n : Nat} (hn : 0 < n) (hn' : n < 2 ^ 32) {d : Heap} (hd : HeapOk d) {img : Image}
    (i : InputImage d img) (hg : o.op.good img.cc (o.op.colors img.cc)) (hs : img.width * o.op.colors img.cc * img.height < 2 ^ 32) :
    HeapPooled n ((o.fn.call n).newWhole img) (fun a => a.1.length) (fun new => o.fn.task (whole img) (whole new))
      (fun new => o.prog (whole img) (whole new)) d
      fun new d' => NewImage d d' new img.width img.height (o.op.colors img.cc) (o.op.pixel d.mem (whole img) img.width img.height) := by
  rw [HeapPooled, C169_image_region _ i]
  exact C170_region_partial o hn hn' hd i hg hs

/-- **C170.** `void F( in, out )`: every pixel of `out` gets its value, nothing else is written. Partial as above, and `out` has no pixel
    of `in`. -/
theorem C170_into_partial (o : PoolOp1) {n : Nat} (hn : 0 < n) (hn' : n < 2 ^ 32) {m : BMem} {a b : Image} (t : Two m a b)
    (hw : b.width = a.width) (hh : b.height = a.height) (hg : o.op.good a.cc b.cc) :
    ∃ T, (o.fn.call n).whole a b m = .ok T m ∧
      TasksAlways n T.1.length (o.fn.task (whole a) (whole b) T) (o.prog (whole a) (whole b) T) m fun m' =>
        WritesRoi m m' (whole b) a.width a.height (o.op.pixel m (whole a) a.width a.height) := by
  have p : Pair m (whole a) a.width a.height (whole b) a.width a.height := by
    have h1 := t.fitb
    have h2 := t.apart
    rw [hw, hh] at h1 h2
    exact ⟨t.wfa, t.wfb, t.fita, h1, h2⟩
  obtain ⟨m', h1, h2⟩ := o.op.full_ok p hg
  rw [C169_into _ t.fita t.fitb hw hh]
  exact (o.full hn hn' p hg).tasks h1 h2

/-- **C170.** Limits of Threshold in the wrong order, colour images to flip: refused by the calling thread, and nothing is left behind. -/
theorem C170_rejects {n : Nat} (hn : 0 < n) (hn' : n < 2 ^ 32) {d : Heap} (hd : HeapOk d) {v : View} {w h : Nat} (i : Input d v w h) :
    (∀ lo hi : UInt8, hi < lo → ∃ d', ((OnPool.threshold2 lo hi).call n).newRoi v w h d = .throw d' ∧ SameHeap d d') ∧
    (∀ hor ver, v.img.cc ≠ 1 → ∃ d', ((OnPool.flip hor ver).call n).newRoi v w h d = .throw d' ∧ SameHeap d d') ∧
    (∀ (rnd : ℚ → ℚ) (pow : ℚ → ℚ → ℚ) (a gamma : ℚ), a < 0 ∨ gamma < 0 →
      ∃ d', ((OnPool.gammaCorrection rnd pow a gamma).call n).newRoi v w h d = .throw d' ∧ SameHeap d d') := by
  have p := i.pair hd i.fit.wpos i.fit.hpos (Or.inl rfl) i.small1
  refine ⟨fun lo hi hl => callRoi_throw hd i i.small1 ?_, fun hor ver hc => callRoi_throw hd i i.small1 ?_,
    fun rnd pow a gamma hneg => callRoi_throw hd i i.small1 ?_⟩
  · show poolSetupThreshold2 v (whole (made d w h 1)) w h lo hi n (grown d w h 1).mem = _
    have : decide (lo > hi) = true := by simpa using hl
    rw [poolSetupThreshold2, bind_ok (poolSetup2_eq hn hn' p.wfi p.wfo p.fiti p.fito), this]
    rfl
  · show (validateRois [v, whole (made d w h 1)] w h >>= fun _ => verifyGray [v.img, made d w h 1] >>= fun _ =>
      poolSetupFlip v (whole (made d w h 1)) w h hor ver n : M BMem _) (grown d w h 1).mem = _
    rw [bind_ok (validate_pre_ok (vs := [v, whole (made d w h 1)]) (by simp; exact ⟨⟨p.wfi, p.fiti⟩, p.wfo, p.fito⟩)),
      bind_throw (gray_throw ⟨v.img, by simp, hc⟩)]
    rfl
  · exact C103_rejects_parameters hn hn' ⟨p.wfi, p.fiti⟩ ⟨p.wfo, p.fito⟩ hneg

/-- **C170.** GammaCorrection makes the image that the same form makes without a pool. -/
theorem C170_gammaCorrection {rnd : ℚ → ℚ} (rr : Rounding rnd) {pow : ℚ → ℚ → ℚ} {a gamma : ℚ} (hp : PowOk pow gamma) (ha : 0 ≤ a)
    (hg : 0 ≤ gamma) {n : Nat} (hn : 0 < n) (hn' : n < 2 ^ 32) {d : Heap} (hd : HeapOk d) {v : View} {w h : Nat} (i : Input d v w h)
    (g : v.img.cc = 1) :
    ∃ img d', (Forms.gammaCorrection rnd pow a gamma).newRoi v w h d = .ok img d' ∧ ∃ f : UInt8 → UInt8,
      HeapPooled n (((OnPool.gammaCorrection rnd pow a gamma).call n).newRoi v w h) (fun a => a.1.length)
        (fun new => (OnPool.gammaCorrection rnd pow a gamma).task v (whole new)) (fun new => ptask2 (prog1 f) v (whole new)) d
        fun img' d'' => img' = img ∧ d'' = d' := by
  have p := i.pair hd i.fit.wpos i.fit.hpos (Or.inl rfl) i.small1
  obtain ⟨f, hl⟩ := C103_gamma rr hp ha hg hn hn'
    (⟨p.wfi, p.wfo, p.fiti, p.fito, g.symm, noClash_of_apart p.apart⟩ : Ready1 (grown d w h 1).mem v (whole (made d w h 1)) w h)
  obtain ⟨T, k, m', e1, e2, e3, e4, e5, e6, e7, e8⟩ := hl
  obtain ⟨T', h1, h2⟩ := PooledLike.tasks (count := fun t : List Tile × List Tile => t.1.length) (Q := fun m'' => made d w h 1 = made d w h 1 ∧ (⟨m'', (grown d w h 1).next⟩ : Heap) =
    ⟨m', (grown d w h 1).next⟩) ⟨T, k, m', e1, e2, e3, e4, e5, e6, e7, e8⟩ e6 ⟨rfl, rfl⟩
  refine ⟨made d w h 1, ⟨m', (grown d w h 1).next⟩, ?_, f, _, T', _,
    callRoi_ok (f := (OnPool.gammaCorrection rnd pow a gamma).call n) i i.small1 h1, h2⟩
  rw [Fn1.newRoi, bind_ok (heapMem_keep (validateRoi_ok _ i.fit i.u32.1 i.u32.2)),
    bind_ok (heapMem_keep (f := (Forms.gammaCorrection rnd pow a gamma).check v.img) (a := ()) rfl),
    bind_ok (generate_ok (cc := (Forms.gammaCorrection rnd pow a gamma).cc v.img.cc) i.fit.wpos i.fit.hpos i.small1)]
  show filled (made d w h 1) (GammaCorrection rnd pow v (whole (made d w h 1)) w h a gamma) (grown d w h 1) = _
  rw [filled, heapMem_ok e6]

/-! ### Functions of two images -/

/-- The memory accesses of the tasks. -/
def Op2.prog : Op2 → View → View → View → List Tile × List Tile × List Tile → Nat → Prog UInt8 Unit
  | .absoluteDifference => ptask3 (prog2 absDiffE)
  | .bitwiseAnd => ptask3 (prog2 fun a b => a &&& b)
  | .bitwiseOr => ptask3 (prog2 fun a b => a ||| b)
  | .bitwiseXor => ptask3 (prog2 fun a b => a ^^^ b)
  | .maximum => ptask3 (prog2 maxE)
  | .minimum => ptask3 (prog2 minE)
  | .subtract => ptask3 (prog2 subE)

theorem Op2.pooled (o : Op2) {m : BMem} {in1 in2 out : View} {w h n : Nat} (hn : 0 < n) (hn' : n < 4294967296) (r : Ready2 m in1 in2 out w h)
    (hf : o.fine in1 in2 w h) :
    PooledLike n (OnPool.two n in1 in2 out w h) (fun a => a.1.length) (task3 o.fn in1 in2 out) (o.prog in1 in2 out) (o.fn in1 in2 out w h) m := by
  cases o with
  | absoluteDifference => exact C49_absoluteDifference hn hn' r
  | bitwiseAnd => exact C49_bitwiseAnd hn hn' r
  | bitwiseOr => exact C49_bitwiseOr hn hn' r
  | bitwiseXor => exact C49_bitwiseXor hn hn' r
  | maximum => exact C49_maximum hn hn' r
  | minimum => exact C49_minimum hn hn' r
  | subtract =>
    refine C49_subtract_partial hn hn' r ?_
    rcases hf with h | h | h
    · exact Or.inl h
    · exact Or.inr (Or.inl fun e => h e.1)
    · exact Or.inr (Or.inr h)

/-- **C170.** `Image F( in1, startX1, startY1, in2, startX2, startY2, width, height )`, for every function of two images.
    Partial: Subtract only for images of the same row size (C12). -/
theorem C170_region2_partial (o : Op2) {n : Nat} (hn : 0 < n) (hn' : n < 2 ^ 32) {d : Heap} (hd : HeapOk d) {v1 v2 : View} {w h : Nat}
    (i1 : Input d v1 w h) (i2 : Input d v2 w h) (hc : v2.img.cc = v1.img.cc) (hf : o.fine v1 v2 w h) :
    ∃ G, HeapPooled n (callRoi2 (OnPool.two n) v1 v2 w h) (fun a => a.1.length) (fun img => task3 o.fn v1 v2 (whole img))
        (fun img => o.prog v1 v2 (whole img)) d (fun img d' => NewImage d d' img w h v1.img.cc G) ∧
      ∀ x y c, o.value (v1.get d.mem x y c) (v2.get d.mem x y c) (G x y c) := by
  have r := ready_new hd i1 i2 hc
  obtain ⟨m', F, h1, h2, h3⟩ := o.full_ok r hf
  refine ⟨F, pending_pooled hd i1.small ?_ rfl rfl (o.pooled hn hn' r hf) h1 h2, h3⟩
  rw [callRoi2, bind_ok (heapMem_keep (validateRois_ok _ (vs := [v1, v2]) (by simp; exact ⟨⟨i1.fit, i1.u32⟩, i2.fit, i2.u32⟩))),
    bind_ok (generate_ok i1.fit.wpos i1.fit.hpos i1.small)]
  rfl

/-- **C170.** `Image F( in1, in2 )`. Partial as above. -/
theorem C170_image2_partial (o : Op2) {n : Nat} (hn : 0 < n) (hn' : n < 2 ^ 32) {d : Heap} (hd : HeapOk d) {a b : Image}
    (i1 : InputImage d a) (i2 : InputImage d b) (hw : b.width = a.width) (hh : b.height = a.height) (hc : b.cc = a.cc)
    (hf : o.fine (whole a) (whole b) a.width a.height) :
    ∃ G, HeapPooled n (callWhole2 (OnPool.two n) a b) (fun a => a.1.length) (fun img => task3 o.fn (whole a) (whole b) (whole img))
        (fun img => o.prog (whole a) (whole b) (whole img)) d (fun img d' => NewImage d d' img a.width a.height a.cc G) ∧
      ∀ x y c, o.value ((whole a).get d.mem x y c) ((whole b).get d.mem x y c) (G x y c) := by
  simp only [HeapPooled, C169_image_region2 _ i1 i2 hw hh]
  exact C170_region2_partial o hn hn' hd i1 ⟨i2.wf, hw ▸ hh ▸ i2.fit⟩ hc hf

/-- **C170.** `void F( in1, in2, out )`. Partial as above. -/
theorem C170_into2_partial (o : Op2) {n : Nat} (hn : 0 < n) (hn' : n < 2 ^ 32) {m : BMem} {a b c : Image} (t : Three m a b c)
    (h1 : b.cc = a.cc) (h2 : c.cc = a.cc) (hf : o.fine (whole a) (whole b) c.width c.height) :
    ∃ T F, callInto2 (OnPool.two n) a b c m = .ok T m ∧
      TasksAlways n T.1.length (task3 o.fn (whole a) (whole b) (whole c) T) (o.prog (whole a) (whole b) (whole c) T) m
        (fun m' => WritesRoi m m' (whole c) c.width c.height F) ∧
      ∀ x y k, o.value ((whole a).get m x y k) ((whole b).get m x y k) (F x y k) := by
  have r : Ready2 m (whole a) (whole b) (whole c) c.width c.height := ⟨t.wfa, t.wfb, t.wfc, t.fita, t.fitb, t.fitc, h1, h2, t.n1, t.n2⟩
  have fa : (whole a).Fits a.width a.height := by rw [t.wa.1, t.wa.2]; exact t.fita
  have fb : (whole b).Fits b.width b.height := by rw [t.wb.1, t.wb.2]; exact t.fitb
  obtain ⟨m', F, e1, e2, e3⟩ := o.full_ok r hf
  obtain ⟨T, e4, e5⟩ := (o.pooled hn hn' r hf).tasks (Q := fun m' => WritesRoi m m' (whole c) c.width c.height F) e1 e2
  refine ⟨T, F, ?_, e5, e3⟩
  rw [C169_into2 _ fa fb t.fitc (t.wb.1.trans t.wa.1.symm) (t.wb.2.trans t.wa.2.symm) t.wa.1.symm t.wa.2.symm, t.wa.1, t.wa.2]
  exact e4

/-- **C170.** Images of different colours: the image is made, every task throws and writes nothing, and what the exception leaves behind
    after the destruction of the image is what was there before. -/
theorem C170_colours2 (o : Op2) {n : Nat} (hn : 0 < n) (hn' : n < 2 ^ 32) {d : Heap} (hd : HeapOk d) {v1 v2 : View} {w h : Nat}
    (i1 : Input d v1 w h) (i2 : Input d v2 w h) (hc : v2.img.cc ≠ v1.img.cc) :
    ∃ img T d1, callRoi2 (OnPool.two n) v1 v2 w h d = .ok (img, T) d1 ∧ 0 < T.1.length ∧
      (∀ i, i < T.1.length → ∀ m₁ : BMem, m₁.size = d1.mem.size → task3 o.fn v1 v2 (whole img) T i m₁ = .throw m₁) ∧
      SameHeap d (d1.release img) := by
  have p1 := i1.pair hd i1.fit.wpos i1.fit.hpos i1.fit.colors i1.small
  have p2 := i2.pair hd i1.fit.wpos i1.fit.hpos i1.fit.colors i1.small
  obtain ⟨T, h1, h2, h3⟩ := C49_colours_rejected (F := o.fn) hn hn' (⟨p1.wfi, p1.fiti⟩ : One (grown d w h v1.img.cc).mem v1 w h)
    ⟨p2.wfi, p2.fiti⟩ ⟨p1.wfo, p1.fito⟩ (fun e => hc e.1) (by cases o <;> simp [Op2.fn])
  refine ⟨_, T, _, callRoi2_ok i1 i2 h1, h2, h3, ?_⟩
  obtain ⟨d', e1, e2⟩ := filled_throw hd (f := fun m => .throw m) (w := w) (h := h) (cc := v1.img.cc) rfl
  have e1 : (Res.throw ((grown d w h v1.img.cc).release (made d w h v1.img.cc)) : Res Heap Image) = .throw d' := e1
  rw [Res.throw.inj e1]
  exact e2

/-! ### Merge, Transpose and Resize -/

/-- **C170.** `Image Merge( in1, …, width, height )`: a new RGB image. -/
theorem C170_merge {n : Nat} (hn : 0 < n) (hn' : n < 2 ^ 32) {d : Heap} (hd : HeapOk d) {v1 v2 v3 : View} {w h : Nat} (i1 : Input d v1 w h)
    (i2 : Input d v2 w h) (i3 : Input d v3 w h) (c1 : v1.img.cc = 1) (c2 : v2.img.cc = 1) (c3 : v3.img.cc = 1) (hs : w * 3 * h < 2 ^ 32) :
    HeapPooled n (OnPool.mergeRoi n v1 v2 v3 w h) (fun a => a.1.length) (fun img => task4 Merge v1 v2 v3 (whole img))
      (fun img => ptask4 progMerge v1 v2 v3 (whole img)) d
      fun img d' => NewImage d d' img w h 3 fun x y c => (three v1 v2 v3 c).get d.mem x y 0 := by
  have p1 := i1.pair hd i1.fit.wpos i1.fit.hpos (Or.inr (Or.inl rfl)) hs
  have p2 := i2.pair hd i1.fit.wpos i1.fit.hpos (Or.inr (Or.inl rfl)) hs
  have p3 := i3.pair hd i1.fit.wpos i1.fit.hpos (Or.inr (Or.inl rfl)) hs
  obtain ⟨m', h1, h2⟩ := C20_merge p1 p2 p3 rfl c1 c2 c3
  refine pending_pooled hd hs ?_ rfl rfl (C49_merge hn hn' p1 p2 p3 rfl c1 c2 c3) h1 h2
  rw [OnPool.mergeRoi, bind_ok (heapMem_keep (validateRois_ok _ (vs := [v1, v2, v3])
    (by simp; exact ⟨⟨i1.fit, i1.u32⟩, ⟨i2.fit, i2.u32⟩, i3.fit, i3.u32⟩))), bind_ok (generate_ok i1.fit.wpos i1.fit.hpos hs)]
  rfl

/-- **C170.** `Image Merge( in1, in2, in3 )` is the form for the rectangles of the images. -/
theorem C170_merge_image {n : Nat} {d : Heap} {a b c : Image} (i1 : InputImage d a) (i2 : InputImage d b) (i3 : InputImage d c)
    (h2 : b.width = a.width ∧ b.height = a.height) (h3 : c.width = a.width ∧ c.height = a.height)
    (hs : a.width * 3 * a.height < 2 ^ 32) :
    OnPool.mergeImage n a b c d = OnPool.mergeRoi n (whole a) (whole b) (whole c) a.width a.height d := by
  have i2' : Input d (whole b) a.width a.height := ⟨i2.wf, h2.1 ▸ h2.2 ▸ i2.fit⟩
  have i3' : Input d (whole c) a.width a.height := ⟨i3.wf, h3.1 ▸ h3.2 ▸ i3.fit⟩
  have hv : validateImages [a, b, c] d.mem = .ok () d.mem := by
    rw [validateImages, bind_ok (validImages2 i1.fit i2.fit h2.1 h2.2)]
    exact bind_ok (validImages2 i2.fit i3.fit (h3.1.trans h2.1.symm) (h3.2.trans h2.2.symm))
  rw [OnPool.mergeImage, bind_ok (heapMem_keep hv), OnPool.mergeRoi, bind_ok (heapMem_keep (validateRois_ok _ (vs := [whole a, whole b, whole c])
    (by simp; exact ⟨⟨i1.fit, i1.u32⟩, ⟨i2'.fit, i2'.u32⟩, i3'.fit, i3'.u32⟩)))]
  rw [bind_ok (generate_ok i1.fit.wpos i1.fit.hpos hs), bind_ok (generate_ok i1.fit.wpos i1.fit.hpos hs)]
  rfl

/-- **C170.** `Image Transpose( in, startX, startY, width, height )`: a new image with width and height exchanged. -/
theorem C170_transpose {n : Nat} (hn : 0 < n) (hn' : n < 2 ^ 32) {d : Heap} (hd : HeapOk d) {v : View} {w h : Nat} (i : Input d v w h)
    (hc : v.img.cc = 1) :
    HeapPooled n (OnPool.transposeRoi n v w h) (fun a => a.1.length) (fun img => task2 Transpose v (whole img))
      (fun img => ptask2 progTranspose v (whole img)) d fun img d' => NewImage d d' img h w 1 fun x y c => v.get d.mem y x c := by
  have hs : h * 1 * w < 4294967296 := by
    have := i.small1
    rw [Nat.mul_one] at this ⊢
    rwa [Nat.mul_comm]
  have p := i.pair hd i.fit.hpos i.fit.wpos (Or.inl rfl) hs
  obtain ⟨m', h1, h2⟩ := C19_transpose p hc rfl
  have hl := C49_transpose hn hn' p hc rfl
  have hset : OnPool.transposeSetup n v (whole (made d h w 1)) w h (grown d h w 1).mem =
      poolSetupSizes v w h (whole (made d h w 1)) h w true n (grown d h w 1).mem := by
    rw [OnPool.transposeSetup, bind_ok (validate_pre_ok (vs := [v]) (by simp; exact ⟨p.wfi, p.fiti⟩)),
      bind_ok (validate_pre_ok (vs := [whole (made d h w 1)]) (by simp; exact ⟨p.wfo, p.fito⟩)), bind_ok (gray_ok (l := [v.img, (whole (made d h w 1)).img]) (by simp [hc, made, whole]))]
  have hl : PooledLike n (OnPool.transposeSetup n v (whole (made d h w 1)) w h) (fun a => a.1.length) (task2 Transpose v (whole (made d h w 1)))
      (ptask2 progTranspose v (whole (made d h w 1))) (Transpose v (whole (made d h w 1)) w h) (grown d h w 1).mem := by
    obtain ⟨a, k, m', e1, rest⟩ := hl
    exact ⟨a, k, m', hset.trans e1, rest⟩
  refine pending_pooled hd hs ?_ rfl rfl hl h1 h2
  rw [OnPool.transposeRoi, bind_ok (heapMem_keep (validateRoi_ok _ i.fit i.u32.1 i.u32.2)), bind_ok (generate_ok i.fit.hpos i.fit.wpos hs)]
  rfl

/-- **C170.** `Image Transpose( in )` is the form for the rectangle of the image. -/
theorem C170_transpose_image {n : Nat} {d : Heap} {img : Image} (i : InputImage d img) :
    OnPool.transposeImage n img d = OnPool.transposeRoi n (whole img) img.width img.height d := by
  rw [OnPool.transposeImage, bind_ok (heapMem_keep (validImage_ok (img := img) i.fit.colors i.fit.nonempty _)), OnPool.transposeRoi,
    bind_ok (heapMem_keep (validateRoi_ok _ i.fit i.u32.1 i.u32.2))]
  rfl

/-- **C170.** Colour images are not transposed: refused by the calling thread, and nothing is left behind. -/
theorem C170_transpose_rejects {n : Nat} {d : Heap} (hd : HeapOk d) {v : View} {w h : Nat} (i : Input d v w h) (hc : v.img.cc ≠ 1) :
    ∃ d', OnPool.transposeRoi n v w h d = .throw d' ∧ SameHeap d d' := by
  have hs : h * 1 * w < 4294967296 := by
    have := i.small1
    rw [Nat.mul_one] at this ⊢
    rwa [Nat.mul_comm]
  have p := i.pair hd i.fit.hpos i.fit.wpos (Or.inl rfl) hs
  rw [OnPool.transposeRoi, bind_ok (heapMem_keep (validateRoi_ok _ i.fit i.u32.1 i.u32.2)), bind_ok (generate_ok i.fit.hpos i.fit.wpos hs)]
  refine pending_throw hd ?_
  show OnPool.transposeSetup n v (whole (made d h w 1)) w h (grown d h w 1).mem = _
  rw [OnPool.transposeSetup, bind_ok (validate_pre_ok (vs := [v]) (by simp; exact ⟨p.wfi, p.fiti⟩)),
    bind_ok (validate_pre_ok (vs := [whole (made d h w 1)]) (by simp; exact ⟨p.wfo, p.fito⟩)), bind_throw (gray_throw ⟨v.img, by simp, hc⟩)]

/-- **C170.** `Image Resize( in, … )` of gray-scale images: the new image is made from parts of the region, each resized by itself; which
    parts depends on the number of threads.  Partial: the result is that of the form without a pool only when the parts agree with the
    whole (C105). -/
theorem C170_resize_partial {n : Nat} (hn : 0 < n) (hn' : n < 2 ^ 32) {d : Heap} (hd : HeapOk d) {v : View} {wi hi wo ho : Nat}
    (i : Input d v wi hi) (hc : v.img.cc = 1) (hwo : 0 < wo) (hho : 0 < ho) (hs : wo * 1 * ho < 2 ^ 32) :
    ∃ (kx ky : Nat) (srcX srcY : Nat → Nat), (kx = 1 ∨ ky = 1) ∧ 0 < kx * ky ∧ kx * ky ≤ n ∧ InParts wi wo kx srcX ∧ InParts hi ho ky srcY ∧
      HeapPooled n (OnPool.resizeRoi n v wi hi wo ho) (fun a => a.1.length) (fun img => taskSizes Resize v (whole img))
        (fun img => ptaskSizes progResize v (whole img)) d
        fun img d' => NewImage d d' img wo ho 1 fun x y c => v.get d.mem (srcX x) (srcY y) c := by
  have p := i.pair hd hwo hho (Or.inl rfl) hs
  obtain ⟨kx, ky, srcX, srcY, m', h1, h2, h3, h4, h5, h6, h7⟩ := C105_resize_parts hn hn' p hc.symm
  refine ⟨kx, ky, srcX, srcY, h1, h2, h3, h4, h5, pending_pooled hd hs ?_ rfl rfl h7 rfl h6⟩
  rw [OnPool.resizeRoi, bind_ok (heapMem_keep (validateRoi_ok _ i.fit i.u32.1 i.u32.2)), bind_ok (generate_ok hwo hho hs)]
  rfl

/-- **C170.** `Image Resize( in, widthOut, heightOut )` is the form for the rectangle of the image. -/
theorem C170_resize_image {n : Nat} {d : Heap} {img : Image} (i : InputImage d img) (wo ho : Nat) :
    OnPool.resizeImage n img wo ho d = OnPool.resizeRoi n (whole img) img.width img.height wo ho d := by
  rw [OnPool.resizeImage, bind_ok (heapMem_keep (validImage_ok (img := img) i.fit.colors i.fit.nonempty _)), OnPool.resizeRoi,
    bind_ok (heapMem_keep (validateRoi_ok _ i.fit i.u32.1 i.u32.2))]
  rfl

/-- **C170.** Rectangles that do not fit and empty images are refused by every form, before an image is made. -/
theorem C170_rejects_rectangle (f : Pooled1) (n : Nat) (d : Heap) {v : View} {w h : Nat} (hv : v.U32) (hw : w < 2 ^ 32) (hh : h < 2 ^ 32)
    (hn : ¬ v.Fits w h) (wo ho : Nat) :
    (f.call n).newRoi v w h d = .throw d ∧ OnPool.transposeRoi n v w h d = .throw d ∧ OnPool.resizeRoi n v w h wo ho d = .throw d :=
  ⟨C169_rejects_rectangle _ d hv hw hh hn, by rw [OnPool.transposeRoi, bind_throw (heapMem_throw (validateRoi_throw _ hn hv hw hh))],
    by rw [OnPool.resizeRoi, bind_throw (heapMem_throw (validateRoi_throw _ hn hv hw hh))]⟩

/-- **C170.** Empty images and images with an unknown colour count. -/
theorem C170_rejects_image (f : Pooled1) (n : Nat) (d : Heap) {img : Image} (hn : img.data = 0 ∨ ¬ (img.cc = 1 ∨ img.cc = 3 ∨ img.cc = 4))
    (wo ho : Nat) :
    (f.call n).newWhole img d = .throw d ∧ OnPool.transposeImage n img d = .throw d ∧ OnPool.resizeImage n img wo ho d = .throw d := by
  have e : validateImage img d.mem = .throw d.mem := by
    rw [validateImage, invalidImage hn]
    rfl
  exact ⟨C169_rejects_image _ d hn, by rw [OnPool.transposeImage, bind_throw (heapMem_throw e)],
    by rw [OnPool.resizeImage, bind_throw (heapMem_throw e)]⟩

/-- **C170.** Images of different sizes. -/
theorem C170_rejects_sizes (f : Pooled1) (n : Nat) (m : BMem) {a b : Image}
    (hb : b.width ≠ a.width ∨ b.height ≠ a.height ∨ a.data = 0 ∨ b.data = 0 ∨ ¬ (a.cc = 1 ∨ a.cc = 3 ∨ a.cc = 4) ∨
      ¬ (b.cc = 1 ∨ b.cc = 3 ∨ b.cc = 4)) : (f.call n).whole a b m = .throw m := C169_into_rejects _ m hb

/-! ### Examples -/

/-- A byte of the new image, when the tasks run one after the other. -/
def newBytePool {Γ : Type} (r : Res Heap (Image × Γ)) (count : Γ → Nat) (task : Image → Γ → Nat → M BMem Unit) (i : Nat) : Option (Nat × UInt8) :=
  match r with
  | .ok (img, a) d =>
    (after ((List.range (count a)).foldlM (m := M BMem) (fun _ k => task img a k) () d.mem) img.data i).map fun b => (img.data, b)
  | _ => none

example : HeapOk exHeap ∧ InputImage exHeap (padded 2) ∧ PoolOp1.invert.op.good 1 1 := ⟨exHeap_ok, exInput, rfl⟩
example : newBytePool ((PoolOp1.invert.fn.call 2).newWhole (padded 2) exHeap) (fun a => a.1.length)
    (fun img => PoolOp1.invert.fn.task (whole (padded 2)) (whole img)) 3 = some (8, 210) := by decide +kernel
example : newBytePool (((PoolOp1.flip true false).fn.call 2).newRoi ⟨padded 2, 0, 0⟩ 2 2 exHeap) (fun a => a.1.length)
    (fun img => (PoolOp1.flip true false).fn.task ⟨padded 2, 0, 0⟩ (whole img)) 0 = some (8, 21) := by decide +kernel
example : newBytePool (callWhole2 (OnPool.two 2) (padded 2) (tight 1) exHeap) (fun a => a.1.length)
    (fun img => task3 AbsoluteDifference (whole (padded 2)) (whole (tight 1)) (whole img)) 3 = some (8, 26) := by decide +kernel
example : newBytePool (OnPool.transposeImage 2 (padded 2) exHeap) (fun a => a.1.length)
    (fun img => task2 Transpose (whole (padded 2)) (whole img)) 1 = some (8, 36) := by decide +kernel
example : newBytePool (OnPool.resizeImage 2 (padded 2) 4 4 exHeap) (fun a => a.1.length)
    (fun img => taskSizes Resize (whole (padded 2)) (whole img)) 15 = some (8, 45) := by decide +kernel
example : (8 : UInt8) < 9 ∧ (rgbEx 1).cc ≠ 1 := by decide

end PV.Props
