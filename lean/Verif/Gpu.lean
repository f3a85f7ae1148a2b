import Verif.GpuGrid
import Verif.Interleave
import Verif.PixelFn
/-
  Kernels running on a device.

  A kernel is a task (`Prog`) for every thread.  The threads of a launch make their accesses in any
  order.  The memory is the memory of the device; single accesses are atomic, which matters
  only if two threads touch the same cell.
-/
namespace PV

variable {μ : Type}

/-- The size of a launch over two dimensions: the number of blocks and the size of a block.
    src/cuda/cuda_helper.cu 158-210, src/opencl/opencl_helper.cpp 209-253. -/
structure Geometry where
  blocksX : Nat
  blocksY : Nat
  threadsX : Nat
  threadsY : Nat
  /-- word in which the position is computed -/
  wrap : Nat → Nat

/-- A launch: its size and, for a thread at position (x, y), its task. Not in the code: machinery of the model. -/
structure Launch extends Geometry where
  kernel : Nat → Nat → Prog UInt8 Unit

/-- A thread: its block and its place in the block. Not in the code: machinery of the model. -/
structure Geometry.Thread (L : Geometry) where
  bx : Fin L.blocksX
  by' : Fin L.blocksY
  tx : Fin L.threadsX
  ty : Fin L.threadsY
deriving DecidableEq

/-- `blockDim.x * blockIdx.x + threadIdx.x` (CUDA), `get_global_id( 0 )` (OpenCL). For example src/cuda/image_function_cuda.cu 70. -/
def Geometry.posX (L : Geometry) (t : L.Thread) : Nat := L.wrap (L.wrap (L.threadsX * t.bx) + t.tx)
/-- `blockDim.y * blockIdx.y + threadIdx.y` (CUDA), `get_global_id( 1 )` (OpenCL). For example src/cuda/image_function_cuda.cu 71. -/
def Geometry.posY (L : Geometry) (t : L.Thread) : Nat := L.wrap (L.wrap (L.threadsY * t.by') + t.ty)

/-- The threads before their first access. Not in the code: machinery of the model. -/
def Launch.sys (L : Launch) (m : BMem) : Sys UInt8 Unit L.Thread := ⟨m, fun t => L.kernel (L.posX t) (L.posY t)⟩

/-- In every order of the accesses no thread goes wrong, all threads can always be brought to their end, and when they
    have ended the memory satisfies `Q`. Not in the code: for statements and proofs. -/
structure Launch.Always (L : Launch) (m : BMem) (Q : BMem → Prop) : Prop where
  safe : ∀ σ, ((L.sys m).exec σ).NoError
  ends : ∀ σ, ∃ τ, ∀ t, (((L.sys m).exec (σ ++ τ)).task t).Done
  result : ∀ σ, (∀ t, (((L.sys m).exec σ).task t).Done) → Q ((L.sys m).exec σ).mem

/-- Every position below `W` by `H` belongs to a thread, and no two threads have the same position.
    Not in the code: for statements and proofs. -/
structure Geometry.Covers (L : Geometry) (W H : Nat) : Prop where
  cover : ∀ x y, x < W → y < H → ∃ t : L.Thread, L.posX t = x ∧ L.posY t = y
  once : ∀ t t' : L.Thread, L.posX t = L.posX t' → L.posY t = L.posY t' → t = t'

theorem axis_once {t b b' i i' : Nat} (hi : i < t) (hi' : i' < t) (h : t * b + i = t * b' + i') : b = b' ∧ i = i' := by
  have e1 : (t * b + i) / t = b := by rw [Nat.mul_add_div (by omega), Nat.div_eq_of_lt hi, Nat.add_zero]
  have e2 : (t * b' + i') / t = b' := by rw [Nat.mul_add_div (by omega), Nat.div_eq_of_lt hi', Nat.add_zero]
  have hb : b = b' := by rw [← e1, ← e2, h]
  subst hb
  exact ⟨rfl, by omega⟩

theorem Geometry.axis_lt {a t b i : Nat} (hb : b < a) (hi : i < t) : t * b + i < a * t := by
  have : t * (b + 1) ≤ t * a := Nat.mul_le_mul_left _ hb
  rw [Nat.mul_succ] at this
  rw [Nat.mul_comm a]
  omega

theorem Geometry.covers {L : Geometry} {W H N : Nat} (hwrap : ∀ n, n < N → L.wrap n = n)
    (hX : W ≤ L.blocksX * L.threadsX) (hY : H ≤ L.blocksY * L.threadsY)
    (hXN : L.blocksX * L.threadsX ≤ N) (hYN : L.blocksY * L.threadsY ≤ N) : L.Covers W H := by
  have px : ∀ t : L.Thread, L.posX t = L.threadsX * t.bx + t.tx := fun t => by
    have := Geometry.axis_lt t.bx.2 t.tx.2
    rw [Geometry.posX, hwrap (L.threadsX * t.bx) (by omega), hwrap _ (by omega)]
  have py : ∀ t : L.Thread, L.posY t = L.threadsY * t.by' + t.ty := fun t => by
    have := Geometry.axis_lt t.by'.2 t.ty.2
    rw [Geometry.posY, hwrap (L.threadsY * t.by') (by omega), hwrap _ (by omega)]
  refine ⟨fun x y hx hy => ?_, fun t t' h1 h2 => ?_⟩
  · have tx : 0 < L.threadsX := Nat.pos_of_ne_zero fun h => by rw [h] at hX; omega
    have ty : 0 < L.threadsY := Nat.pos_of_ne_zero fun h => by rw [h] at hY; omega
    refine ⟨⟨⟨x / L.threadsX, ?_⟩, ⟨y / L.threadsY, ?_⟩, ⟨x % L.threadsX, Nat.mod_lt _ tx⟩, ⟨y % L.threadsY, Nat.mod_lt _ ty⟩⟩, ?_, ?_⟩
    · rw [Nat.div_lt_iff_lt_mul tx]; omega
    · rw [Nat.div_lt_iff_lt_mul ty]; omega
    · rw [px]
      exact Nat.div_add_mod _ _
    · rw [py]
      exact Nat.div_add_mod _ _
  · rw [px, px] at h1
    rw [py, py] at h2
    obtain ⟨a, b⟩ := axis_once t.tx.2 t'.tx.2 h1
    obtain ⟨c, d⟩ := axis_once t.ty.2 t'.ty.2 h2
    cases t
    cases t'
    simp only at a b c d
    rw [Fin.ext a, Fin.ext b, Fin.ext c, Fin.ext d]

/-- All threads. Not in the code: machinery of the model. -/
def Geometry.threads (L : Geometry) : List L.Thread :=
  (List.finRange L.blocksX).flatMap fun bx => (List.finRange L.blocksY).flatMap fun by' =>
    (List.finRange L.threadsX).flatMap fun tx => (List.finRange L.threadsY).map fun ty => ⟨bx, by', tx, ty⟩

theorem Geometry.mem_threads (L : Geometry) (t : L.Thread) : t ∈ L.threads := by
  simp only [threads, List.mem_flatMap, List.mem_map]
  exact ⟨t.bx, List.mem_finRange _, t.by', List.mem_finRange _, t.tx, List.mem_finRange _, t.ty, List.mem_finRange _, rfl⟩

theorem Launch.finish (L : Launch) (s : Sys UInt8 Unit L.Thread) : ∃ τ, ∀ t, ((s.exec τ).task t).Done := by
  obtain ⟨τ, h⟩ := s.finish_list L.threads
  exact ⟨τ, fun t => h t (L.mem_threads t)⟩

/-- Threads that each write their own cells, and read nothing that another one writes. -/
theorem Launch.always {L : Launch} {m : BMem} {W R : L.Thread → Nat × Nat → Prop} {res : L.Thread → BMem} {Q : BMem → Prop}
    (hfoot : ∀ t, (L.kernel (L.posX t) (L.posY t)).Foot (R t) (W t))
    (hdis : ∀ i j, i ≠ j → ∀ c, W i c → ¬ (R j c ∨ W j c))
    (hok : ∀ t, (L.kernel (L.posX t) (L.posY t)).run m = .ok () (res t))
    (hQ : ∀ m' : BMem, m'.size = m.size → (∀ t b k, W t (b, k) → m'.byte b k = (res t).byte b k) →
      (∀ b k, (∀ t, ¬ W t (b, k)) → m'.byte b k = m.byte b k) → Q m') : L.Always m Q := by
  have key := interleave (m := m) (P := fun t : L.Thread => L.kernel (L.posX t) (L.posY t)) (v := fun _ => ()) (res := res)
    hfoot hdis hok
  refine ⟨fun σ => (key σ).1, fun σ => ?_, fun σ hd => ?_⟩
  · obtain ⟨τ, h⟩ := L.finish ((L.sys m).exec σ)
    exact ⟨τ, fun t => by rw [Sys.exec_append]; exact h t⟩
  · obtain ⟨h1, _, h3⟩ := key σ
    obtain ⟨s1, s2, s3⟩ := h3 ⟨fun _ => (), fun i => by
      have hd := hd i
      have hn := h1 i
      unfold Launch.sys at hd
      revert hd hn
      cases ((⟨m, fun t => L.kernel (L.posX t) (L.posY t)⟩ : Sys UInt8 Unit _).exec σ).task i with
      | ret a => intros; rfl
      | throw => intro _ hn; exact absurd rfl hn.1
      | ub => intro _ hn; exact absurd rfl hn.2
      | read b k c => intro hd; exact hd.elim
      | write b k v c => intro hd; exact hd.elim⟩
    exact hQ _ s1 s2 s3

/-- A kernel over `W` by `H` positions such that position (x, y, c) of the rectangle of `out` is written by the thread
    `owner x y c`, with the value `F x y c`. -/
theorem Launch.writes {L : Launch} {m : BMem} {out : View} {w h W H : Nat} (wf : out.img.WF m) (fit : out.Fits w h)
    (hL : L.Covers W H) {F : Nat → Nat → Nat → UInt8} (owner : Nat → Nat → Nat → Nat × Nat)
    (hown : ∀ x y c, x < w → y < h → c < out.img.cc → (owner x y c).1 < W ∧ (owner x y c).2 < H)
    (R : Nat → Nat → Nat × Nat → Prop)
    (hout : ∀ X Y, ¬ (X < W ∧ Y < H) → L.kernel X Y = .ret ())
    (hfoot : ∀ X Y, X < W → Y < H → (L.kernel X Y).Foot (R X Y) fun a =>
      ∃ x y c, x < w ∧ y < h ∧ c < out.img.cc ∧ owner x y c = (X, Y) ∧ a = (out.img.data, out.cell x y c))
    (hR : ∀ X Y a, X < W → Y < H → R X Y a → ∀ x y c, x < w → y < h → c < out.img.cc →
      a = (out.img.data, out.cell x y c) → owner x y c = (X, Y))
    (hrun : ∀ X Y, X < W → Y < H → ∃ m', (L.kernel X Y).run m = .ok () m' ∧
      ∀ x y c, x < w → y < h → c < out.img.cc → owner x y c = (X, Y) → m'.byte out.img.data (out.cell x y c) = F x y c) :
    L.Always m fun m' => WritesRoi m m' out w h F := by
  have hinj : ∀ x y c x' y' c', x < w → y < h → c < out.img.cc → x' < w → y' < h → c' < out.img.cc →
      out.cell x y c = out.cell x' y' c' → x = x' ∧ y = y' ∧ c = c' := by
    intro x y c x' y' c' hx hy hc hx' hy' hc' he
    exact cell_inj wf.row fit.inX hx hc hx' hc' hy hy' he
  have hrun' : ∀ X Y, ∃ m', (L.kernel X Y).run m = .ok () m' ∧ (X < W → Y < H →
      ∀ x y c, x < w → y < h → c < out.img.cc → owner x y c = (X, Y) → m'.byte out.img.data (out.cell x y c) = F x y c) := by
    intro X Y
    by_cases hc : X < W ∧ Y < H
    · obtain ⟨m', h1, h2⟩ := hrun X Y hc.1 hc.2
      exact ⟨m', h1, fun _ _ => h2⟩
    · rw [hout X Y hc]
      exact ⟨m, rfl, fun a b => absurd ⟨a, b⟩ hc⟩
  obtain ⟨res, hres⟩ : ∃ res : Nat → Nat → BMem, ∀ X Y, (L.kernel X Y).run m = .ok () (res X Y) ∧ (X < W → Y < H →
      ∀ x y c, x < w → y < h → c < out.img.cc → owner x y c = (X, Y) →
        (res X Y).byte out.img.data (out.cell x y c) = F x y c) :=
    ⟨fun X Y => Classical.choose (hrun' X Y), fun X Y => Classical.choose_spec (hrun' X Y)⟩
  refine Launch.always (res := fun t => res (L.posX t) (L.posY t))
    (W := fun t a => (L.posX t < W ∧ L.posY t < H) ∧ ∃ x y c, x < w ∧ y < h ∧ c < out.img.cc ∧ owner x y c = (L.posX t, L.posY t) ∧
      a = (out.img.data, out.cell x y c))
    (R := fun t a => (L.posX t < W ∧ L.posY t < H) ∧ R (L.posX t) (L.posY t) a) ?_ ?_ (fun t => (hres _ _).1) ?_
  · intro t
    by_cases hc : L.posX t < W ∧ L.posY t < H
    · simpa [hc.1, hc.2] using hfoot _ _ hc.1 hc.2
    · rw [hout _ _ hc]
      trivial
  · rintro i j hij a ⟨hi, x, y, c, hx, hy, hc, ho, rfl⟩ hj
    refine hij ?_
    rcases hj with ⟨hj, hr⟩ | ⟨hj, x', y', c', hx', hy', hc', ho', he⟩
    · have := hR _ _ _ hj.1 hj.2 hr x y c hx hy hc rfl
      rw [ho] at this
      exact hL.once i j (Prod.mk.inj this).1 (Prod.mk.inj this).2
    · obtain ⟨e1, e2, e3⟩ := hinj x y c x' y' c' hx hy hc hx' hy' hc' (Prod.mk.inj he).2
      subst e1 e2 e3
      rw [ho] at ho'
      exact hL.once i j (Prod.mk.inj ho').1 (Prod.mk.inj ho').2
  · intro m' s1 s2 s3
    refine ⟨s1, fun x y c hx hy hc => ?_, fun b i hn => s3 b i ?_⟩
    · obtain ⟨o1, o2⟩ := hown x y c hx hy hc
      obtain ⟨t, t1, t2⟩ := hL.cover _ _ o1 o2
      have ho : owner x y c = (L.posX t, L.posY t) := by rw [t1, t2]
      rw [View.get, s2 t _ _ ⟨⟨by omega, by omega⟩, x, y, c, hx, hy, hc, ho, rfl⟩]
      exact (hres _ _).2 (by omega) (by omega) x y c hx hy hc ho
    · rintro t ⟨_, x, y, c, hx, hy, hc, _, he⟩
      have he := Prod.mk.inj he
      exact hn ⟨he.1, x, y, c, hx, hy, hc, he.2⟩

end PV
