import Verif.Gpu
/-
  Kernels on a device whose memory cells hold values of any type (Gpu.lean: bytes).
-/
namespace PV

variable {α : Type}

/-- A launch: its size and, for a thread at position (x, y), its task. Not in the code: machinery of the model. -/
structure VLaunch (α : Type) extends Geometry where
  kernel : Nat → Nat → Prog α Unit

/-- The threads before their first access. Not in the code: machinery of the model. -/
def VLaunch.sys (L : VLaunch α) (m : Mem α) : Sys α Unit L.Thread := ⟨m, fun t => L.kernel (L.posX t) (L.posY t)⟩

/-- In every order of the accesses no thread goes wrong, all threads can always be brought to their end, and when they
    have ended the memory satisfies `Q`. Not in the code: for statements and proofs. -/
structure VLaunch.Always (L : VLaunch α) (m : Mem α) (Q : Mem α → Prop) : Prop where
  safe : ∀ σ, ((L.sys m).exec σ).NoError
  ends : ∀ σ, ∃ τ, ∀ t, (((L.sys m).exec (σ ++ τ)).task t).Done
  result : ∀ σ, (∀ t, (((L.sys m).exec σ).task t).Done) → Q ((L.sys m).exec σ).mem

/-- Kernel body: only positions inside `W` by `H` do something. For example src/cuda/cuda_fft.cu 30-40. -/
def vguarded (W H : Nat) (body : Nat → Nat → Prog α Unit) (x y : Nat) : Prog α Unit :=
  if x < W ∧ y < H then body x y else .ret ()

/-- `launchKernel2D`, src/cuda/cuda_helper.cuh 76-79: all arguments after the sizes are parameters of the kernel. -/
def vlaunch2D {μ : Type} (d : CudaDevice) (w h : Nat) (kernel : Nat → Nat → Prog α Unit) : M μ (VLaunch α) := do
  let g ← getGrid2 d w h
  pure ⟨⟨g.blocks.x, g.blocks.y, g.threads.x, g.threads.y, u32⟩, kernel⟩

theorem VLaunch.finish (L : VLaunch α) (s : Sys α Unit L.Thread) : ∃ τ, ∀ t, ((s.exec τ).task t).Done := by
  obtain ⟨τ, h⟩ := s.finish_list L.threads
  exact ⟨τ, fun t => h t (L.mem_threads t)⟩

/-- Threads that each write their own cells, and read nothing that another one writes. -/
theorem VLaunch.always {L : VLaunch α} {m : Mem α} {W R : L.Thread → Nat × Nat → Prop} {res : L.Thread → Mem α} {Q : Mem α → Prop}
    (hfoot : ∀ t, (L.kernel (L.posX t) (L.posY t)).Foot (R t) (W t))
    (hdis : ∀ i j, i ≠ j → ∀ c, W i c → ¬ (R j c ∨ W j c))
    (hok : ∀ t, (L.kernel (L.posX t) (L.posY t)).run m = .ok () (res t))
    (hQ : ∀ m' : Mem α, m'.size = m.size → (∀ t b k, W t (b, k) → m'.byte b k = (res t).byte b k) →
      (∀ b k, (∀ t, ¬ W t (b, k)) → m'.byte b k = m.byte b k) → Q m') : L.Always m Q := by
  have key := interleave (m := m) (P := fun t : L.Thread => L.kernel (L.posX t) (L.posY t)) (v := fun _ => ()) (res := res)
    hfoot hdis hok
  refine ⟨fun σ => (key σ).1, fun σ => ?_, fun σ hd => ?_⟩
  · obtain ⟨τ, h⟩ := L.finish ((L.sys m).exec σ)
    exact ⟨τ, fun t => by rw [Sys.exec_append]; exact h t⟩
  · obtain ⟨h1, _, h3⟩ := key σ
    obtain ⟨s1, s2, s3⟩ := h3 ⟨fun _ => (), fun i => by
      have hd := hd i
      have hn := h1 i
      unfold VLaunch.sys at hd
      revert hd hn
      cases ((⟨m, fun t => L.kernel (L.posX t) (L.posY t)⟩ : Sys α Unit _).exec σ).task i with
      | ret a => intros; rfl
      | throw => intro _ hn; exact absurd rfl hn.1
      | ub => intro _ hn; exact absurd rfl hn.2
      | read b k c => intro hd; exact hd.elim
      | write b k v c => intro hd; exact hd.elim⟩
    exact hQ _ s1 s2 s3

/-- A kernel over `W` by `H` positions: position (X, Y) writes the cells `Wr X Y`, which nobody else touches, and leaves `F` there. -/
theorem VLaunch.positions {L : VLaunch α} {m : Mem α} {W H : Nat} (hL : L.Covers W H) {body : Nat → Nat → Prog α Unit}
    (hk : L.kernel = vguarded W H body) {R Wr : Nat → Nat → Nat × Nat → Prop} {F : Nat → Nat → α}
    (hfoot : ∀ X Y, X < W → Y < H → (body X Y).Foot (R X Y) (Wr X Y))
    (hdis : ∀ X Y X' Y', X < W → Y < H → X' < W → Y' < H → ∀ c, Wr X Y c → R X' Y' c ∨ Wr X' Y' c → X = X' ∧ Y = Y')
    (hrun : ∀ X Y, X < W → Y < H → ∃ m', (body X Y).run m = .ok () m' ∧ ∀ b k, Wr X Y (b, k) → m'.byte b k = F b k) :
    L.Always m fun m' => m'.size = m.size ∧ (∀ X Y b k, X < W → Y < H → Wr X Y (b, k) → m'.byte b k = F b k) ∧
      ∀ b k, (∀ X Y, X < W → Y < H → ¬ Wr X Y (b, k)) → m'.byte b k = m.byte b k := by
  have hrun' : ∀ X Y, ∃ m', (L.kernel X Y).run m = .ok () m' ∧ (X < W → Y < H → ∀ b k, Wr X Y (b, k) → m'.byte b k = F b k) := by
    intro X Y
    rw [hk, vguarded]
    by_cases hc : X < W ∧ Y < H
    · obtain ⟨m', h1, h2⟩ := hrun X Y hc.1 hc.2
      exact ⟨m', by rw [if_pos hc]; exact h1, fun _ _ => h2⟩
    · exact ⟨m, by rw [if_neg hc]; rfl, fun a b => absurd ⟨a, b⟩ hc⟩
  obtain ⟨res, hres⟩ : ∃ res : Nat → Nat → Mem α, ∀ X Y, (L.kernel X Y).run m = .ok () (res X Y) ∧
      (X < W → Y < H → ∀ b k, Wr X Y (b, k) → (res X Y).byte b k = F b k) :=
    ⟨fun X Y => Classical.choose (hrun' X Y), fun X Y => Classical.choose_spec (hrun' X Y)⟩
  refine VLaunch.always (res := fun t => res (L.posX t) (L.posY t))
    (W := fun t a => (L.posX t < W ∧ L.posY t < H) ∧ Wr (L.posX t) (L.posY t) a)
    (R := fun t a => (L.posX t < W ∧ L.posY t < H) ∧ R (L.posX t) (L.posY t) a) ?_ ?_ (fun t => (hres _ _).1) ?_
  · intro t
    rw [hk, vguarded]
    by_cases hc : L.posX t < W ∧ L.posY t < H
    · rw [if_pos hc]
      simpa [hc.1, hc.2] using hfoot _ _ hc.1 hc.2
    · rw [if_neg hc]
      trivial
  · rintro i j hij a ⟨hi, hw⟩ hj
    refine hij ?_
    have hj' : (L.posX j < W ∧ L.posY j < H) ∧ (R (L.posX j) (L.posY j) a ∨ Wr (L.posX j) (L.posY j) a) := by
      rcases hj with ⟨h1, h2⟩ | ⟨h1, h2⟩
      · exact ⟨h1, Or.inl h2⟩
      · exact ⟨h1, Or.inr h2⟩
    obtain ⟨e1, e2⟩ := hdis _ _ _ _ hi.1 hi.2 hj'.1.1 hj'.1.2 a hw hj'.2
    exact hL.once i j e1 e2
  · intro m' s1 s2 s3
    refine ⟨s1, fun X Y b k hX hY hw => ?_, fun b k hn => s3 b k fun t ht => hn _ _ ht.1.1 ht.1.2 ht.2⟩
    obtain ⟨t, rfl, rfl⟩ := hL.cover X Y hX hY
    rw [s2 t b k ⟨⟨hX, hY⟩, hw⟩]
    exact (hres _ _).2 hX hY b k hw

theorem VLaunch.Always.mono {L : VLaunch α} {m : Mem α} {Q Q' : Mem α → Prop} (h : L.Always m Q) (hq : ∀ m', Q m' → Q' m') :
    L.Always m Q' := ⟨h.safe, h.ends, fun σ hd => hq _ (h.result σ hd)⟩

theorem vlaunch2D_ok {d : CudaDevice} {w h : Nat} (s : d.Serves w h) (hw : 0 < w) (hh : 0 < h) (kernel : Nat → Nat → Prog α Unit)
    {μ : Type} : ∃ L : VLaunch α, (vlaunch2D d w h kernel : M μ (VLaunch α)) = pure L ∧ L.kernel = kernel ∧ L.Covers w h := by
  obtain ⟨g, e, hg⟩ := getGrid2_ok (μ := μ) s hw hh
  refine ⟨⟨⟨g.blocks.x, g.blocks.y, g.threads.x, g.threads.y, u32⟩, kernel⟩, by rw [vlaunch2D, e, pure_bind'], rfl, ?_⟩
  have tx : g.threads.x ≤ d.threads := by
    have : g.threads.x * 1 ≤ g.threads.x * g.threads.y := Nat.mul_le_mul_left _ hg.block.ypos
    have := hg.block.total
    omega
  have ty : g.threads.y ≤ d.threads := by
    have : 1 * g.threads.y ≤ g.threads.x * g.threads.y := Nat.mul_le_mul_right _ hg.block.xpos
    have := hg.block.total
    omega
  have := s.wsmall
  have := s.hsmall
  have := hg.spanX
  have := hg.spanY
  exact Geometry.covers (N := 4294967296) u32_keeps hg.spanX.1 hg.spanY.1 (by show g.blocks.x * g.threads.x ≤ _; omega)
    (by show g.blocks.y * g.threads.y ≤ _; omega)

end PV
