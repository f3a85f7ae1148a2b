import Verif.CudaLemmas
/-
  `SetPixel` on a CUDA device (src/cuda/image_function_cuda.cu 347-366, 1120-1153).

  The lists of points are copied to arrays of the device; these arrays are modelled as lists which the threads only read, and
  the way in which their memory is obtained is left out.  More than one thread may write the same byte.
-/
namespace PV.Cuda

/-- `launchKernel1D`, src/cuda/cuda_helper.cuh 71-74 -/
def launch1D {μ : Type} (d : CudaDevice) (w : Nat) (kernel : Nat → Nat → Prog UInt8 Unit) : M μ Launch := do
  let g ← getGrid1 d w
  pure ⟨⟨g.blocks.x, g.blocks.y, g.threads.x, g.threads.y, u32⟩, kernel⟩

/-- src/cuda/image_function_cuda.cu, kernel 347-352; it does not look at the position of its thread. -/
def kernelSetPixel (img : Image) (x y : Nat) (value : UInt8) (_ _ : Nat) : Prog UInt8 Unit :=
  if x < img.width ∧ y < img.height then Prog.store img.data (u32 (u32 (y * img.rowSize) + x)) value else .ret ()

/-- src/cuda/image_function_cuda.cu, call 1120-1129 -/
def SetPixel (d : CudaDevice) (img : Image) (x y : Nat) (value : UInt8) : M BMem Launch := do
  validateImage img
  throwIf (decide (x ≥ img.width) || decide (y ≥ img.height))
  launch1D d 1 (kernelSetPixel img x y value)

/-- src/cuda/image_function_cuda.cu, kernel 354-365 -/
def kernelSetPixels (img : Image) (X Y : List Nat) (pointSize : Nat) (value : UInt8) (idPoint : Nat) (_ : Nat) : Prog UInt8 Unit :=
  if idPoint < pointSize then
    match X[idPoint]?, Y[idPoint]? with
    | some x, some y =>
      if x < img.width ∧ y < img.height then Prog.store img.data (u32 (u32 (y * img.rowSize) + x)) value else .ret ()
    | _, _ => .ub
  else .ret ()

/-- No kernel is started. src/cuda/image_function_cuda.cu 1138 (no points). -/
def noLaunch : Launch := ⟨⟨0, 0, 0, 0, u32⟩, fun _ _ => .ret ()⟩

/-- src/cuda/image_function_cuda.cu, call 1131-1153; the points are compared one after the other before anything is started. -/
def SetPixels (d : CudaDevice) (img : Image) (X Y : List Nat) (value : UInt8) : M BMem Launch := do
  validateImage img
  throwIf (X.length != Y.length)
  if X.length > 0 then do
    fold (fun p _ => throwIf (decide (p.1 ≥ img.width) || decide (p.2 ≥ img.height))) (X.zip Y) ()
    launch1D d (u32 X.length) (kernelSetPixels img X Y (u32 X.length) value)
  else
    pure noLaunch

/-! ### Threads which all write the same value -/

/-- The memory in which some cells have been given the value `v`. Not in the code: for statements and proofs. -/
structure Stamped (m m' : BMem) (v : UInt8) (S : Nat × Nat → Prop) : Prop where
  size_eq : m'.size = m.size
  inside : ∀ b i, S (b, i) → m'.byte b i = v
  outside : ∀ b i, ¬ S (b, i) → m'.byte b i = m.byte b i

/-- Every thread writes the value `v` to at most one cell; different threads may write to the same cell. -/
theorem Launch.always_stamp {L : Launch} {m : BMem} {v : UInt8} (A : L.Thread → Option (Nat × Nat))
    (hk : ∀ t, L.kernel (L.posX t) (L.posY t) = match A t with
      | none => .ret ()
      | some a => Prog.store a.1 a.2 v)
    (hv : ∀ t a, A t = some a → m.Valid a.1 a.2) :
    L.Always m fun m' => Stamped m m' v fun c => ∃ t, A t = some c := by
  have inv : ∀ σ, ∃ D : L.Thread → Prop, Stamped m ((L.sys m).exec σ).mem v (fun c => ∃ t, D t ∧ A t = some c) ∧
      ∀ t, (D t → ((L.sys m).exec σ).task t = .ret ()) ∧
        (¬ D t → ((L.sys m).exec σ).task t = match A t with
          | none => .ret ()
          | some a => Prog.store a.1 a.2 v) := by
    intro σ
    induction σ using List.reverseRecOn with
    | nil => exact ⟨fun _ => False, ⟨rfl, fun b i h => by obtain ⟨t, h, _⟩ := h; exact h.elim, fun b i _ => rfl⟩,
        fun t => ⟨fun h => h.elim, fun _ => hk t⟩⟩
    | append_singleton σ t ih =>
      obtain ⟨D, hS, hT⟩ := ih
      rw [Sys.exec_append]
      generalize hs : (L.sys m).exec σ = s at hS hT
      show ∃ D : L.Thread → Prop, Stamped m (s.step t).mem v _ ∧ ∀ i, (D i → (s.step t).task i = _) ∧ (¬ D i → (s.step t).task i = _)
      have stay : ∀ r, s.task t = .ret r → s.step t = s := by
        intro r hr
        unfold Sys.step
        rw [hr]
        cases s with
        | mk mem task =>
          simp only [Prog.step, Sys.mk.injEq, true_and]
          funext i
          by_cases hi : i = t
          · subst hi; rw [if_pos rfl]; exact hr.symm
          · rw [if_neg hi]
      by_cases hD : D t
      · rw [stay _ ((hT t).1 hD)]
        exact ⟨D, hS, hT⟩
      · have ht := (hT t).2 hD
        cases hA : A t with
        | none =>
          rw [hA] at ht
          rw [stay _ ht]
          exact ⟨D, hS, hT⟩
        | some a =>
          rw [hA] at ht
          have hvalid : s.mem.Valid a.1 a.2 := by
            have := hv t a hA
            simp only [Mem.Valid, hS.size_eq] at this ⊢
            exact this
          have e1 : (s.step t).mem = s.mem.set a.1 a.2 v := by
            simp only [Sys.step, ht, Prog.store, Prog.step, if_pos hvalid]
          have e2 : ∀ i, (s.step t).task i = if i = t then .ret () else s.task i := by
            intro i
            simp only [Sys.step, ht, Prog.store, Prog.step, if_pos hvalid]
          refine ⟨fun i => D i ∨ i = t, ⟨by rw [e1]; exact hS.size_eq, ?_, ?_⟩, fun i => ⟨?_, ?_⟩⟩
          · rintro b i ⟨t', h1, h2⟩
            rw [e1]
            by_cases hc : b = a.1 ∧ i = a.2
            · rw [hc.1, hc.2, Mem.set_same]
            · rw [Mem.set_other _ _ hc]
              refine hS.inside b i ⟨t', ?_, h2⟩
              rcases h1 with h1 | h1
              · exact h1
              · rw [h1, hA] at h2
                have := Option.some.inj h2
                exact absurd ⟨by rw [this], by rw [this]⟩ hc
          · intro b i hn
            rw [e1, Mem.set_other]
            · exact hS.outside b i fun ⟨t', h1, h2⟩ => hn ⟨t', Or.inl h1, h2⟩
            · exact fun hc => hn ⟨t, Or.inr rfl, by rw [hA, hc.1, hc.2]⟩
          · intro h
            rw [e2]
            by_cases hi : i = t
            · rw [if_pos hi]
            · rw [if_neg hi]
              exact (hT i).1 (h.resolve_right hi)
          · intro h
            rw [e2, if_neg fun hi => h (Or.inr hi)]
            exact (hT i).2 fun hd => h (Or.inl hd)
  refine ⟨fun σ t => ?_, fun σ => ?_, fun σ hd => ?_⟩
  · obtain ⟨D, _, hT⟩ := inv σ
    by_cases hD : D t
    · rw [(hT t).1 hD]
      exact ⟨by simp, by simp⟩
    · rw [(hT t).2 hD]
      cases A t <;> exact ⟨by simp [Prog.store], by simp [Prog.store]⟩
  · obtain ⟨τ, h⟩ := L.finish ((L.sys m).exec σ)
    exact ⟨τ, fun t => by rw [Sys.exec_append]; exact h t⟩
  · obtain ⟨D, hS, hT⟩ := inv σ
    have all : ∀ t a, A t = some a → D t := by
      intro t a ha
      by_contra hD
      have h1 := hd t
      rw [(hT t).2 hD, ha] at h1
      exact h1
    refine ⟨hS.size_eq, fun b i ⟨t, h⟩ => hS.inside b i ⟨t, all t _ h, h⟩, fun b i h => hS.outside b i fun ⟨t, _, h2⟩ => h ⟨t, h2⟩⟩

theorem launch1D_ok {d : CudaDevice} {w : Nat} (s : d.Serves w 1) (hw : 0 < w) (kernel : Nat → Nat → Prog UInt8 Unit)
    {μ : Type} : ∃ L : Launch, (launch1D d w kernel : M μ Launch) = pure L ∧ L.kernel = kernel ∧ L.Covers w 1 := by
  obtain ⟨t, t1, t2, t3, hc⟩ := getGrid1_cases (μ := μ) s.tpos s.bx hw s.wsmall
  have := s.gx t t1 t2
  rcases hc with ⟨hb, e⟩ | ⟨hb, e⟩
  · omega
  · refine ⟨⟨⟨(w + t - 1) / t, 1, t, 1, u32⟩, kernel⟩, by rw [launch1D, e, pure_bind'], rfl, ?_⟩
    obtain ⟨s1, s2, _⟩ := blocks_span t1 hw
    have := s.wsmall
    exact Geometry.covers (N := 4294967296) u32_keeps s1 (Nat.le_refl 1) (by show (w + t - 1) / t * t ≤ _; omega) (by show 1 * 1 ≤ _; omega)

end PV.Cuda
