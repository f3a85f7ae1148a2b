import Verif.CudaSetPixel
import Verif.PropsReduce
import Verif.PropsForms
import Verif.PropsCuda
/-
  Property C115: SetPixel on a CUDA device.
-/
namespace PV.Props

open PV.Cuda (Stamped)

/-! ### What is asked of the image -/

/-- An existing image with any number of colours. -/
structure AnyImage (m : BMem) (img : Image) : Prop where
  wf : img.WF m
  data : img.data ≠ 0
  colors : img.cc = 1 ∨ img.cc = 3 ∨ img.cc = 4

theorem GrayImage.any {m : BMem} {img : Image} (g : GrayImage m img) : AnyImage m img := ⟨g.wf, g.data, Or.inl g.cc⟩

/-- The byte with number `x` of row `y`. -/
def byteAt (img : Image) (x y : Nat) : Nat := y * img.rowSize + x

/-! ### Lemmas -/

/-- The address the kernels compute; it is inside the image. -/
theorem AnyImage.addr {m : BMem} {img : Image} (g : AnyImage m img) {x y : Nat} (hx : x < img.width) (hy : y < img.height) :
    u32 (u32 (y * img.rowSize) + x) = byteAt img x y ∧ m.Valid img.data (byteAt img x y) := by
  have hcc : 1 ≤ img.cc := by rcases g.colors with h | h | h <;> omega
  have h1 : img.width * 1 ≤ img.width * img.cc := Nat.mul_le_mul_left _ hcc
  have h2 := g.wf.row
  have h3 : (y + 1) * img.rowSize ≤ img.height * img.rowSize := Nat.mul_le_mul_right _ hy
  rw [Nat.add_mul, Nat.one_mul] at h3
  have h4 := g.wf.small
  have h5 := g.wf.block
  rw [Nat.mul_comm img.rowSize] at h4 h5
  refine ⟨by rw [u32_of_lt (n := y * img.rowSize) (by omega), u32_of_lt (by omega), byteAt], g.data, ?_⟩
  rw [byteAt]
  omega

theorem byteAt_gray {img : Image} (h : img.cc = 1) (x y : Nat) : byteAt img x y = (whole img).cell x y 0 := by
  simp [byteAt, View.cell, whole, h]

theorem AnyImage.valid {m : BMem} {img : Image} (g : AnyImage m img) : validateImage img m = .ok () m := validImage_ok g.colors g.data _

/-! ### One pixel -/

/-- **C115.** What `SetPixel( image, x, y, value )` does with an image of any number of colours: byte `x` of row `y` gets the value, and
    no other byte is changed. -/
theorem C115_setPixel_exact {d : CudaDevice} {m : BMem} {img : Image} (g : AnyImage m img) {x y : Nat} (value : UInt8)
    (hx : x < img.width) (hy : y < img.height) (s : d.Serves 1 1) :
    Runs (Cuda.SetPixel d img x y value) m fun m' => Stamped m m' value fun c => c = (img.data, byteAt img x y) := by
  obtain ⟨L, e, hk, hL⟩ := Cuda.launch1D_ok (μ := BMem) s (by decide) (Cuda.kernelSetPixel img x y value)
  obtain ⟨a1, a2⟩ := g.addr hx hy
  refine ⟨L, ?_, ?_⟩
  · have ht : (decide (x ≥ img.width) || decide (y ≥ img.height)) = false := by
      simp only [Bool.or_eq_false_iff, decide_eq_false_iff_not]
      omega
    rw [Cuda.SetPixel, bind_ok g.valid, ht, throwIf_false, pure_bind', e]
    rfl
  · refine (Cuda.Launch.always_stamp (v := value) (fun _ => some (img.data, byteAt img x y)) (fun t => ?_) ?_).mono ?_
    · rw [hk, Cuda.kernelSetPixel, if_pos ⟨hx, hy⟩, a1]
    · intro t a ha
      rw [← Option.some.inj ha]
      exact a2
    · intro m' h
      obtain ⟨t, _⟩ := hL.cover 0 0 (by decide) (by decide)
      exact ⟨h.size_eq, fun b i hc => h.inside b i ⟨t, by rw [hc]⟩, fun b i hc => h.outside b i fun ⟨_, h2⟩ => hc (Option.some.inj h2).symm⟩

/-- **C115.** `SetPixel( image, x, y, value )` sets exactly this pixel, as on the host.  Partial: gray-scale images; colour images are
    not refused, and another pixel is set (`C115_setPixel_wrong`). -/
theorem C115_setPixel_partial {d : CudaDevice} {m : BMem} {img : Image} (g : GrayImage m img) {x y : Nat} (value : UInt8)
    (hx : x < img.width) (hy : y < img.height) (s : d.Serves 1 1) :
    Runs (Cuda.SetPixel d img x y value) m fun m' => WritesRoi m m' ⟨img, x, y⟩ 1 1 fun _ _ _ => value := by
  refine (C115_setPixel_exact g.any value hx hy s).mono fun m' h => ⟨h.size_eq, ?_, ?_⟩
  · intro x' y' c' hx' hy' hc'
    have hc' : c' < img.cc := hc'
    rw [g.cc] at hc'
    obtain rfl : x' = 0 := by omega
    obtain rfl : y' = 0 := by omega
    obtain rfl : c' = 0 := by omega
    refine h.inside _ _ ?_
    simp [byteAt, View.cell, g.cc]
  · intro b i hn
    refine h.outside b i fun hc => hn ?_
    obtain ⟨h1, h2⟩ := Prod.mk.inj hc
    refine ⟨h1, 0, 0, 0, by decide, by decide, ?_, ?_⟩
    · show 0 < img.cc
      rw [g.cc]
      decide
    · rw [h2]
      simp [byteAt, View.cell, g.cc]

/-- **C115.** The pixel is the same one the host function sets: the memory afterwards is the same. -/
theorem C115_setPixel_host {d : CudaDevice} {m : BMem} {img : Image} (g : GrayImage m img) {x y : Nat} (value : UInt8)
    (hx : x < img.width) (hy : y < img.height) (s : d.Serves 1 1) :
    ∃ m', SetPixel img x y value m = .ok () m' ∧ Runs (Cuda.SetPixel d img x y value) m fun m'' =>
      m''.size = m'.size ∧ ∀ b i, m''.byte b i = m'.byte b i := by
  obtain ⟨m', h1, h2, _⟩ := C30_setPixel g value hx hy
  refine ⟨m', h1, (C115_setPixel_partial g value hx hy s).mono fun m'' h => ⟨h.size_eq.trans h2.size_eq.symm, fun b i => ?_⟩⟩
  by_cases hc : b = img.data ∧ ∃ x' y' c', x' < 1 ∧ y' < 1 ∧ c' < img.cc ∧ i = (⟨img, x, y⟩ : View).cell x' y' c'
  · obtain ⟨rfl, x', y', c', hx', hy', hc', rfl⟩ := hc
    exact (h.inside x' y' c' hx' hy' hc').trans (h2.inside x' y' c' hx' hy' hc').symm
  · rw [h.outside b i hc, h2.outside b i hc]

/-- **C115.** Empty images and points outside of the image: an exception, and nothing is started. -/
theorem C115_setPixel_rejects (d : CudaDevice) {m : BMem} {img : Image} {x y : Nat} (value : UInt8)
    (hb : img.data = 0 ∨ ¬ (img.cc = 1 ∨ img.cc = 3 ∨ img.cc = 4) ∨ img.width ≤ x ∨ img.height ≤ y) :
    Cuda.SetPixel d img x y value m = .throw m := by
  by_cases h1 : img.data = 0 ∨ ¬ (img.cc = 1 ∨ img.cc = 3 ∨ img.cc = 4)
  · refine bind_throw ?_
    rw [validateImage, invalidImage h1]
    rfl
  · have hv : validateImage img m = .ok () m :=
      validImage_ok (by by_cases hc : img.cc = 1 ∨ img.cc = 3 ∨ img.cc = 4; exact hc; exact absurd (Or.inr hc) h1) (fun e => h1 (Or.inl e)) _
    rw [Cuda.SetPixel, bind_ok hv]
    refine bind_throw ?_
    have : (decide (x ≥ img.width) || decide (y ≥ img.height)) = true := by
      simp only [Bool.or_eq_true, decide_eq_true_eq]
      tauto
    rw [this]
    exact throwIf_true m

/-! ### A list of pixels -/

theorem check_points {img : Image} {L : List (Nat × Nat)} (m : BMem) :
    ((∀ p ∈ L, p.1 < img.width ∧ p.2 < img.height) →
      fold (fun p _ => throwIf (decide (p.1 ≥ img.width) || decide (p.2 ≥ img.height))) L () m = .ok () m) ∧
    ((∃ p ∈ L, ¬ (p.1 < img.width ∧ p.2 < img.height)) →
      fold (fun p _ => throwIf (decide (p.1 ≥ img.width) || decide (p.2 ≥ img.height))) L () m = .throw m) := by
  induction L with
  | nil => exact ⟨fun _ => rfl, fun ⟨p, hp, _⟩ => by simp at hp⟩
  | cons q qs ih =>
    show (_ → (throwIf _ >>= fun _ => fold _ qs ()) m = _) ∧ (_ → (throwIf _ >>= fun _ => fold _ qs ()) m = _)
    by_cases hq : q.1 < img.width ∧ q.2 < img.height
    · have : (decide (q.1 ≥ img.width) || decide (q.2 ≥ img.height)) = false := by
        simp only [Bool.or_eq_false_iff, decide_eq_false_iff_not]
        omega
      rw [this, throwIf_false, pure_bind']
      refine ⟨fun h => ih.1 fun p hp => h p (List.mem_cons_of_mem _ hp), fun ⟨p, hp, hn⟩ => ih.2 ⟨p, ?_, hn⟩⟩
      rcases List.mem_cons.1 hp with rfl | hp
      · exact absurd hq hn
      · exact hp
    · have : (decide (q.1 ≥ img.width) || decide (q.2 ≥ img.height)) = true := by
        simp only [Bool.or_eq_true, decide_eq_true_eq]
        omega
      rw [this]
      exact ⟨fun h => absurd (h q (List.mem_cons_self ..)) hq, fun _ => bind_throw (throwIf_true m)⟩

/-- **C115.** What `SetPixel( image, X, Y, value )` does with an image of any number of colours, in every order of the threads and
    also if points are repeated. -/
theorem C115_setPixels_exact {d : CudaDevice} {m : BMem} {img : Image} (g : AnyImage m img) {X Y : List Nat} (value : UInt8)
    (hne : X ≠ []) (hlen : X.length = Y.length) (hin : ∀ p ∈ X.zip Y, p.1 < img.width ∧ p.2 < img.height) (s : d.Serves X.length 1) :
    Runs (Cuda.SetPixels d img X Y value) m fun m' =>
      Stamped m m' value fun c => ∃ p ∈ X.zip Y, c = (img.data, byteAt img p.1 p.2) := by
  have hpos : 0 < X.length := List.length_pos_of_ne_nil hne
  have hsmall : X.length < 4294967296 := by
    have := s.wsmall
    have := s.tpos
    omega
  obtain ⟨L, e, hk, hL⟩ := Cuda.launch1D_ok (μ := BMem) s hpos (Cuda.kernelSetPixels img X Y X.length value)
  refine ⟨L, ?_, ?_⟩
  · have ht : (X.length != Y.length) = false := by simp [hlen]
    rw [Cuda.SetPixels, bind_ok g.valid, ht, throwIf_false, pure_bind', if_pos hpos, bind_ok ((check_points m).1 hin), u32_of_lt hsmall, e]
    rfl
  have hz : (X.zip Y).length = X.length := by simp [hlen]
  refine (Cuda.Launch.always_stamp (v := value)
    (fun t => (X.zip Y)[L.posX t]?.map fun p => (img.data, byteAt img p.1 p.2)) (fun t => ?_) ?_).mono ?_
  · rw [hk, Cuda.kernelSetPixels]
    by_cases hi : L.posX t < X.length
    · have hY : L.posX t < Y.length := by omega
      have hZ : L.posX t < (X.zip Y).length := by omega
      have hp := hin _ (List.getElem_mem hZ)
      have ez : (X.zip Y)[L.posX t] = (X[L.posX t], Y[L.posX t]) := List.getElem_zip
      rw [if_pos hi, List.getElem?_eq_getElem hi, List.getElem?_eq_getElem hY, List.getElem?_eq_getElem hZ]
      rw [ez] at hp ⊢
      simp only [Option.map_some]
      rw [if_pos hp, (g.addr hp.1 hp.2).1]
    · rw [if_neg hi, List.getElem?_eq_none (by omega)]
      rfl
  · intro t a ha
    obtain ⟨p, h1, rfl⟩ := Option.map_eq_some_iff.1 ha
    have hp := hin p (List.mem_of_getElem? h1)
    exact (g.addr hp.1 hp.2).2
  · intro m' h
    refine ⟨h.size_eq, ?_, ?_⟩
    · rintro b i ⟨p, hp, hc⟩
      obtain ⟨k, hk1, hk2⟩ := List.getElem_of_mem hp
      obtain ⟨t, t1, _⟩ := hL.cover k 0 (by omega) (by decide)
      refine h.inside b i ⟨t, ?_⟩
      rw [t1, List.getElem?_eq_getElem hk1, hk2, hc]
      rfl
    · intro b i hn
      refine h.outside b i fun ⟨t, ht⟩ => hn ?_
      obtain ⟨p, h1, h2⟩ := Option.map_eq_some_iff.1 ht
      exact ⟨p, List.mem_of_getElem? h1, h2.symm⟩

/-- **C115.** The list form sets exactly these pixels.  Partial: gray-scale images and at least one point (`C115_setPixels_empty`). -/
theorem C115_setPixels_partial {d : CudaDevice} {m : BMem} {img : Image} (g : GrayImage m img) {X Y : List Nat} (value : UInt8)
    (hne : X ≠ []) (hlen : X.length = Y.length) (hin : ∀ p ∈ X.zip Y, p.1 < img.width ∧ p.2 < img.height) (s : d.Serves X.length 1) :
    Runs (Cuda.SetPixels d img X Y value) m fun m' => m'.size = m.size ∧
      (∀ p ∈ X.zip Y, (whole img).get m' p.1 p.2 0 = value) ∧
      ∀ b i, ¬ (b = img.data ∧ ∃ p ∈ X.zip Y, i = (whole img).cell p.1 p.2 0) → m'.byte b i = m.byte b i := by
  refine (C115_setPixels_exact g.any value hne hlen hin s).mono fun m' h => ⟨h.size_eq, fun p hp => ?_, fun b i hn => ?_⟩
  · refine h.inside _ _ ⟨p, hp, ?_⟩
    rw [byteAt_gray g.cc]
    rfl
  · refine h.outside b i fun ⟨p, hp, hc⟩ => hn ?_
    obtain ⟨h1, h2⟩ := Prod.mk.inj hc
    exact ⟨h1, p, hp, by rw [h2, byteAt_gray g.cc]⟩

/-- **C115.** Unlike on the host a list with a point outside of the image, or lists of different length, change nothing at all. -/
theorem C115_setPixels_rejects (d : CudaDevice) {m : BMem} {img : Image} {X Y : List Nat} (value : UInt8)
    (hb : img.data = 0 ∨ ¬ (img.cc = 1 ∨ img.cc = 3 ∨ img.cc = 4) ∨ X.length ≠ Y.length ∨
      ∃ p ∈ X.zip Y, ¬ (p.1 < img.width ∧ p.2 < img.height)) :
    Cuda.SetPixels d img X Y value m = .throw m := by
  by_cases h1 : img.data = 0 ∨ ¬ (img.cc = 1 ∨ img.cc = 3 ∨ img.cc = 4)
  · refine bind_throw ?_
    rw [validateImage, invalidImage h1]
    rfl
  have hv : validateImage img m = .ok () m :=
    validImage_ok (by by_cases hc : img.cc = 1 ∨ img.cc = 3 ∨ img.cc = 4; exact hc; exact absurd (Or.inr hc) h1) (fun e => h1 (Or.inl e)) _
  rw [Cuda.SetPixels, bind_ok hv]
  by_cases hl : X.length = Y.length
  · have hp : ∃ p ∈ X.zip Y, ¬ (p.1 < img.width ∧ p.2 < img.height) := by
      rcases hb with h | h | h | h
      · exact absurd (Or.inl h) h1
      · exact absurd (Or.inr h) h1
      · exact absurd hl h
      · exact h
    have ht : (X.length != Y.length) = false := by simp [hl]
    have hpos : X.length > 0 := by
      obtain ⟨p, hp, _⟩ := hp
      cases X with
      | nil => simp at hp
      | cons a as => simp
    rw [ht, throwIf_false, pure_bind', if_pos hpos, bind_throw ((check_points m).2 hp)]
  · have ht : (X.length != Y.length) = true := by simp [hl]
    rw [ht]
    exact bind_throw (throwIf_true m)

/-- **C115.** Empty lists are accepted and change nothing; the host function refuses them. -/
theorem C115_setPixels_empty (d : CudaDevice) {m : BMem} {img : Image} (g : AnyImage m img) (value : UInt8) :
    Runs (Cuda.SetPixels d img [] [] value) m (fun m' => m' = m) ∧ SetPixels img [] [] value m = .throw m := by
  refine ⟨⟨Cuda.noLaunch, ?_, ?_, ?_, ?_⟩, ?_⟩
  · rw [Cuda.SetPixels, bind_ok g.valid]
    rfl
  · exact fun σ t => absurd t.bx.2 (Nat.not_lt_zero _)
  · exact fun σ => ⟨[], fun t => absurd t.bx.2 (Nat.not_lt_zero _)⟩
  · intro σ _
    cases σ with
    | nil => rfl
    | cons t _ => exact absurd t.bx.2 (Nat.not_lt_zero _)
  · rw [SetPixels]
    have : (img.empty || ([] : List Nat).isEmpty || ([] : List Nat).length != ([] : List Nat).length || img.cc != 1) = true := by
      cases img.empty <;> rfl
    rw [this]
    rfl

/-! ### Examples -/

theorem grayImage_padded : GrayImage exMem (padded 1) := ⟨⟨by decide, by decide, by decide⟩, by decide, rfl⟩
theorem anyImage_rgb : AnyImage exMem ⟨1, 2, 1, 3, 8⟩ := ⟨⟨by decide, by decide, by decide⟩, by decide, Or.inr (Or.inl rfl)⟩

example : Runs (Cuda.SetPixel card (padded 1) 1 1 77) exMem fun m' => WritesRoi exMem m' ⟨padded 1, 1, 1⟩ 1 1 fun _ _ _ => 77 :=
  C115_setPixel_partial grayImage_padded 77 (by decide) (by decide) (card_serves (by decide) (by decide))

example : Runs (Cuda.SetPixels small (padded 1) [1, 0, 1] [1, 0, 1] 77) exMem fun m' => m'.size = exMem.size ∧
      (∀ p ∈ [1, 0, 1].zip [1, 0, 1], (whole (padded 1)).get m' p.1 p.2 0 = 77) ∧
      ∀ b i, ¬ (b = 1 ∧ ∃ p ∈ [1, 0, 1].zip [1, 0, 1], i = (whole (padded 1)).cell p.1 p.2 0) → m'.byte b i = exMem.byte b i :=
  C115_setPixels_partial grayImage_padded 77 (by decide) rfl (by decide) (small_serves (by decide) (by decide))

example : afterSeq (Cuda.SetPixels small (padded 1) [1, 0, 1] [1, 0, 1] 77) exMem 1 5 = some 77 := by decide +kernel

/-- Setting the second pixel of an RGB image changes the first one and not the second. -/
theorem C115_setPixel_wrong : AnyImage exMem ⟨1, 2, 1, 3, 8⟩ ∧
    ∀ Q : BMem → Prop, Runs (Cuda.SetPixel small ⟨1, 2, 1, 3, 8⟩ 1 0 77) exMem Q → ∃ m', Q m' ∧
      (whole ⟨1, 2, 1, 3, 8⟩).get m' 0 0 1 = 77 ∧ (whole ⟨1, 2, 1, 3, 8⟩).get exMem 0 0 1 ≠ 77 ∧
      ∀ c, c < 3 → (whole ⟨1, 2, 1, 3, 8⟩).get m' 1 0 c ≠ 77 := by
  refine ⟨anyImage_rgb, fun Q hr => ?_⟩
  obtain ⟨L, e, hA⟩ := hr
  obtain ⟨L', e', hA'⟩ := C115_setPixel_exact (d := small) anyImage_rgb 77 (x := 1) (y := 0) (by decide) (by decide)
    (small_serves (by decide) (by decide))
  obtain rfl : L = L' := (Res.ok.inj (e.symm.trans e')).1
  obtain ⟨τ, hd⟩ := hA.ends []
  have h := hA'.result _ hd
  refine ⟨_, hA.result _ hd, h.inside 1 1 rfl, by decide, fun c hc => ?_⟩
  show (((L.sys exMem).exec ([] ++ τ)).mem).byte 1 _ ≠ 77
  rw [h.outside]
  · have : c = 0 ∨ c = 1 ∨ c = 2 := by omega
    rcases this with rfl | rfl | rfl <;> decide
  · have : c = 0 ∨ c = 1 ∨ c = 2 := by omega
    rcases this with rfl | rfl | rfl <;> decide

end PV.Props
