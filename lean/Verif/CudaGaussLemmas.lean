import Verif.CudaGauss
import Verif.CudaFftLemmas
/-
  Lemmas for CudaGauss.lean.
-/
namespace PV.CudaGauss
open PV PV.CudaFft

variable {R : Type}

/-- All threads of every launch come to their end. -/
def Complete (order : Order R) : Prop := ∀ (L : VLaunch R) (m : Mem R) (t : L.Thread), (((L.sys m).exec (order L m)).task t).Done

theorem exists_complete : ∃ order : Order R, Complete order := by
  have h : ∀ (L : VLaunch R) (m : Mem R), ∃ τ, ∀ t, (((L.sys m).exec τ).task t).Done := fun L m => L.finish (L.sys m)
  exact ⟨fun L m => Classical.choose (h L m), fun L m => Classical.choose_spec (h L m)⟩

theorem wait_ok {order : Order R} (ho : Complete order) {L : VLaunch R} {m : Mem R} {Q : Mem R → Prop} (h : L.Always m Q) :
    ∃ m', wait order L m = .ok () m' ∧ Q m' := by
  refine ⟨((L.sys m).exec (order L m)).mem, ?_, h.result _ (ho L m)⟩
  have hn : (L.threads.any fun t => wrong (((L.sys m).exec (order L m)).task t)) = false := by
    rw [List.any_eq_false]
    intro t _
    have h1 := h.safe (order L m) t
    revert h1
    cases ((L.sys m).exec (order L m)).task t with
    | throw => exact fun h => absurd rfl h.1
    | ub => exact fun h => absurd rfl h.2
    | _ => exact fun _ => by simp [wrong]
  show (if _ then _ else _) = _
  rw [hn]
  rfl

theorem cufftExec_ok {T : Cufft R} {inverse : Bool} {nx ny b : Nat} {m : Mem R} (hb : b ≠ 0) (hs : 2 * (nx * ny) ≤ m.size b) :
    cufftExec T inverse nx ny b m = .ok () ⟨m.size, transformed T inverse nx ny b m⟩ := if_pos ⟨hb, hs⟩

/-- The complex number k of the array in block b -/
def cplx (m : Mem R) (b k : Nat) : R × R := (m.byte b (2 * k), m.byte b (2 * k + 1))

theorem transform_ok {T : Cufft R} {inverse : Bool} {c : Fft.Obj} {m : Mem R} (hb : c.data ≠ 0) (hs : m.size c.data = 2 * (c.width * c.height)) :
    ∃ m', transform T inverse c.width c.height c m = .ok () m' ∧ m'.size = m.size ∧
      (∀ k, k < c.width * c.height → cplx m' c.data k = T inverse c.width c.height (cplx m c.data) k) ∧
      ∀ b, b ≠ c.data → ∀ i, m'.byte b i = m.byte b i := by
  refine ⟨⟨m.size, transformed T inverse c.width c.height c.data m⟩, ?_, rfl, fun k hk => ?_, fun b hb i => if_neg fun h => hb h.1⟩
  · have h1 : (!(c.width == c.width && c.height == c.height)) = false := by simp
    rw [transform, h1, throwIf_false, pure_bind']
    exact cufftExec_ok hb (by omega)
  · refine Prod.ext ?_ ?_
    · show transformed _ _ _ _ _ _ _ _ = _
      rw [transformed, if_pos ⟨rfl, by omega⟩]
      dsimp only
      rw [if_pos (by omega), Nat.mul_div_cancel_left _ (by omega)]
      rfl
    · show transformed _ _ _ _ _ _ _ _ = _
      rw [transformed, if_pos ⟨rfl, by omega⟩]
      dsimp only
      rw [if_neg (by omega), show (2 * k + 1) / 2 = k by omega]
      rfl

/-- A cell which no thread can write -/
theorem exec_frame {ι A : Type} [DecidableEq ι] {b i : Nat} {Rd Wr : ι → Nat × Nat → Prop} (hn : ∀ t, ¬ Wr t (b, i)) :
    ∀ (σ : List ι) (s : Sys R A ι), (∀ t, (s.task t).Foot (Rd t) (Wr t)) → (s.exec σ).mem.byte b i = s.mem.byte b i
  | [], _, _ => rfl
  | t :: σ, s, hf => by
    show ((s.step t).exec σ).mem.byte b i = _
    rw [exec_frame (Rd := Rd) hn σ (s.step t) ?_]
    · show ((s.task t).step s.mem).2.byte b i = _
      have h := hf t
      revert h
      cases s.task t with
      | write b' i' v c =>
        intro h
        show ((if s.mem.Valid b' i' then (c, s.mem.set b' i' v) else ((.ub : Prog R A), s.mem)).2).byte b i = _
        split
        · exact Mem.set_other _ _ fun he => hn t (by rw [he.1, he.2]; exact h.1)
        · rfl
      | read b' i' c =>
        intro _
        show ((if s.mem.Valid b' i' then (c (s.mem.byte b' i'), s.mem) else ((.ub : Prog R A), s.mem)).2).byte b i = _
        split <;> rfl
      | _ => exact fun _ => rfl
    · intro t'
      show Prog.Foot _ _ (if t' = t then _ else _)
      split
      · rename_i he
        rw [he]
        exact Prog.foot_step (hf t) _
      · exact hf t'

theorem wait_frame {order : Order R} {L : VLaunch R} {m m' : Mem R} {b i : Nat} {Rd Wr : Nat → Nat → Nat × Nat → Prop} (hf : ∀ x y, (L.kernel x y).Foot (Rd x y) (Wr x y))
    (hn : ∀ x y, ¬ Wr x y (b, i)) (h : wait order L m = .ok () m') : m'.byte b i = m.byte b i := by
  have h : (if _ then _ else _) = Res.ok () m' := h
  split at h
  · cases h
  · injection h with _ h
    rw [← h]
    exact exec_frame (Rd := fun t => Rd (L.posX t) (L.posY t)) (Wr := fun t => Wr (L.posX t) (L.posY t)) (fun t => hn _ _) _ _ fun t => hf _ _

/-- Product of two arrays into the first one: the imaginary part is made with the new real part. -/
theorem multiply_alias_always [Field R] {rnd : R → R} {L : VLaunch R} {m : Mem R} {p q w h : Nat} (hp : p ≠ 0) (hq : q ≠ 0) (hqp : q ≠ p)
    (hs : w * h < 4294967296) (sp : 2 * (w * h) ≤ m.size p) (sq : 2 * (w * h) ≤ m.size q)
    (hL : L.Covers w h) (hk : L.kernel = vguarded w h (multiply rnd p q p w)) :
    L.Always m fun m' => m'.size = m.size ∧
      (∀ i, i < w * h →
        m'.byte p (2 * i) = rnd (rnd (m.byte p (2 * i) * m.byte q (2 * i)) - rnd (m.byte p (2 * i + 1) * m.byte q (2 * i + 1))) ∧
        m'.byte p (2 * i + 1) = rnd (rnd (m'.byte p (2 * i) * m.byte q (2 * i + 1)) + rnd (m.byte p (2 * i + 1) * m.byte q (2 * i)))) ∧
      ∀ b k, ¬ (b = p ∧ k < 2 * (w * h)) → m'.byte b k = m.byte b k := by
  refine (VLaunch.positions hL hk
    (R := fun x y a => a = (p, 2 * (y * w + x)) ∨ a = (p, 2 * (y * w + x) + 1) ∨ a = (q, 2 * (y * w + x)) ∨ a = (q, 2 * (y * w + x) + 1))
    (Wr := fun x y a => a = (p, 2 * (y * w + x)) ∨ a = (p, 2 * (y * w + x) + 1))
    (F := fun _ k => if k % 2 = 0
      then rnd (rnd (m.byte p k * m.byte q k) - rnd (m.byte p (k + 1) * m.byte q (k + 1)))
      else rnd (rnd (rnd (rnd (m.byte p (k - 1) * m.byte q (k - 1)) - rnd (m.byte p k * m.byte q k)) * m.byte q k)
        + rnd (m.byte p k * m.byte q (k - 1)))) ?_ ?_ ?_).mono ?_
  · intro x y hx hy
    rw [multiply, ident_eq hs hx hy]
    refine Prog.foot_bind (Prog.foot_load (Or.inl rfl)) fun _ => Prog.foot_bind (Prog.foot_load (Or.inr (Or.inr (Or.inl rfl)))) fun _ =>
      Prog.foot_bind (Prog.foot_load (Or.inr (Or.inl rfl))) fun _ => Prog.foot_bind (Prog.foot_load (Or.inr (Or.inr (Or.inr rfl)))) fun _ =>
      Prog.foot_bind (Prog.foot_store _ (Or.inl rfl)) fun _ =>
      Prog.foot_bind (Prog.foot_load (Or.inl rfl)) fun _ => Prog.foot_bind (Prog.foot_load (Or.inr (Or.inr (Or.inr rfl)))) fun _ =>
      Prog.foot_bind (Prog.foot_load (Or.inr (Or.inl rfl))) fun _ => Prog.foot_bind (Prog.foot_load (Or.inr (Or.inr (Or.inl rfl)))) fun _ =>
      Prog.foot_store _ (Or.inr rfl)
  · intro x y x' y' hx hy hx' hy' a ha hr
    have key : y * w + x = y' * w + x' := by
      have hb : a.1 = p := by rcases ha with rfl | rfl <;> rfl
      have ha2 : a.2 = 2 * (y * w + x) ∨ a.2 = 2 * (y * w + x) + 1 := by
        rcases ha with rfl | rfl
        · exact Or.inl rfl
        · exact Or.inr rfl
      have hr2 : a.2 = 2 * (y' * w + x') ∨ a.2 = 2 * (y' * w + x') + 1 := by
        rcases hr with (rfl | rfl | rfl | rfl) | (rfl | rfl)
        · exact Or.inl rfl
        · exact Or.inr rfl
        · exact absurd hb hqp
        · exact absurd hb hqp
        · exact Or.inl rfl
        · exact Or.inr rfl
      omega
    obtain ⟨e1, e2⟩ := mul_add_inj hx hx' key
    exact ⟨e2, e1⟩
  · intro x y hx hy
    have hlt := ident_lt hx hy
    obtain ⟨k, hk⟩ : ∃ k, k = y * w + x := ⟨_, rfl⟩
    rw [← hk] at hlt
    obtain ⟨v, hv⟩ : ∃ v, v = rnd (rnd (m.byte p (2 * k) * m.byte q (2 * k)) - rnd (m.byte p (2 * k + 1) * m.byte q (2 * k + 1))) := ⟨_, rfl⟩
    refine ⟨(m.set p (2 * k) v).set p (2 * k + 1)
      (rnd (rnd (v * m.byte q (2 * k + 1)) + rnd (m.byte p (2 * k + 1) * m.byte q (2 * k)))), ?_, ?_⟩
    · rw [multiply, ident_eq hs hx hy, ← hk]
      simp only [Prog.run_bind, Prog.run_load, Prog.run_store]
      have ap : ∀ (v : R), (m.set p (2 * k) v).byte p (2 * k + 1) = m.byte p (2 * k + 1) := fun v => Mem.set_other _ _ (by omega)
      have aq : ∀ (v : R) (i : Nat), (m.set p (2 * k) v).byte q i = m.byte q i := fun v i => Mem.set_other _ _ fun h => hqp h.1
      rw [bind_ok (readC_ok ⟨hp, by omega⟩), bind_ok (readC_ok ⟨hq, by omega⟩), bind_ok (readC_ok ⟨hp, by omega⟩), bind_ok (readC_ok ⟨hq, by omega⟩),
        ← hv, bind_ok (writeC_ok _ ⟨hp, by omega⟩), bind_ok (readC_ok ⟨hp, by rw [Mem.set_size]; omega⟩),
        bind_ok (readC_ok ⟨hq, by rw [Mem.set_size]; omega⟩), bind_ok (readC_ok ⟨hp, by rw [Mem.set_size]; omega⟩),
        bind_ok (readC_ok ⟨hq, by rw [Mem.set_size]; omega⟩), writeC_ok _ ⟨hp, by rw [Mem.set_size]; omega⟩, ap, aq, aq, Mem.set_same]
    · rw [← hk]
      rintro b i (hi | hi)
      · obtain ⟨rfl, rfl⟩ := Prod.mk.inj hi
        rw [Mem.set_other _ _ (by omega), Mem.set_same, if_pos (by omega), hv]
      · obtain ⟨rfl, rfl⟩ := Prod.mk.inj hi
        rw [Mem.set_same, if_neg (by omega), hv]
        rfl
  · rintro m' ⟨h1, h2, h3⟩
    refine ⟨h1, fun i hi => ?_, fun b k hn => h3 b k fun x y hx hy hw => hn ?_⟩
    · have hw : 0 < w := Nat.pos_of_ne_zero fun h => by rw [h, Nat.zero_mul] at hi; omega
      have e : i = i / w * w + i % w := by rw [Nat.mul_comm, Nat.div_add_mod]
      have hx : i % w < w := Nat.mod_lt _ hw
      have hy : i / w < h := by rw [Nat.div_lt_iff_lt_mul hw, Nat.mul_comm]; exact hi
      have e1 := h2 (i % w) (i / w) p (2 * i) hx hy (Or.inl (by rw [← e]))
      rw [if_pos (by omega)] at e1
      refine ⟨e1, ?_⟩
      rw [h2 (i % w) (i / w) p (2 * i + 1) hx hy (Or.inr (by rw [← e])), if_neg (by omega), e1]
      rfl
    · have hlt := ident_lt hx hy
      rcases hw with hw | hw
      · obtain ⟨rfl, rfl⟩ := Prod.mk.inj hw
        exact ⟨rfl, by omega⟩
      · obtain ⟨rfl, rfl⟩ := Prod.mk.inj hw
        exact ⟨rfl, by omega⟩

end PV.CudaGauss
