import Verif.CudaFft
/-
  Lemmas about the kernels of cuda_fft.cu.
-/
namespace PV.CudaFft
open PV

variable {R : Type}

theorem ident_eq {w h x y : Nat} (hs : w * h < 4294967296) (hx : x < w) (hy : y < h) : ident w x y = y * w + x := by
  have := mul_add_lt hy hx
  have hcm : h * w = w * h := Nat.mul_comm _ _
  rw [ident, u32_of_lt (n := y * w) (by omega), u32_of_lt (by omega)]

theorem ident_lt {w h x y : Nat} (hx : x < w) (hy : y < h) : y * w + x < w * h := by
  have := mul_add_lt hy hx
  rw [Nat.mul_comm w h]
  exact this

theorem swapped_lt {k n : Nat} (hk : k < n) (hn : n < 4294967296) : swapped k n < n := by
  rw [swapped]
  split
  · rw [u32_of_lt (by omega)]
    omega
  · omega

theorem swapped_twice {k n : Nat} (hk : k < n) (hn : n < 4294967296) (he : n % 2 = 0) : swapped (swapped k n) n = k := by
  by_cases h : k < n / 2
  · have e : swapped k n = n / 2 + k := by rw [swapped, if_pos h, u32_of_lt (by omega)]
    rw [e, swapped, if_neg (by omega)]
    omega
  · have e : swapped k n = k - n / 2 := by rw [swapped, if_neg h]
    rw [e, swapped, if_pos (by omega), u32_of_lt (by omega)]
    omega

/-- Copying into complex numbers -/
theorem copyFrom_always [Zero R] {L : VLaunch R} {m : Mem R} {inp out w h : Nat} (hi : inp ≠ 0) (ho : out ≠ 0) (hne : inp ≠ out)
    (hs : w * h < 4294967296) (si : w * h ≤ m.size inp) (so : 2 * (w * h) ≤ m.size out) (hL : L.Covers w h)
    (hk : L.kernel = vguarded w h (copyFrom inp out w)) :
    L.Always m fun m' => m'.size = m.size ∧
      (∀ x y, x < w → y < h → m'.byte out (2 * (y * w + x)) = m.byte inp (y * w + x) ∧ m'.byte out (2 * (y * w + x) + 1) = 0) ∧
      ∀ b k, ¬ (b = out ∧ k < 2 * (w * h)) → m'.byte b k = m.byte b k := by
  refine (VLaunch.positions hL hk (R := fun x y a => a = (inp, y * w + x))
    (Wr := fun x y a => a = (out, 2 * (y * w + x)) ∨ a = (out, 2 * (y * w + x) + 1))
    (F := fun _ k => if k % 2 = 0 then m.byte inp (k / 2) else 0) ?_ ?_ ?_).mono ?_
  · intro x y hx hy
    rw [copyFrom, ident_eq hs hx hy]
    exact Prog.foot_bind (Prog.foot_load rfl) fun _ => Prog.foot_bind (Prog.foot_store _ (Or.inl rfl)) fun _ => Prog.foot_store _ (Or.inr rfl)
  · intro x y x' y' hx hy hx' hy' a ha hr
    have key : y * w + x = y' * w + x' := by
      rcases ha with rfl | rfl
      · rcases hr with hr | hr | hr
        · exact absurd (Prod.mk.inj hr).1.symm hne
        · have := (Prod.mk.inj hr).2
          omega
        · have := (Prod.mk.inj hr).2
          omega
      · rcases hr with hr | hr | hr
        · exact absurd (Prod.mk.inj hr).1.symm hne
        · have := (Prod.mk.inj hr).2
          omega
        · have := (Prod.mk.inj hr).2
          omega
    obtain ⟨e1, e2⟩ := mul_add_inj hx hx' key
    exact ⟨e2, e1⟩
  · intro x y hx hy
    have hlt := ident_lt hx hy
    refine ⟨(m.set out (2 * (y * w + x)) (m.byte inp (y * w + x))).set out (2 * (y * w + x) + 1) 0, ?_, ?_⟩
    · rw [copyFrom, ident_eq hs hx hy, Prog.run_bind, Prog.run_load, bind_ok (readC_ok ⟨hi, by omega⟩), Prog.run_bind, Prog.run_store,
        bind_ok (writeC_ok _ ⟨ho, by omega⟩), Prog.run_store, writeC_ok _ ⟨ho, by rw [Mem.set_size]; omega⟩]
    · rintro b k (hk | hk)
      · obtain ⟨rfl, rfl⟩ := Prod.mk.inj hk
        rw [Mem.set_other _ _ (by omega), Mem.set_same, if_pos (by omega), Nat.mul_div_cancel_left _ (by omega)]
      · obtain ⟨rfl, rfl⟩ := Prod.mk.inj hk
        rw [Mem.set_same, if_neg (by omega)]
  · rintro m' ⟨h1, h2, h3⟩
    refine ⟨h1, fun x y hx hy => ⟨?_, ?_⟩, fun b k hn => h3 b k fun x y hx hy hw => hn ?_⟩
    · rw [h2 x y _ _ hx hy (Or.inl rfl), if_pos (by omega), Nat.mul_div_cancel_left _ (by omega)]
    · rw [h2 x y _ _ hx hy (Or.inr rfl), if_neg (by omega)]
    · have hlt := ident_lt hx hy
      rcases hw with hw | hw
      · obtain ⟨rfl, rfl⟩ := Prod.mk.inj hw
        exact ⟨rfl, by omega⟩
      · obtain ⟨rfl, rfl⟩ := Prod.mk.inj hw
        exact ⟨rfl, by omega⟩

/-- Copying to an image of even size: the quadrants are swapped. -/
theorem copyTo_always [Field R] [LinearOrder R] [FloorRing R] {rnd : R → R} {size : R} {L : VLaunch R} {m : Mem R} {inp out w h : Nat} (hi : inp ≠ 0) (ho : out ≠ 0) (hne : inp ≠ out)
    (hs : w * h < 4294967296) (hw : w % 2 = 0) (hh : h % 2 = 0) (si : 2 * (w * h) ≤ m.size inp) (so : w * h ≤ m.size out) (hL : L.Covers w h)
    (hk : L.kernel = vguarded w h (copyToImage rnd inp out size w h)) {P : Nat → Nat → R}
    (hP : ∀ x y, x < w → y < h → pixelOf rnd (m.byte inp (2 * (y * w + x))) size = some (P x y)) :
    L.Always m fun m' => m'.size = m.size ∧
      (∀ x y, x < w → y < h → m'.byte out (swapped y h * w + swapped x w) = P x y) ∧
      ∀ b k, ¬ (b = out ∧ k < w * h) → m'.byte b k = m.byte b k := by
  have hsm : ∀ {x y}, x < w → y < h → w < 4294967296 ∧ h < 4294967296 := by
    intro x y hx hy
    have h1 : w * 1 ≤ w * h := Nat.mul_le_mul_left _ (by omega)
    have h2 : 1 * h ≤ w * h := Nat.mul_le_mul_right _ (by omega)
    omega
  refine (VLaunch.positions hL hk (R := fun x y a => a = (inp, 2 * (y * w + x)))
    (Wr := fun x y a => a = (out, swapped y h * w + swapped x w))
    (F := fun _ k => P (swapped (k % w) w) (swapped (k / w) h)) ?_ ?_ ?_).mono ?_
  · intro x y hx hy
    obtain ⟨w1, h1⟩ := hsm hx hy
    rw [copyToImage, ident_eq hs hx hy, ident_eq hs (swapped_lt hx w1) (swapped_lt hy h1)]
    refine Prog.foot_bind (Prog.foot_load rfl) fun v => ?_
    cases pixelOf rnd v size with
    | none => trivial
    | some p => exact Prog.foot_store _ rfl
  · intro x y x' y' hx hy hx' hy' a ha hr
    obtain ⟨w1, h1⟩ := hsm hx hy
    rw [ha] at hr
    rcases hr with hr | hr
    · exact absurd (Prod.mk.inj hr).1.symm hne
    · obtain ⟨e1, e2⟩ := mul_add_inj (swapped_lt hx w1) (swapped_lt hx' w1) (Prod.mk.inj hr).2
      refine ⟨?_, ?_⟩
      · rw [← swapped_twice hx w1 hw, e2, swapped_twice hx' w1 hw]
      · rw [← swapped_twice hy h1 hh, e1, swapped_twice hy' h1 hh]
  · intro x y hx hy
    obtain ⟨w1, h1⟩ := hsm hx hy
    have hlt := ident_lt hx hy
    have hx2 := swapped_lt hx w1
    have hy2 := swapped_lt hy h1
    have hlt2 := ident_lt hx2 hy2
    refine ⟨m.set out (swapped y h * w + swapped x w) (P x y), ?_, ?_⟩
    · rw [copyToImage, ident_eq hs hx hy, ident_eq hs hx2 hy2, Prog.run_bind, Prog.run_load, bind_ok (readC_ok ⟨hi, by omega⟩)]
      rw [hP x y hx hy]
      rw [Prog.run_store, writeC_ok _ ⟨ho, by omega⟩]
    · intro b k hk
      obtain ⟨rfl, rfl⟩ := Prod.mk.inj hk
      have e1 : (swapped y h * w + swapped x w) % w = swapped x w := by
        rw [Nat.mul_comm, Nat.mul_add_mod, Nat.mod_eq_of_lt hx2]
      have e2 : (swapped y h * w + swapped x w) / w = swapped y h := by
        rw [Nat.mul_comm, Nat.mul_add_div (by omega), Nat.div_eq_of_lt hx2, Nat.add_zero]
      rw [Mem.set_same, e1, e2, swapped_twice hx w1 hw, swapped_twice hy h1 hh]
  · rintro m' ⟨h1, h2, h3⟩
    refine ⟨h1, fun x y hx hy => ?_, fun b k hn => h3 b k fun x y hx hy hw => hn ?_⟩
    · obtain ⟨w1, hh1⟩ := hsm hx hy
      have hx2 := swapped_lt hx w1
      have e1 : (swapped y h * w + swapped x w) % w = swapped x w := by
        rw [Nat.mul_comm, Nat.mul_add_mod, Nat.mod_eq_of_lt hx2]
      have e2 : (swapped y h * w + swapped x w) / w = swapped y h := by
        rw [Nat.mul_comm, Nat.mul_add_div (by omega), Nat.div_eq_of_lt hx2, Nat.add_zero]
      rw [h2 x y _ _ hx hy rfl, e1, e2, swapped_twice hx w1 hw, swapped_twice hy hh1 hh]
    · obtain ⟨w1, hh1⟩ := hsm hx hy
      have hlt2 := ident_lt (swapped_lt hx w1) (swapped_lt hy hh1)
      obtain ⟨rfl, rfl⟩ := Prod.mk.inj hw
      exact ⟨rfl, hlt2⟩

/-- Product of two arrays into a third one, over the first `w` x `h` of them -/
theorem multiply_always [Field R] {rnd : R → R} {L : VLaunch R} {m : Mem R} {p q o w h : Nat} (hp : p ≠ 0) (hq : q ≠ 0) (ho : o ≠ 0) (hpo : p ≠ o)
    (hqo : q ≠ o) (hs : w * h < 4294967296) (sp : 2 * (w * h) ≤ m.size p) (sq : 2 * (w * h) ≤ m.size q) (so : 2 * (w * h) ≤ m.size o)
    (hL : L.Covers w h) (hk : L.kernel = vguarded w h (multiply rnd p q o w)) :
    L.Always m fun m' => m'.size = m.size ∧
      (∀ i, i < w * h →
        m'.byte o (2 * i) = rnd (rnd (m.byte p (2 * i) * m.byte q (2 * i)) - rnd (m.byte p (2 * i + 1) * m.byte q (2 * i + 1))) ∧
        m'.byte o (2 * i + 1) = rnd (rnd (m.byte p (2 * i) * m.byte q (2 * i + 1)) + rnd (m.byte p (2 * i + 1) * m.byte q (2 * i)))) ∧
      ∀ b k, ¬ (b = o ∧ k < 2 * (w * h)) → m'.byte b k = m.byte b k := by
  refine (VLaunch.positions hL hk
    (R := fun x y a => a = (p, 2 * (y * w + x)) ∨ a = (p, 2 * (y * w + x) + 1) ∨ a = (q, 2 * (y * w + x)) ∨ a = (q, 2 * (y * w + x) + 1))
    (Wr := fun x y a => a = (o, 2 * (y * w + x)) ∨ a = (o, 2 * (y * w + x) + 1))
    (F := fun _ k => if k % 2 = 0
      then rnd (rnd (m.byte p k * m.byte q k) - rnd (m.byte p (k + 1) * m.byte q (k + 1)))
      else rnd (rnd (m.byte p (k - 1) * m.byte q k) + rnd (m.byte p k * m.byte q (k - 1)))) ?_ ?_ ?_).mono ?_
  · intro x y hx hy
    rw [multiply, ident_eq hs hx hy]
    refine Prog.foot_bind (Prog.foot_load (Or.inl rfl)) fun _ => Prog.foot_bind (Prog.foot_load (Or.inr (Or.inr (Or.inl rfl)))) fun _ =>
      Prog.foot_bind (Prog.foot_load (Or.inr (Or.inl rfl))) fun _ => Prog.foot_bind (Prog.foot_load (Or.inr (Or.inr (Or.inr rfl)))) fun _ =>
      Prog.foot_bind (Prog.foot_store _ (Or.inl rfl)) fun _ =>
      Prog.foot_bind (Prog.foot_load (Or.inl rfl)) fun _ => Prog.foot_bind (Prog.foot_load (Or.inr (Or.inr (Or.inr rfl)))) fun _ =>
      Prog.foot_bind (Prog.foot_load (Or.inr (Or.inl rfl))) fun _ => Prog.foot_bind (Prog.foot_load (Or.inr (Or.inr (Or.inl rfl)))) fun _ =>
      Prog.foot_store _ (Or.inr rfl)
  · intro x y x' y' hx hy hx' hy' a ha hr
    have key : y * w + x = y' * w + x' := by
      have hb : a.1 = o := by rcases ha with rfl | rfl <;> rfl
      have ha2 : a.2 = 2 * (y * w + x) ∨ a.2 = 2 * (y * w + x) + 1 := by
        rcases ha with rfl | rfl
        · exact Or.inl rfl
        · exact Or.inr rfl
      have hr2 : a.2 = 2 * (y' * w + x') ∨ a.2 = 2 * (y' * w + x') + 1 := by
        rcases hr with (rfl | rfl | rfl | rfl) | (rfl | rfl)
        · exact absurd hb hpo
        · exact absurd hb hpo
        · exact absurd hb hqo
        · exact absurd hb hqo
        · exact Or.inl rfl
        · exact Or.inr rfl
      omega
    obtain ⟨e1, e2⟩ := mul_add_inj hx hx' key
    exact ⟨e2, e1⟩
  · intro x y hx hy
    have hlt := ident_lt hx hy
    obtain ⟨k, hk⟩ : ∃ k, k = y * w + x := ⟨_, rfl⟩
    rw [← hk] at hlt
    refine ⟨(m.set o (2 * k) (rnd (rnd (m.byte p (2 * k) * m.byte q (2 * k)) - rnd (m.byte p (2 * k + 1) * m.byte q (2 * k + 1))))).set o (2 * k + 1)
      (rnd (rnd (m.byte p (2 * k) * m.byte q (2 * k + 1)) + rnd (m.byte p (2 * k + 1) * m.byte q (2 * k)))), ?_, ?_⟩
    · rw [multiply, ident_eq hs hx hy, ← hk]
      simp only [Prog.run_bind, Prog.run_load, Prog.run_store]
      have ap : ∀ (v : R) (i : Nat), (m.set o (2 * k) v).byte p i = m.byte p i := fun v i => Mem.set_other _ _ fun h => hpo h.1
      have aq : ∀ (v : R) (i : Nat), (m.set o (2 * k) v).byte q i = m.byte q i := fun v i => Mem.set_other _ _ fun h => hqo h.1
      rw [bind_ok (readC_ok ⟨hp, by omega⟩), bind_ok (readC_ok ⟨hq, by omega⟩), bind_ok (readC_ok ⟨hp, by omega⟩), bind_ok (readC_ok ⟨hq, by omega⟩),
        bind_ok (writeC_ok _ ⟨ho, by omega⟩), bind_ok (readC_ok ⟨hp, by rw [Mem.set_size]; omega⟩), bind_ok (readC_ok ⟨hq, by rw [Mem.set_size]; omega⟩),
        bind_ok (readC_ok ⟨hp, by rw [Mem.set_size]; omega⟩), bind_ok (readC_ok ⟨hq, by rw [Mem.set_size]; omega⟩),
        writeC_ok _ ⟨ho, by rw [Mem.set_size]; omega⟩, ap, ap, aq, aq]
    · rw [← hk]
      rintro b i (hi | hi)
      · obtain ⟨rfl, rfl⟩ := Prod.mk.inj hi
        rw [Mem.set_other _ _ (by omega), Mem.set_same, if_pos (by omega)]
      · obtain ⟨rfl, rfl⟩ := Prod.mk.inj hi
        rw [Mem.set_same, if_neg (by omega)]
        rfl
  · rintro m' ⟨h1, h2, h3⟩
    refine ⟨h1, fun i hi => ?_, fun b k hn => h3 b k fun x y hx hy hw => hn ?_⟩
    · have hw : 0 < w := Nat.pos_of_ne_zero fun h => by rw [h, Nat.zero_mul] at hi; omega
      have e : i = i / w * w + i % w := by rw [Nat.mul_comm, Nat.div_add_mod]
      have hx : i % w < w := Nat.mod_lt _ hw
      have hy : i / w < h := by rw [Nat.div_lt_iff_lt_mul hw, Nat.mul_comm]; exact hi
      refine ⟨?_, ?_⟩
      · rw [h2 (i % w) (i / w) o (2 * i) hx hy (Or.inl (by rw [← e])), if_pos (by omega)]
      · rw [h2 (i % w) (i / w) o (2 * i + 1) hx hy (Or.inr (by rw [← e])), if_neg (by omega)]
        rfl
    · have hlt := ident_lt hx hy
      rcases hw with hw | hw
      · obtain ⟨rfl, rfl⟩ := Prod.mk.inj hw
        exact ⟨rfl, by omega⟩
      · obtain ⟨rfl, rfl⟩ := Prod.mk.inj hw
        exact ⟨rfl, by omega⟩

end PV.CudaFft
