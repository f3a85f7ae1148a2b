import Verif.AllocInv
/-
  More about the memory pool: the exact effect of `allocate`, and that `free` undoes it when
  nothing happened in between.
-/
namespace PV.Alloc

/-- Every chunk starts at a multiple of its size. Not in the code: for statements and proofs. -/
def Buddy (f : List (List Nat)) : Prop := ∀ (i : Nat) l, f[i]? = some l → ∀ o ∈ l, 2 ^ i ∣ o

/-- The lists `reserve` builds: at most one chunk per level. -/
theorem reserveLoop_shape :
    ∀ {fuel size done : Nat} {f f' : List (List Nat)}, size ≤ 9223372036854775808 →
      (done = 0 → f = []) →
      (∀ i : Nat, 2 ^ i ≤ size → i < f.length → f[i]? = some []) →
      (∀ i : Nat, 2 ^ i ≤ size → 2 ^ i ∣ done) →
      (∀ (i : Nat) l, f[i]? = some l → l.length ≤ 1) → Buddy f →
      reserveLoop fuel size done f = some f' →
      (∀ (i : Nat) l, f'[i]? = some l → l.length ≤ 1) ∧ Buddy f'
  | 0, _, _, _, _, _, _, _, _, _, _, h => by simp [reserveLoop] at h
  | fuel + 1, size, done, f, f', hsz, h0, hem, hdv, hlen, hb, h => by
    rw [reserveLoop] at h
    split at h
    · simp only [Option.some.injEq] at h
      subst h
      exact ⟨hlen, hb⟩
    · next hs0 =>
      obtain ⟨lv, e1, e2, e3⟩ := topLevel_ok hs0 hsz
      simp only [e1, Option.bind_eq_bind, Option.bind_some] at h
      generalize hlv : (if 2 ^ lv > size then lv - 1 else lv) = lv' at e2 e3 h
      have hpos : 0 < 2 ^ lv' := Nat.pow_pos (by omega)
      generalize hg : (if done = 0 then List.replicate (lv' + 1) [] else f) = g at h
      -- the vector after the possible resize
      have gem : ∀ i : Nat, 2 ^ i ≤ size → i < g.length → g[i]? = some [] := by
        rw [← hg]
        split
        · intro i _ hi
          simp only [List.length_replicate] at hi
          simp [List.getElem?_replicate, hi]
        · exact hem
      have glen : ∀ (i : Nat) l, g[i]? = some l → l.length ≤ 1 := by
        rw [← hg]
        split
        · intro i l hi
          have := List.mem_of_getElem? hi
          rw [List.mem_replicate] at this
          simp [this.2]
        · exact hlen
      have gb : Buddy g := by
        rw [← hg]
        split
        · intro i l hi o ho
          have := List.mem_of_getElem? hi
          rw [List.mem_replicate] at this
          simp [this.2] at ho
        · exact hb
      by_cases hgl : lv' < g.length
      · have hgi := gem lv' e2 hgl
        rw [modLevel_some hgi] at h
        simp only [Option.bind_some] at h
        have hsucc : 2 ^ (lv' + 1) = 2 ^ lv' + 2 ^ lv' := by rw [Nat.pow_succ]; omega
        have hlow : ∀ i : Nat, 2 ^ i ≤ size - 2 ^ lv' → i < lv' := by
          intro i hi
          by_cases hc : i < lv'
          · exact hc
          · have := Nat.pow_le_pow_right (n := 2) (by omega) (Nat.le_of_not_lt hc)
            omega
        refine reserveLoop_shape (by omega) (by omega) ?_ ?_ ?_ ?_ h
        · intro i hi hil
          have := hlow i hi
          rw [List.getElem?_set_ne (by omega)]
          exact gem i (by omega) (by simpa using hil)
        · intro i hi
          have := hlow i hi
          exact Nat.dvd_add (hdv i (by omega)) (Nat.pow_dvd_pow 2 (by omega))
        · intro i l hi
          rw [List.getElem?_set, if_pos hgl] at hi
          split at hi
          · simp only [Option.some.injEq] at hi
            simp [← hi, sIns]
          · exact glen i l hi
        · intro i l hi o ho
          rw [List.getElem?_set, if_pos hgl] at hi
          split at hi
          · next hii =>
            subst hii
            simp only [Option.some.injEq] at hi
            simp only [← hi, sIns, List.mem_singleton] at ho
            subst ho
            exact hdv _ e2
          · exact gb i l hi o ho
      · have : g[lv']? = none := by simp; omega
        simp [modLevel, this] at h

theorem noAdj_of_short {f : List (List Nat)} (h : ∀ (i : Nat) l, f[i]? = some l → l.length ≤ 1) :
    NoAdj f := by
  intro i l hl o ho ho2
  have hp : 0 < 2 ^ i := Nat.pow_pos (by omega)
  have := h i l hl
  match l, this with
  | [], _ => simp at ho
  | [x], _ =>
    simp only [List.mem_singleton] at ho ho2
    omega

/-- The exact effect of `allocate` when it is served by the pool. Not in the code: for statements and proofs. -/
structure Taken (s s' : State) (o r d : Nat) (vs : List Nat) : Prop where
  top : s.free[r + d]? = some (o :: vs)
  gap : ∀ j, r ≤ j → j < r + d → s.free[j]? = some []
  free : ∀ i : Nat, s'.free[i]? = if r ≤ i ∧ i < r + d then some [o + 2 ^ i]
    else if i = r + d then some vs else s.free[i]?
  used : s'.used = (o, r) :: s.used
  size : s'.size = s.size
  locked : s'.locked = s.locked
  unlocked : s.locked = false
  size_ne : s.size ≠ 0

theorem allocate_pool {s s' : State} (h : Inv s) {n sz o : Nat}
    (ha : allocate s n sz = (.pool o, s')) :
    ∃ r d vs, getLevel (n * sz % 18446744073709551616) = some r ∧ Taken s s' o r d vs := by
  obtain ⟨_, _, _, _, _, hu⟩ := inv_allocate h n sz
  have hu := hu o (by rw [ha])
  rw [ha] at hu
  rw [allocate] at ha
  split at ha
  · simp at ha
  · next hlock =>
    simp only at ha
    split at ha
    · next hsz =>
      obtain ⟨r, e1, e2, e3⟩ := getLevel_ok (n := n * sz % 18446744073709551616)
        (by have := h.small; omega)
      simp only [e1] at ha
      cases hf : findLevel s.free r with
      | none => simp [split, hf] at ha
      | some t =>
        obtain ⟨h1, h2, ⟨v, vs, h3⟩, h4⟩ := findLevel_some hf
        obtain ⟨d, rfl⟩ : ∃ d, t = r + d := ⟨t - r, by omega⟩
        obtain ⟨f', k1, k2, k3⟩ := splitLoop_exact (start := r) (d := d) h3
          (fun j hj => h4 _ (by omega) (by omega))
        have hsp : split s.free r = some (true, f') := by
          rw [split, hf]
          simp only [show r + d - r = d by omega, k1, Option.map_some]
        obtain ⟨ws, hws⟩ : ∃ ws, f'[r]? = some (v :: ws) := by
          rw [k3]
          by_cases hd : d = 0
          · subst hd
            exact ⟨vs, by simpa using h3⟩
          · exact ⟨[v + 2 ^ r], by simp [hd]⟩
        have hrl : r < f'.length := (List.getElem?_eq_some_iff.1 hws).1
        simp only [hsp, hws, modLevel_some hws] at ha
        simp only [Prod.mk.injEq, Out.pool.injEq] at ha
        obtain ⟨rfl, rfl⟩ := ha
        obtain ⟨l, hl, hl2⟩ := hu
        have hlr : l = r := by
          simp only at hl
          split at hl
          · have := congrArg List.length hl
            simp at this
          · simp only [List.cons.injEq, Prod.mk.injEq] at hl
            exact hl.1.2.symm
        subst hlr
        refine ⟨l, d, vs, e1, ⟨h3, h4, fun i => ?_, hl, rfl, rfl, by simpa using hlock, hsz.1⟩⟩
        simp only [List.tail_cons]
        by_cases hil : i = l
        · subst hil
          rw [List.getElem?_set_self hrl]
          by_cases hd : d = 0
          · subst hd
            rw [k3] at hws
            simp only [if_true] at hws
            rw [Nat.add_zero] at h3
            rw [h3] at hws
            simp only [Option.some.injEq, List.cons.injEq, true_and] at hws
            simp [hws]
          · rw [k3, if_neg hd, if_pos rfl] at hws
            simp only [Option.some.injEq, List.cons.injEq, true_and] at hws
            rw [if_pos ⟨by omega, by omega⟩, hws]
        · rw [List.getElem?_set_ne (Ne.symm hil), k3]
          by_cases hd : d = 0
          · subst hd
            rw [if_pos rfl, if_neg (by omega), if_neg (by omega)]
          · rw [if_neg hd, if_neg hil]
            by_cases hb : l < i ∧ i < l + d
            · rw [if_pos hb, if_pos ⟨by omega, hb.2⟩]
            · rw [if_neg hb, if_neg (by omega : ¬ (l ≤ i ∧ i < l + d))]
    · simp at ha

theorem allocate_heap {s s' : State} {n sz : Nat} (ha : allocate s n sz = (.heap, s')) : s' = s := by
  rw [allocate] at ha
  split at ha
  · simp at ha
  · simp only at ha
    split at ha
    · split at ha
      · simp at ha
      · next level _ =>
        split at ha
        · simp at ha
        · next f hsp =>
          rw [split] at hsp
          split at hsp
          · simp only [Option.some.injEq, Prod.mk.injEq, true_and] at hsp
            subst hsp
            simp only [Prod.mk.injEq, true_and] at ha
            exact ha.symm
          · simp [Option.map_eq_some_iff] at hsp
        · split at ha
          · split at ha <;> simp at ha
          · simp at ha
    · simp only [Prod.mk.injEq, true_and] at ha
      exact ha.symm

theorem sIns_front {v : Nat} {vs : List Nat} (h : Asc (v :: vs)) : sIns v vs = v :: vs := by
  cases vs with
  | nil => rfl
  | cons w ws => rw [sIns, if_pos ((List.pairwise_cons.1 h).1 w (by simp))]

/-- Merging upwards after the chunk has come back puts the lists into the old shape. -/
theorem mergeLoop_undo {o : Nat} {vs : List Nat} {f : List (List Nat)} :
    ∀ {d k r : Nat} {g : List (List Nat)}, f[r + d]? = some (o :: vs) → Asc (o :: vs) →
      (∀ j, r ≤ j → j < r + d → f[j]? = some []) →
      (∀ p ∈ o :: vs, p ≠ o + 2 ^ (r + d)) →
      k = g.length - r → g.length = f.length →
      (∀ i : Nat, g[i]? = if d = 0 then f[i]? else if i = r then some [o, o + 2 ^ r]
        else if r < i ∧ i < r + d then some [o + 2 ^ i] else if i = r + d then some vs else f[i]?) →
      mergeLoop k r o g = some f
  | 0, k, r, g, hf, ha, _, hn, hk, hlen, hg => by
    have hgf : g = f := List.ext_getElem? fun i => by simpa using hg i
    subst hgf
    have hlt : r + 0 < g.length := (List.getElem?_eq_some_iff.1 hf).1
    obtain ⟨k', rfl⟩ : ∃ k', k = k' + 1 := ⟨k - 1, by omega⟩
    rw [Nat.add_zero] at hf hn
    rw [mergeLoop, hf]
    simp only
    rw [if_pos (by simp)]
    have hprev : touchPrev r o (o :: vs) = none := by
      rw [touchPrev]
      cases hp : sPrev o (o :: vs) with
      | none => rfl
      | some p =>
        obtain ⟨h1, h2⟩ := sPrev_some hp
        rcases List.mem_cons.1 h1 with rfl | h1
        · omega
        · have := (List.pairwise_cons.1 ha).1 p h1
          omega
    have ht : touching r o (o :: vs) = none := by
      rw [touching]
      cases hs : sNext o (o :: vs) with
      | none => exact hprev
      | some n =>
        simp only
        split
        · obtain ⟨h1, h2⟩ := sNext_some hs
          exact absurd (show n = o + 2 ^ r by omega) (hn n h1)
        · exact hprev
    simp only [ht]
  | d + 1, k, r, g, hf, ha, hgap, hn, hk, hlen, hg => by
    have hlt : r + (d + 1) < f.length := (List.getElem?_eq_some_iff.1 hf).1
    have hp : 0 < 2 ^ r := Nat.pow_pos (by omega)
    have hp1 : 0 < 2 ^ (r + 1) := Nat.pow_pos (by omega)
    obtain ⟨k', rfl⟩ : ∃ k', k = k' + 1 := ⟨k - 1, by omega⟩
    have hgr : g[r]? = some [o, o + 2 ^ r] := by simp [hg]
    rw [mergeLoop, hgr]
    simp only
    rw [if_pos (by simp)]
    have hs : sNext o [o, o + 2 ^ r] = some (o + 2 ^ r) := by
      simp [sNext]
    have ht : touching r o [o, o + 2 ^ r] = some (o, o + 2 ^ r) := by
      rw [touching, hs]
      simp only
      rw [if_pos (by omega)]
    simp only [ht]
    have hr0 : ∀ x y : Nat, (([o, o + 2 ^ r] : List Nat).erase o).erase (o + 2 ^ r) = [] := by simp
    by_cases hd : d = 0
    · subst hd
      have hg1 : g[r + 1]? = some vs := by
        rw [hg]
        simp
      rw [modLevel_some hg1]
      simp only [Option.bind_eq_bind, Option.bind_some]
      rw [modLevel_some (l := [o, o + 2 ^ r]) (by rw [List.getElem?_set_ne (by omega), hgr])]
      simp only [Option.bind_some]
      refine mergeLoop_undo (d := 0) (vs := vs) (by simpa [Nat.add_assoc] using hf) ha
        (fun j h1 h2 => by omega) (by simpa [Nat.add_assoc] using hn) (by simp; omega)
        (by simpa using hlen) ?_
      intro i
      rw [if_pos rfl]
      by_cases hi : i = r
      · subst hi
        rw [List.getElem?_set_self (by simp; omega), hgap _ (by omega) (by omega)]
        simp
      · rw [List.getElem?_set_ne (by omega)]
        by_cases hi1 : i = r + 1
        · subst hi1
          rw [List.getElem?_set_self (by omega), sIns_front ha, ← hf]
        · rw [List.getElem?_set_ne (by omega), hg]
          simp only [Nat.zero_add, if_neg hi, if_neg hi1]
          rw [if_neg (by omega), if_neg (by omega)]
    · have hg1 : g[r + 1]? = some [o + 2 ^ (r + 1)] := by
        rw [hg, if_neg (by omega), if_neg (by omega), if_pos ⟨by omega, by omega⟩]
      rw [modLevel_some hg1]
      simp only [Option.bind_eq_bind, Option.bind_some]
      rw [modLevel_some (l := [o, o + 2 ^ r]) (by rw [List.getElem?_set_ne (by omega), hgr])]
      simp only [Option.bind_some]
      have hadd : r + 1 + d = r + (d + 1) := by omega
      refine mergeLoop_undo (d := d) (vs := vs) (by rw [hadd]; exact hf) ha
        (fun j h1 h2 => hgap j (by omega) (by omega)) (by rw [hadd]; exact hn) (by simp; omega)
        (by simpa using hlen) ?_
      intro i
      rw [if_neg hd]
      by_cases hi : i = r
      · subst hi
        rw [List.getElem?_set_self (by simp; omega), if_neg (by omega), if_neg (by omega),
          if_neg (by omega), hgap _ (by omega) (by omega)]
        simp
      · rw [List.getElem?_set_ne (by omega)]
        by_cases hi1 : i = r + 1
        · subst hi1
          rw [List.getElem?_set_self (by omega), if_pos rfl]
          simp [sIns]
        · rw [List.getElem?_set_ne (by omega), hg, if_neg (by omega), if_neg hi, if_neg hi1, hadd]
          by_cases hi2 : r < i ∧ i < r + (d + 1)
          · rw [if_pos hi2, if_pos ⟨by omega, hi2.2⟩]
          · rw [if_neg hi2, if_neg (by omega : ¬ (r + 1 < i ∧ i < r + (d + 1)))]

theorem getElem?_isSome' {f : List (List Nat)} {i : Nat} : f[i]?.isSome = true ↔ i < f.length := by
  simp

/-- Freeing a block right after it was allocated gives back the very same allocator. -/
theorem free_allocate {s s' : State} (h : Inv s) (hn : NoAdj s.free) {n sz o : Nat}
    (ha : allocate s n sz = (.pool o, s')) : free s' o = (.done, s) := by
  obtain ⟨r, d, vs, _, ht⟩ := allocate_pool h ha
  have hlt : r + d < s.free.length := (List.getElem?_eq_some_iff.1 ht.top).1
  have hasc := h.cover.asc _ _ ht.top
  have hlen : s'.free.length = s.free.length := by
    have h1 : ∀ i : Nat, i < s'.free.length ↔ i < s.free.length := by
      intro i
      rw [← getElem?_isSome', ← getElem?_isSome', ht.free i]
      split
      · have : i < s.free.length := by omega
        simp [this]
      · split
        · next hi => simp [hi, hlt]
        · rfl
    by_cases hc : s'.free.length ≤ s.free.length
    · by_cases hc2 : s.free.length ≤ s'.free.length
      · omega
      · have := (h1 s'.free.length).2 (by omega)
        omega
    · have := (h1 s.free.length).1 (by omega)
      omega
  obtain ⟨lr, hlr⟩ : ∃ lr, s'.free[r]? = some lr := ⟨s'.free[r]'(by omega), by simp⟩
  have hnn : ∀ p ∈ o :: vs, p ≠ o + 2 ^ (r + d) := fun p hp he =>
    hn _ _ ht.top o (by simp) (he ▸ hp)
  have hins : sIns o lr = if d = 0 then o :: vs else [o, o + 2 ^ r] := by
    rw [ht.free] at hlr
    by_cases hd : d = 0
    · subst hd
      rw [if_neg (by omega), if_pos (by omega), Option.some.injEq] at hlr
      rw [if_pos rfl, ← hlr, sIns_front hasc]
    · rw [if_pos ⟨by omega, by omega⟩, Option.some.injEq] at hlr
      have hp : 0 < 2 ^ r := Nat.pow_pos (by omega)
      rw [if_neg hd, ← hlr]
      simp [sIns]
  have hm := mergeLoop_undo (f := s.free) (o := o) (vs := vs) (d := d) (r := r)
    (g := s'.free.set r (sIns o lr)) ht.top hasc (fun j h1 h2 => ht.gap j h1 h2) hnn rfl
    (by simpa using hlen) (by
      intro i
      by_cases hi : i = r
      · subst hi
        rw [List.getElem?_set_self (by omega), hins]
        by_cases hd : d = 0
        · subst hd
          simpa using ht.top.symm
        · simp [hd]
      · rw [List.getElem?_set_ne (by omega), ht.free]
        by_cases hd : d = 0
        · subst hd
          rw [if_pos rfl, if_neg (by omega), if_neg (by omega)]
        · rw [if_neg hd, if_neg hi]
          by_cases hb : r < i ∧ i < r + d
          · rw [if_pos hb, if_pos ⟨by omega, hb.2⟩]
          · rw [if_neg hb, if_neg (by omega : ¬ (r ≤ i ∧ i < r + d))])
  have hnk : ∀ p ∈ s.used, p.1 ≠ o := by
    intro p hp he
    have h1 := usedCnt_pos (b := o) hp
    rw [he, inC_self] at h1
    have h2 := levelCnt_pos (b := o) (k := r + d) (l := o :: vs) (x := o) (by simp)
    have h3 := levelCnt_le_freeCnt (b := o) (k := 0) ht.top
    rw [Nat.zero_add] at h3
    rw [inC_self] at h2
    have h4 := h.cover.cov o
    split at h4 <;> omega
  rw [free, if_neg (by rw [ht.locked, ht.unlocked]; simp), if_neg (by rw [ht.size]; exact ht.size_ne),
    ht.used, List.find?_cons_of_pos (by simp)]
  simp only [modLevel_some hlr, hm]
  simp only [Prod.mk.injEq, true_and]
  have hfil : (((o, r) :: s.used).filter fun p => p.1 != o) = s.used := by
    rw [List.filter_cons_of_neg (by simp), List.filter_eq_self]
    intro p hp
    simpa using hnk p hp
  rw [hfil, ht.size, ht.locked]

theorem noAdj_allocate {s s' : State} (h : Inv s) (hn : NoAdj s.free) {n sz o : Nat}
    (ha : allocate s n sz = (.pool o, s')) : NoAdj s'.free := by
  obtain ⟨r, d, vs, _, ht⟩ := allocate_pool h ha
  intro i l hl p hp hp2
  have hpos : 0 < 2 ^ i := Nat.pow_pos (by omega)
  rw [ht.free] at hl
  split at hl
  · simp only [Option.some.injEq] at hl
    subst hl
    simp only [List.mem_singleton] at hp hp2
    omega
  · split at hl
    · next hi =>
      simp only [Option.some.injEq] at hl
      subst hl hi
      exact hn _ _ ht.top p (by simp [hp]) (by simp [hp2])
    · exact hn i l hl p hp hp2

theorem buddy_allocate {s s' : State} (h : Inv s) (hb : Buddy s.free) {n sz o : Nat}
    (ha : allocate s n sz = (.pool o, s')) :
    Buddy s'.free ∧ ∃ r, getLevel (n * sz % 18446744073709551616) = some r ∧ 2 ^ r ∣ o := by
  obtain ⟨r, d, vs, hr, ht⟩ := allocate_pool h ha
  have ho : 2 ^ (r + d) ∣ o := hb _ _ ht.top o (by simp)
  refine ⟨?_, r, hr, Nat.dvd_trans (Nat.pow_dvd_pow 2 (by omega)) ho⟩
  intro i l hl p hp
  rw [ht.free] at hl
  split at hl
  · next hi =>
    simp only [Option.some.injEq] at hl
    subst hl
    simp only [List.mem_singleton] at hp
    subst hp
    exact Nat.dvd_add (Nat.dvd_trans (Nat.pow_dvd_pow 2 (by omega)) ho) (Nat.dvd_refl _)
  · split at hl
    · next hi =>
      simp only [Option.some.injEq] at hl
      subst hl hi
      exact hb _ _ ht.top p (by simp [hp])
    · exact hb i l hl p hp

theorem noAdj_free {s : State} (h : Inv s) (hn : NoAdj s.free) (o : Nat) : NoAdj (free s o).2.free := by
  rw [free]
  split
  · exact hn
  · split
    · exact hn
    · cases hf : s.used.find? fun p => p.1 == o with
      | none => exact hn
      | some q =>
        obtain ⟨qo, l⟩ := q
        have h1 := List.mem_of_find?_eq_some hf
        have h2 : qo = o := by simpa using List.find?_some hf
        subst h2
        have hlen := h.level _ h1
        obtain ⟨fl, hfl⟩ : ∃ fl, s.free[l]? = some fl := ⟨s.free[l], by simp⟩
        have c1 : Cover s.free (fun b => usedCnt b (s.used.filter fun p => p.1 != qo) + inC b l qo)
            s.size := h.cover.congr fun b => (usedCnt_filter h.nodup h1).symm
        have c2 := c1.insert hfl
        obtain ⟨f', e1, e2, e3, e4⟩ := mergeLoop_ok (level := l) (o := qo) c2 (by simpa using h.top) rfl
          (by rw [List.getElem?_set_self hlen]) (mem_sIns.2 (Or.inl rfl))
        simp only [modLevel_some hfl, e1]
        exact e4 (hn.insert hfl)

theorem reserve_shape {s : State} {n : Nat} (hn : n ≤ 9223372036854775808)
    (hu : (reserve s n).1 = .done) :
    (reserve s n).2 = s ∨ (NoAdj (reserve s n).2.free ∧ Buddy (reserve s n).2.free) := by
  rw [reserve] at hu ⊢
  split
  · exact Or.inl rfl
  · next h0 =>
    split
    · exact Or.inl rfl
    · split
      · exact Or.inl rfl
      · next hl =>
        split
        · next hs hus =>
          simp [h0, hs, hl, hus] at hu
        · cases hr : reserveLoop (n + 1) n 0 [] with
          | none => exact Or.inl rfl
          | some f =>
            have := reserveLoop_shape (f := []) hn (by simp) (by simp) (by simp) (by simp)
              (by intro i l hl; simp at hl) hr
            exact Or.inr ⟨noAdj_of_short this.1, this.2⟩

end PV.Alloc
